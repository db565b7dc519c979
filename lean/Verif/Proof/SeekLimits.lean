import Verif.Spec.StartSeeker
import Verif.Proof.Table
import Verif.Proof.Foreign
/-
Lemmas: what the limits of seek-start change.
-/
namespace Mirakc.SeekLimits
open Mirakc.StartSeeker Mirakc.Spec.StartSeeker Mirakc.Pipeline Mirakc.Main

/-- The state with other packets held and another time limit. -/
def put (b : Bool) (q : List Packet) (e : Int) (s : St) : St := { s with streaming := b, packets := q, endPcr := e }

theorem put_self (s : St) : put s.streaming s.packets s.endPcr s = s := rfl

theorem map_ite {α β : Type} (f : α → β) (c : Prop) [Decidable c] (x y : Except Fault α) :
    (if c then x else y).map f = if c then x.map f else y.map f := by split <;> rfl

/-- Tables are treated alike by two seekers of the same service. -/
theorem table_put {o o' : Opt} (h : o'.sid = o.sid) (b : Bool) (q : List Packet) (e : Int) (s : St) (t : Table) :
    handleTable o' (put b q e s) t = (handleTable o s t).map (put b q e) := by
  unfold handleTable
  split
  · unfold handlePat
    simp only [map_ite, h]
    split
    · rfl
    · split
      · rfl
      · split
        · rfl
        · split <;> rfl
  · unfold handlePmt
    simp only [map_ite, h]
    split
    · rfl
    · split
      · rfl
      · split
        · next hc => rw [if_pos (by exact hc)]; rfl
        · next hc => rw [if_neg (by exact hc)]; rfl
  · rfl

theorem tables_put {o o' : Opt} (h : o'.sid = o.sid) (b : Bool) (q : List Packet) (e : Int) (pid : Nat) :
    ∀ (ts : List Table) (s : St), feedDemux St.demux (handleTable o') pid ts (put b q e s) =
      (feedDemux St.demux (handleTable o) pid ts s).map (fun r => (put b q e r.1, r.2))
  | [], _ => rfl
  | t :: ts, s => by
    unfold feedDemux
    by_cases hc : (t.sourcePid == pid && (St.demux s).contains pid) = true
    · rw [if_pos hc, if_pos (by exact hc), table_put h]
      cases handleTable o s t with
      | error x => rfl
      | ok s1 =>
        simp only [Except.map, ok_bind]
        rw [tables_put h b q e pid ts s1]
        cases feedDemux St.demux (handleTable o) pid ts s1 <;> rfl
    · rw [if_neg hc, if_neg (by exact hc)]
      exact tables_put h b q e pid ts s

/-- Tables do not touch the packets held and the time limit. -/
theorem tables_keep {o : Opt} {pid : Nat} {ts log : List Table} {s s1 : St}
    (h : feedDemux St.demux (handleTable o) pid ts s = .ok (s1, log)) :
    s1 = put s.streaming s.packets s.endPcr s1 := by
  have := tables_put (o := o) (o' := o) rfl s.streaming s.packets s.endPcr pid ts s
  rw [put_self, h] at this
  simp only [Except.map, Except.ok.injEq, Prod.mk.injEq, and_true] at this
  exact this

theorem sent_cons (it : Item) (items : List Item) : sent (it :: items) = Act.out it.act ++ sent items := rfl

/-- Once streaming, everything is passed on. -/
theorem run_streaming {o : Opt} : ∀ (is : List Input) (s t : St) (items : List Item), s.streaming = true →
    run o s is = .ok (t, items) → sent items = is.map (·.packet) ∧ t.packets = s.packets
  | [], _, _, _, _, h => by cases h; exact ⟨rfl, rfl⟩
  | i :: is, s, t, items, hs, h => by
    obtain ⟨⟨s1, log, act⟩, h1, h⟩ := bind_ok_iff.1 h
    obtain ⟨⟨t', items'⟩, h2, h⟩ := bind_ok_iff.1 h
    cases h
    obtain ⟨⟨s2, log2⟩, h3, h1⟩ := bind_ok_iff.1 h1
    have hk := tables_keep h3
    have k1 : s2.streaming = true := by rw [hk]; exact hs
    have k2 : s2.packets = s.packets := by rw [hk]; rfl
    dsimp only at h1
    rw [if_pos k1] at h1
    cases h1
    obtain ⟨j1, j2⟩ := run_streaming is _ _ _ k1 h2
    refine ⟨?_, j2.trans k2⟩
    rw [sent_cons, j1]
    rfl

/-- What `seek` does. -/
theorem seek_cases {o : Opt} {s s2 : St} {p : Packet} {act : Act} (h : seek o s p = .ok (s2, act)) :
    (0 < s.transition ∧ ∃ q, (s.packets ++ [p])[s.patIndex]? = some q ∧
      act = .lead q ((s.packets ++ [p]).drop s.transition) ∧ s2.streaming = true ∧ s2.packets = []) ∨
    (¬ 0 < s.transition ∧ act = .hold ∧ ∃ e, s2 = put s.streaming (s.packets ++ [p]) e s) ∨
    (¬ 0 < s.transition ∧ act = .burst (s.packets ++ [p]) ∧ s2.streaming = true ∧ s2.packets = []) := by
  unfold seek at h
  dsimp only at h
  split at h
  · next ht =>
    split at h
    · cases h
    · next q hq =>
      cases h
      exact Or.inl ⟨ht, q, hq, rfl, rfl, rfl⟩
  · next ht =>
    split at h
    · cases h
      exact Or.inr (Or.inr ⟨ht, rfl, rfl, rfl⟩)
    · obtain ⟨_, _, h⟩ := bind_ok_iff.1 h
      split at h
      · cases h
        exact Or.inr (Or.inl ⟨ht, rfl, s.endPcr, rfl⟩)
      · split at h
        · cases h
          exact Or.inr (Or.inl ⟨ht, rfl, s.endPcr, rfl⟩)
        · split at h
          · obtain ⟨_, _, h⟩ := bind_ok_iff.1 h
            cases h
            exact Or.inr (Or.inl ⟨ht, rfl, _, rfl⟩)
          · obtain ⟨_, _, h⟩ := bind_ok_iff.1 h
            split at h
            · cases h
              exact Or.inr (Or.inl ⟨ht, rfl, s.endPcr, rfl⟩)
            · cases h
              exact Or.inr (Or.inr ⟨ht, rfl, rfl, rfl⟩)

/-- Whatever comes after the packets have been sent. -/
theorem after {o : Opt} {is : List Input} {s t : St} {items : List Item} {it : Item} (hs : s.streaming = true)
    (hp : s.packets = []) (h : run o s is = .ok (t, items)) :
    sent (it :: items) ++ t.packets = Act.out it.act ++ is.map (·.packet) := by
  obtain ⟨h1, h2⟩ := run_streaming is s t items hs h
  rw [sent_cons, h1, h2, hp, List.append_nil]

/-- Two seekers of the same service with any limits: they send the same, or one of them sends everything. -/
theorem twins {o o' : Opt} (h : o'.sid = o.sid) : ∀ (is : List Input) (s t t' : St) (e' : Int) (items items' : List Item),
    s.streaming = false → run o s is = .ok (t, items) → run o' (put false s.packets e' s) is = .ok (t', items') →
    sent items' ++ t'.packets = sent items ++ t.packets ∨
      sent items ++ t.packets = s.packets ++ is.map (·.packet) ∨
      sent items' ++ t'.packets = s.packets ++ is.map (·.packet)
  | [], _, _, _, _, _, _, _, h1, h2 => by cases h1; cases h2; exact Or.inl rfl
  | i :: is, s, t, t', e', items, items', hs, h1, h2 => by
    obtain ⟨⟨s1, log, act⟩, ha, h1⟩ := bind_ok_iff.1 h1
    obtain ⟨⟨t1, items1⟩, hr, h1⟩ := bind_ok_iff.1 h1
    cases h1
    obtain ⟨⟨s1', log', act'⟩, hb, h2⟩ := bind_ok_iff.1 h2
    obtain ⟨⟨t1', items1'⟩, hr', h2⟩ := bind_ok_iff.1 h2
    cases h2
    obtain ⟨⟨s2, log2⟩, ha1, ha⟩ := bind_ok_iff.1 ha
    obtain ⟨⟨s2', log2'⟩, hb1, hb⟩ := bind_ok_iff.1 hb
    rw [tables_put h, ha1] at hb1
    cases hb1
    have hk := tables_keep ha1
    have k1 : s2.streaming = false := by rw [hk]; exact hs
    have k2 : s2.packets = s.packets := by rw [hk]; rfl
    dsimp only at ha hb
    rw [if_neg (by simp [k1])] at ha
    rw [if_neg (by simp [put])] at hb
    obtain ⟨⟨s3, a3⟩, hA, ha⟩ := bind_ok_iff.1 ha
    cases ha
    obtain ⟨⟨s3', a3'⟩, hB, hb⟩ := bind_ok_iff.1 hb
    cases hb
    have hp : (put false s.packets e' s2).packets = s2.packets := k2.symm
    rcases seek_cases hA with ⟨c1, q, c2, rfl, c3, c4⟩ | ⟨c1, rfl, e, rfl⟩ | ⟨c1, rfl, c3, c4⟩
    · rcases seek_cases hB with ⟨d1, q', d2, rfl, d3, d4⟩ | ⟨d1, _⟩ | ⟨d1, _⟩
      · left
        rw [after c3 c4 hr, after d3 d4 hr']
        rw [hp] at d2 ⊢
        have hq : some q' = some q := d2.symm.trans c2
        cases hq
        rfl
      · exact absurd c1 d1
      · exact absurd c1 d1
    · rcases seek_cases hB with ⟨d1, _⟩ | ⟨d1, rfl, e2, d3⟩ | ⟨d1, rfl, d3, d4⟩
      · exact absurd d1 c1
      · have hst : s3' = put false (put s2.streaming (s2.packets ++ [i.packet]) e s2).packets e2
            (put s2.streaming (s2.packets ++ [i.packet]) e s2) := by
          rw [d3, hp]; rfl
        rw [hst] at hr'
        have := twins h is (put s2.streaming (s2.packets ++ [i.packet]) e s2) t t' e2 items1 items1' k1 hr hr'
        rw [sent_cons, sent_cons]
        simp only [Act.out, List.nil_append]
        have hx : (put s2.streaming (s2.packets ++ [i.packet]) e s2).packets ++ is.map (·.packet) =
            s.packets ++ (i :: is).map (·.packet) := by
          simp [put, k2]
        rw [hx] at this
        exact this
      · right; right
        rw [after d3 d4 hr', hp, k2]
        simp [Act.out]
    · right; left
      rw [after c3 c4 hr, k2]
      simp [Act.out]

/-- While the seeker holds packets back, it does so with a higher number of packets. -/
theorem seek_more {o o' : Opt} (hd : o'.maxDuration = o.maxDuration) (hm : o.maxPackets ≠ 0)
    (hn : o'.maxPackets = 0 ∨ o.maxPackets ≤ o'.maxPackets) {s : St} {p : Packet} {r : St × Act}
    (h : seek o s p = .ok r) (hr : ∀ l, r.2 ≠ .burst l) : seek o' s p = .ok r := by
  unfold seek at h ⊢
  dsimp only at h ⊢
  by_cases ht : s.transition > 0
  · rw [if_pos ht] at h ⊢
    exact h
  · rw [if_neg ht] at h ⊢
    by_cases hc : (o.maxPackets != 0 && o.maxPackets == (s.packets ++ [p]).length) = true
    · rw [if_pos hc] at h
      cases h
      exact absurd rfl (hr _)
    · rw [if_neg hc] at h
      obtain ⟨_, ha, h⟩ := bind_ok_iff.1 h
      have hlt : (s.packets ++ [p]).length < o.maxPackets := by
        unfold assertThat at ha
        split at ha
        · next hx =>
          simp only [Bool.or_eq_true, beq_iff_eq, decide_eq_true_eq] at hx
          omega
        · cases ha
      have hc' : ¬ (o'.maxPackets != 0 && o'.maxPackets == (s.packets ++ [p]).length) = true := by
        simp only [Bool.and_eq_true, bne_iff_ne, beq_iff_eq]
        omega
      rw [if_neg hc']
      have ha' : assertThat (o'.maxPackets == 0 || decide ((s.packets ++ [p]).length < o'.maxPackets)) = .ok () := by
        unfold assertThat
        rw [if_pos (by simp only [Bool.or_eq_true, beq_iff_eq, decide_eq_true_eq]; omega)]
      rw [ha', ok_bind, hd]
      exact h

/-- With a higher number of packets: the same, or everything was sent before. -/
theorem more {o o' : Opt} (h : o'.sid = o.sid) (hd : o'.maxDuration = o.maxDuration) (hm : o.maxPackets ≠ 0)
    (hn : o'.maxPackets = 0 ∨ o.maxPackets ≤ o'.maxPackets) : ∀ (is : List Input) (s t t' : St) (items items' : List Item),
    s.streaming = false → run o s is = .ok (t, items) → run o' s is = .ok (t', items') →
    sent items' ++ t'.packets = sent items ++ t.packets ∨
      sent items ++ t.packets = s.packets ++ is.map (·.packet)
  | [], _, _, _, _, _, _, h1, h2 => by cases h1; cases h2; exact Or.inl rfl
  | i :: is, s, t, t', items, items', hs, h1, h2 => by
    obtain ⟨⟨s1, log, act⟩, ha, h1⟩ := bind_ok_iff.1 h1
    obtain ⟨⟨t1, items1⟩, hr, h1⟩ := bind_ok_iff.1 h1
    cases h1
    obtain ⟨⟨s1', log', act'⟩, hb, h2⟩ := bind_ok_iff.1 h2
    obtain ⟨⟨t1', items1'⟩, hr', h2⟩ := bind_ok_iff.1 h2
    cases h2
    obtain ⟨⟨s2, log2⟩, ha1, ha⟩ := bind_ok_iff.1 ha
    obtain ⟨⟨s2', log2'⟩, hb1, hb⟩ := bind_ok_iff.1 hb
    have hk := tables_keep ha1
    have hsame : feedDemux St.demux (handleTable o') i.packet.pid i.tables s = .ok (s2, log2) := by
      have := tables_put h s.streaming s.packets s.endPcr i.packet.pid i.tables s
      rw [put_self, ha1] at this
      rw [this]
      simp only [Except.map]
      rw [← hk]
    rw [hsame] at hb1
    cases hb1
    have k1 : s2.streaming = false := by rw [hk]; exact hs
    have k2 : s2.packets = s.packets := by rw [hk]; rfl
    dsimp only at ha hb
    rw [if_neg (by simp [k1])] at ha hb
    obtain ⟨⟨s3, a3⟩, hA, ha⟩ := bind_ok_iff.1 ha
    cases ha
    obtain ⟨⟨s3', a3'⟩, hB, hb⟩ := bind_ok_iff.1 hb
    cases hb
    rcases seek_cases hA with ⟨c1, q, c2, rfl, c3, c4⟩ | ⟨c1, rfl, e, rfl⟩ | ⟨c1, rfl, c3, c4⟩
    · have := seek_more hd hm hn hA (by simp)
      rw [this] at hB
      cases hB
      left
      rw [after c3 c4 hr, after c3 c4 hr']
    · have := seek_more hd hm hn hA (by simp)
      rw [this] at hB
      cases hB
      have := more h hd hm hn is (put s2.streaming (s2.packets ++ [i.packet]) e s2) t t' items1 items1' k1 hr hr'
      rw [sent_cons, sent_cons]
      simp only [Act.out, List.nil_append]
      have hx : (put s2.streaming (s2.packets ++ [i.packet]) e s2).packets ++ is.map (·.packet) =
          s.packets ++ (i :: is).map (·.packet) := by
        simp [put, k2]
      rw [hx] at this
      exact this
    · right
      rw [after c3 c4 hr, k2]
      simp [Act.out]

end Mirakc.SeekLimits
