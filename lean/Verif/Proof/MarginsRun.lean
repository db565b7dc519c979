import Verif.Proof.Margins
/-
For C142 and C143: two runs of the program filter with different margins.
-/
namespace Mirakc.Margins
open Mirakc.ProgramFilter Mirakc.Spec.Margins Mirakc.Spec.ProgramFilter
open Mirakc.Main (bind_ok_iff)

/-- Two states of filters that differ in the margins. -/
structure Pair (A B : Opt) (P : Int → Prop) (T : Table → Prop) (a b : St) : Prop where
  weak : Weak A B a b
  knownA : Known A P T a
  knownB : Known B P T b

/-- A state that has changed in a way that does not matter here. -/
structure Aside (s s' : St) : Prop where
  form : ∃ x l k y, s' = { s with streaming := x, lastPat := l, pk := k, retry := y }
  pid : s'.pk.pid = s.pk.pid
  table : s'.pk.table = s.pk.table

theorem Aside.refl (s : St) : Aside s s := ⟨⟨s.streaming, s.lastPat, s.pk, s.retry, rfl⟩, rfl, rfl⟩

theorem Aside.trans {a b c : St} (h : Aside a b) (k : Aside b c) : Aside a c := by
  obtain ⟨⟨_, _, _, _, rfl⟩, h2, h3⟩ := h
  obtain ⟨⟨x, l, q, y, rfl⟩, k2, k3⟩ := k
  exact ⟨⟨x, l, q, y, rfl⟩, k2.trans h2, k3.trans h3⟩

theorem Aside.save (s : St) (p : Packet) : Aside s (savePat s p) := by
  unfold savePat
  split
  · exact ⟨⟨_, _, _, _, rfl⟩, rfl, rfl⟩
  · exact .refl s

section
variable {A B : Opt} {P : Int → Prop} {T : Table → Prop} {a b a' b' : St}

theorem Known.aside {o : Opt} {s s' : St} (k : Known o P T s) (h : Aside s s') : Known o P T s' := by
  obtain ⟨⟨_, _, _, _, rfl⟩, _, _⟩ := h
  exact ⟨k.fresh, k.clock, k.event, k.range⟩

theorem Pair.aside (h : Pair A B P T a b) (ha : Aside a a') (hb : Aside b b') : Pair A B P T a' b' := by
  refine ⟨?_, h.knownA.aside ha, h.knownB.aside hb⟩
  have w := h.weak
  obtain ⟨⟨_, _, _, _, rfl⟩, h2, h3⟩ := ha
  obtain ⟨⟨_, _, _, _, rfl⟩, k2, k3⟩ := hb
  exact ⟨w.demux, w.black, k2.trans (w.pkPid.trans h2.symm), k3.trans (w.pkTable.trans h3.symm), w.clockPid, w.clockPcr,
    w.clockTime, w.pmtPid, w.pcrPid, w.pcrPidReady, w.eventTimeReady, w.clockPcrReady, w.clockTimeReady, w.start, w.end⟩

theorem Pair.sync (h : Pair A B P T a b) {q : Int} (hq : P q) (ha : syncClock a q = .ok a') (hb : syncClock b q = .ok b') :
    Pair A B P T a' b' :=
  ⟨weak_sync h.weak ha hb, known_sync h.knownA hq ha, known_sync h.knownB hq hb⟩

theorem Pair.need (h : Pair A B P T a b) : needClockSync b = needClockSync a := by
  rw [needClockSync, needClockSync, h.weak.clockTimeReady, h.weak.clockPcrReady]

/-- The tables of a packet. -/
theorem pair_tables (ht : Twins A B) {pid : Nat} {ts la lb : List Table} (h : Pair A B P T a b) (hT : ∀ t ∈ ts, T t)
    (ha : feedDemux St.demux (handleTable A) pid ts a = .ok (a', la))
    (hb : feedDemux St.demux (handleTable B) pid ts b = .ok (b', lb)) : Pair A B P T a' b' ∧ Boths A B a b a' b' := by
  have x := boths_tables ht ts _ _ _ _ _ _ h.weak ha hb
  refine ⟨⟨x.weak, ?_, ?_⟩, x⟩
  · have : ∀ (ts : List Table) (s s' : St) (l : List Table), (∀ t ∈ ts, T t) → Known A P T s →
        feedDemux St.demux (handleTable A) pid ts s = .ok (s', l) → Known A P T s' := by
      intro ts
      induction ts with
      | nil => intro s s' l _ k h; cases h; exact k
      | cons t ts ih =>
        intro s s' l hT k h
        unfold feedDemux at h
        split at h
        · obtain ⟨s1, h1, h⟩ := bind_ok_iff.1 h
          obtain ⟨⟨s2, l2⟩, h2, h⟩ := bind_ok_iff.1 h
          cases h
          exact ih _ _ _ (fun q hq => hT q (by simp [hq])) (known_table k (hT t (by simp)) h1) h2
        · exact ih _ _ _ (fun q hq => hT q (by simp [hq])) k h
    exact this ts _ _ _ hT h.knownA ha
  · have : ∀ (ts : List Table) (s s' : St) (l : List Table), (∀ t ∈ ts, T t) → Known B P T s →
        feedDemux St.demux (handleTable B) pid ts s = .ok (s', l) → Known B P T s' := by
      intro ts
      induction ts with
      | nil => intro s s' l _ k h; cases h; exact k
      | cons t ts ih =>
        intro s s' l hT k h
        unfold feedDemux at h
        split at h
        · obtain ⟨s1, h1, h⟩ := bind_ok_iff.1 h
          obtain ⟨⟨s2, l2⟩, h2, h⟩ := bind_ok_iff.1 h
          cases h
          exact ih _ _ _ (fun q hq => hT q (by simp [hq])) (known_table k (hT t (by simp)) h1) h2
        · exact ih _ _ _ (fun q hq => hT q (by simp [hq])) k h
    exact this ts _ _ _ hT h.knownB hb

/-- The conditions on the margins. -/
structure Wider (A B : Opt) (P : Int → Prop) (T : Table → Prop) : Prop where
  twins : Twins A B
  starts : A.startMargin ≤ B.startMargin
  ends : A.endMargin ≤ B.endMargin
  noStart : A.startMargin < B.startMargin → NoWrap A P T (startWith B.startMargin) (startWith A.startMargin)
  noEnd : A.endMargin < B.endMargin → NoWrap A P T (endWith A.endMargin) (endWith B.endMargin)

theorem synced {s : St} (h : needClockSync s = false) : s.clockPcrReady = true ∧ s.clockTimeReady = true := by
  unfold needClockSync at h
  cases h1 : s.clockPcrReady <;> cases h2 : s.clockTimeReady <;> simp_all

/-- If the end is reached with the larger margin, so it is with the smaller. -/
theorem end_compare (hw : Wider A B P T) (h : Pair A B P T a b) (hp : a.pcrPidReady = true) (he : a.eventTimeReady = true)
    (hn : needClockSync a = false) {q ca cb : Int} (hq : P q) (h1 : comparePcr q a.endPcr = .ok ca)
    (h2 : comparePcr q b.endPcr = .ok cb) (hc : cb ≥ 0) : ca ≥ 0 := by
  obtain ⟨c1, c2⟩ := synced hn
  have w := h.weak
  have ra := (h.knownA.range he c1 c2).2
  have rb := (h.knownB.range (by rw [w.eventTimeReady, he]) (by rw [w.clockPcrReady, c1]) (by rw [w.clockTimeReady, c2])).2
  rw [w.clockTime, w.clockPcr] at rb
  obtain ⟨e, e1, e2, e3⟩ := h.knownA.event he
  have e4 := w.end he
  have e5 : b.eventEnd = endWith B.endMargin e := by
    rw [e3] at e4
    unfold endWith at e4 ⊢
    omega
  rw [compare_spec h2, rb, e5] at hc
  rw [compare_spec h1, ra, e3]
  rcases Int.lt_or_eq_of_le hw.ends with hl | hl
  · refine reached_earlier (hw.noEnd hl) ?_ (known_clocks h.knownA hp c1 c2) e1 hq hc
    unfold endWith
    have := hw.ends
    omega
  · rw [hl]; exact hc

/-- If the start is reached with the smaller margin, so it is with the larger. -/
theorem start_compare (hw : Wider A B P T) (h : Pair A B P T a b) (hp : a.pcrPidReady = true) (he : a.eventTimeReady = true)
    (hn : needClockSync a = false) {q ca cb : Int} (hq : P q) (h1 : comparePcr q a.startPcr = .ok ca)
    (h2 : comparePcr q b.startPcr = .ok cb) :
    (ca ≥ 0 → cb ≥ 0) ∧ (A.startMargin = B.startMargin → cb ≥ 0 → ca ≥ 0) := by
  obtain ⟨c1, c2⟩ := synced hn
  have w := h.weak
  have ra := (h.knownA.range he c1 c2).1
  have rb := (h.knownB.range (by rw [w.eventTimeReady, he]) (by rw [w.clockPcrReady, c1]) (by rw [w.clockTimeReady, c2])).1
  rw [w.clockTime, w.clockPcr] at rb
  obtain ⟨e, e1, e2, e3⟩ := h.knownA.event he
  have e4 := w.start he
  have e5 : b.eventStart = startWith B.startMargin e := by
    rw [e2] at e4
    unfold startWith at e4 ⊢
    omega
  refine ⟨fun hc => ?_, fun hl hc => ?_⟩
  · rw [compare_spec h1, ra, e2] at hc
    rw [compare_spec h2, rb, e5]
    rcases Int.lt_or_eq_of_le hw.starts with hl | hl
    · refine reached_earlier (hw.noStart hl) ?_ (known_clocks h.knownA hp c1 c2) e1 hq hc
      unfold startWith
      have := hw.starts
      omega
    · rw [← hl]; exact hc
  · rw [compare_spec h2, rb, e5, ← hl] at hc
    rw [compare_spec h1, ra, e2]
    exact hc

/-! Both are streaming. -/

theorem allLike_refl : ∀ xs : List Out, AllLike xs xs
  | [] => trivial
  | _ :: xs => ⟨Or.inl rfl, allLike_refl xs⟩

theorem allLike_append : ∀ {xs ys us vs : List Out}, AllLike xs ys → AllLike us vs → AllLike (xs ++ us) (ys ++ vs)
  | [], [], _, _, _, h => h
  | _ :: _, _ :: _, _, _, h, k => ⟨h.1, allLike_append h.2 k⟩
  | [], _ :: _, _, _, h, _ => h.elim
  | _ :: _, [], _, _, h, _ => h.elim

theorem forward_pair (h : Pair A B P T a b) {extra : Pmt → Nat} {p : Packet} {oa ob : List Out} {ma mb : Bool}
    (ha : forward extra a p = .ok (a', oa, ma)) (hb : forward extra b p = .ok (b', ob, mb)) :
    ma = true ∧ mb = true ∧ Pair A B P T a' b' ∧ AllLike oa ob ∧ a'.stop = a.stop ∧ b'.stop = b.stop ∧
      a'.streaming = a.streaming ∧ b'.streaming = b.streaming ∧ a'.lastPat = a.lastPat ∧ b'.lastPat = b.lastPat ∧
      (b.pk = a.pk → ob = oa ∧ b'.pk = a'.pk) := by
  obtain ⟨rfl, fa⟩ := forward_form ha
  obtain ⟨rfl, fb⟩ := forward_form hb
  refine ⟨rfl, rfl, ?_⟩
  rcases fa with ⟨e1, x, k, e2, rfl, rfl⟩ | ⟨e1, rfl, rfl⟩
  · rcases fb with ⟨f1, y, l, f2, rfl, rfl⟩ | ⟨f1, _⟩
    · obtain ⟨t, i, rfl, e4, e5⟩ := next_form e2
      obtain ⟨t', i', rfl, f4, f5⟩ := next_form f2
      refine ⟨h.aside ⟨⟨_, _, _, _, rfl⟩, e4, e5⟩ ⟨⟨_, _, _, _, rfl⟩, f4, f5⟩, ⟨Or.inr ?_, trivial⟩, rfl, rfl, rfl, rfl, rfl,
        rfl, fun hk => ?_⟩
      · exact ⟨_, _, _, _, _, _, _, rfl, by rw [h.weak.pkPid]⟩
      · rw [hk, e2] at f2
        cases f2
        exact ⟨by rw [hk], rfl⟩
    · exact absurd (e1.trans h.weak.pmtPid.symm) f1
  · rcases fb with ⟨f1, _⟩ | ⟨f1, rfl, rfl⟩
    · exact absurd (f1.trans h.weak.pmtPid) e1
    · rw [h.weak.black]
      exact ⟨h, allLike_refl _, rfl, rfl, rfl, rfl, rfl, rfl, fun hk => ⟨rfl, hk⟩⟩

/-- A packet while both are streaming. -/
theorem stream_pair (hw : Wider A B P T) (h : Pair A B P T a b) (hs : a.stop = b.stop) (hp : a.pcrPidReady = true)
    (he : a.eventTimeReady = true) {extra : Pmt → Nat} {p : Packet} (hq : ∀ q, p.pcr = some q → P q)
    {oa ob : List Out} {ma mb : Bool}
    (ha : doStreaming extra a p = .ok (a', oa, ma)) (hb : doStreaming extra b p = .ok (b', ob, mb)) :
    (oa = [] ∧ ma = false) ∨
    (ma = true ∧ mb = true ∧ Pair A B P T a' b' ∧ AllLike oa ob ∧ a'.stop = b'.stop ∧ a'.streaming = a.streaming ∧
      b'.streaming = b.streaming ∧ a'.lastPat = a.lastPat ∧ b'.lastPat = b.lastPat ∧
      (b.pk = a.pk → ob = oa ∧ b'.pk = a'.pk)) := by
  rcases stream_form ha with ⟨_, rfl, rfl⟩ | ⟨s1, fa⟩
  · exact Or.inl ⟨rfl, rfl⟩
  rcases stream_form hb with ⟨s2, _⟩ | ⟨s2, fb⟩
  · rw [← hs, s1] at s2; cases s2
  rw [h.weak.pcrPid] at fb
  rcases fa with ⟨e1, e2, rfl, rfl, rfl⟩ | ⟨e1, e2⟩ | ⟨q, a1, e1, e2, e3, fa⟩
  · rcases fb with ⟨_, _, rfl, rfl, rfl⟩ | ⟨f1, _⟩ | ⟨_, _, _, f2, _⟩
    · exact Or.inr ⟨rfl, rfl, h, allLike_refl _, hs, rfl, rfl, rfl, rfl, fun hk => ⟨rfl, hk⟩⟩
    · exact absurd e1 f1
    · rw [e2] at f2; cases f2
  · rcases fb with ⟨f1, _⟩ | ⟨_, f2⟩ | ⟨_, _, f1, _⟩
    · exact absurd f1 e1
    · obtain ⟨k1, k2, k3, k4, k5, k6, k7, k8, k9, k10, k11⟩ := forward_pair h e2 f2
      exact Or.inr ⟨k1, k2, k3, k4, by rw [k5, k6, hs], k7, k8, k9, k10, k11⟩
    · exact absurd f1 e1
  · rcases fb with ⟨_, f2, _⟩ | ⟨f1, _⟩ | ⟨q', b1, _, f2, f3, fb⟩
    · rw [e2] at f2; cases f2
    · exact absurd e1 f1
    · rw [e2] at f2
      cases f2
      have h1 := h.sync (hq _ e2) e3 f3
      obtain ⟨sa, sa2, sa3⟩ := sync_kept e3
      obtain ⟨sb, sb2, sb3⟩ := sync_kept f3
      rw [h1.need] at fb
      rcases fa with ⟨e4, rfl, rfl, rfl⟩ | ⟨e4, ca, e5, fa⟩
      · rcases fb with ⟨f4, rfl, rfl, rfl⟩ | ⟨f4, _⟩
        · exact Or.inr ⟨rfl, rfl, h1, allLike_refl _, by rw [sa2, sb2, hs], sa.streaming, sb.streaming, sa.lastPat, sb.lastPat,
            fun hk => ⟨rfl, by rw [sa3, sb3, hk]⟩⟩
        · rw [e4] at f4; cases f4
      · rcases fb with ⟨f4, _⟩ | ⟨_, cb, f5, fb⟩
        · rw [e4] at f4; cases f4
        · rcases fa with ⟨_, rfl, rfl⟩ | ⟨e6, e7⟩
          · exact Or.inl ⟨rfl, rfl⟩
          · rcases fb with ⟨f6, _⟩ | ⟨f6, f7⟩
            · exact absurd (end_compare hw h1 (sa.pcrPidReady hp) (sa.eventTimeReady he) e4 (hq _ e2) e5 f5 f6) e6
            · obtain ⟨k1, k2, k3, k4, k5, k6, k7, k8, k9, k10, k11⟩ := forward_pair h1 e7 f7
              refine Or.inr ⟨k1, k2, k3, k4, by rw [k5, k6, sa2, sb2, hs], k7.trans sa.streaming, k8.trans sb.streaming,
                k9.trans sa.lastPat, k10.trans sb.lastPat, fun hk => k11 (by rw [sa3, sb3, hk])⟩

/-! Waiting. -/

/-- The state in which the PMT is sent. -/
def cleared (o : Opt) (s : St) : St := if o.preStreaming then s else { s with lastPat := [] }

theorem ready_form {extra : Pmt → Nat} {o : Opt} {s s' : St} {p : Packet} {outs : List Out} {more : Bool}
    (h : waitReady extra o s p = .ok (s', outs, more)) :
    waitStart o s p = .ok (s', some (outs, more)) ∨
    ∃ s1 xs s2 n, waitStart o s p = .ok (s1, none) ∧
      n = ((s1.pk.cur.map (extra ·.1)).getD 0) + ((s1.pk.table.map extra).getD 0) + 1 ∧
      sendCycle extra n (cleared o s1) = .ok (xs, s2) ∧
      outs = pendingPat o s1 ++ xs ++ [.orig p] ∧ more = true ∧ s' = { s2 with streaming := true } := by
  unfold waitReady at h
  obtain ⟨⟨s1, r⟩, h1, h⟩ := bind_ok_iff.1 h
  cases r with
  | some r =>
    obtain ⟨outs', ok⟩ := r
    cases h
    exact Or.inl h1
  | none =>
    dsimp only at h
    obtain ⟨⟨xs, s2⟩, h2, h⟩ := bind_ok_iff.1 h
    cases h
    refine Or.inr ⟨s1, xs, s2, _, h1, ?_, h2, rfl, rfl, rfl⟩
    split <;> rfl

theorem cleared_aside (o : Opt) (s : St) : Aside s (cleared o s) ∧ (cleared o s).pk = s.pk ∧ (cleared o s).pmtPid = s.pmtPid ∧
    (cleared o s).stop = s.stop := by
  unfold cleared
  split
  · exact ⟨.refl s, rfl, rfl, rfl⟩
  · exact ⟨⟨⟨_, _, _, _, rfl⟩, rfl, rfl⟩, rfl, rfl, rfl⟩

/-- The cycle depends on the packetizer and the PID only. -/
theorem cycle_same {extra : Pmt → Nat} : ∀ (n : Nat) {s s1 t t1 : St} {xs ys : List Out}, t.pk = s.pk →
    sendCycle extra n s = .ok (xs, s1) → sendCycle extra n t = .ok (ys, t1) → ys = xs ∧ t1.pk = s1.pk
  | 0, _, _, _, _, _, _, _, h, _ => by cases h
  | n + 1, s, s1, t, t1, xs, ys, hk, h, g => by
    unfold sendCycle at h g
    obtain ⟨⟨x, s2⟩, h1, h⟩ := bind_ok_iff.1 h
    obtain ⟨k, rfl, h2⟩ := nextPmt_form h1
    obtain ⟨⟨y, t2⟩, g1, g⟩ := bind_ok_iff.1 g
    obtain ⟨l, rfl, g2⟩ := nextPmt_form g1
    rw [hk, h2] at g2
    cases g2
    dsimp only at h g
    split at h
    · next hc =>
      rw [if_pos hc] at g
      cases h
      cases g
      exact ⟨rfl, rfl⟩
    · next hc =>
      rw [if_neg hc] at g
      obtain ⟨⟨xs', s3⟩, h5, h⟩ := bind_ok_iff.1 h
      cases h
      obtain ⟨⟨ys', t3⟩, g5, g⟩ := bind_ok_iff.1 g
      cases g
      obtain ⟨e1, e2⟩ := cycle_same n (s := { s with pk := k }) (t := { t with pk := k }) rfl h5 g5
      exact ⟨by rw [e1], e2⟩

/-- Equal apart from the times. -/
structure Same (a b : St) : Prop where
  streaming : a.streaming = b.streaming
  stop : a.stop = b.stop
  lastPat : b.lastPat = a.lastPat
  pk : b.pk = a.pk

/-- The packets kept are of PID 0. -/
def Pats (s : St) : Prop := ∀ x ∈ s.lastPat, x.pid = 0

/-- One waits, the other is streaming. -/
structure Ahead (A B : Opt) (P : Int → Prop) (T : Table → Prop) (a b : St) : Prop where
  pair : Pair A B P T a b
  waiting : a.streaming = false
  streaming : b.streaming = true
  stop : b.stop = true → a.stop = true
  pcrPid : a.pcrPidReady = true
  event : a.eventTimeReady = true
  pats : Pats a

theorem save_fields (s : St) (p : Packet) : (savePat s p).stop = s.stop ∧ (savePat s p).streaming = s.streaming ∧
    (savePat s p).pk = s.pk ∧ (savePat s p).pcrPidReady = s.pcrPidReady ∧ (savePat s p).eventTimeReady = s.eventTimeReady := by
  unfold savePat
  split <;> exact ⟨rfl, rfl, rfl, rfl, rfl⟩

theorem save_same (h : Same a b) (p : Packet) : Same (savePat a p) (savePat b p) := by
  unfold savePat
  split
  · refine ⟨h.streaming, h.stop, ?_, h.pk⟩
    dsimp only
    rw [h.lastPat]
  · exact h

theorem save_pats {s : St} (h : Pats s) (p : Packet) : Pats (savePat s p) := by
  unfold savePat
  split
  · next hp =>
    intro x hx
    dsimp only at hx
    rw [List.mem_append] at hx
    rcases hx with hx | hx
    · split at hx
      · cases hx
      · exact h x hx
    · rw [List.mem_singleton] at hx
      subst hx
      exact beq_iff_eq.1 hp
  · exact h

theorem pending_header {o : Opt} {s : St} (h : Pats s) : ∀ x ∈ pendingPat o s, Header x := by
  intro x hx
  unfold pendingPat at hx
  split at hx
  · cases hx
  · obtain ⟨p, hp, rfl⟩ := List.mem_map.1 hx
    exact h p hp

/-- What has happened when the filter starts. -/
theorem started {extra : Pmt → Nat} {o : Opt} {n : Nat} {s1 s2 : St} {xs : List Out}
    (h : sendCycle extra n (cleared o s1) = .ok (xs, s2)) :
    Aside s1 { s2 with streaming := true } ∧ s2.stop = s1.stop ∧ s2.lastPat = (cleared o s1).lastPat ∧ (∀ x ∈ xs, Header x) ∧
      s2.pcrPidReady = s1.pcrPidReady ∧ s2.eventTimeReady = s1.eventTimeReady := by
  obtain ⟨⟨k, rfl, k1, k2⟩, k3⟩ := cycle_form _ _ _ _ h
  obtain ⟨c1, c2, c3, c4⟩ := cleared_aside o s1
  obtain ⟨⟨x, l, q, y, c5⟩, c6, c7⟩ := c1
  refine ⟨⟨?_, ?_, ?_⟩, ?_, rfl, k3, ?_, ?_⟩
  · rw [c5]
    exact ⟨_, _, _, _, rfl⟩
  · exact k1.trans c6
  · exact k2.trans c7
  · exact c4
  · rw [c5]
  · rw [c5]

/-- A packet while both wait. -/
theorem wait_same (hw : Wider A B P T) (h : Pair A B P T a b) (hs : Same a b) (hst : a.streaming = false) (hp : Pats a)
    {extra : Pmt → Nat} {p : Packet} (hq : ∀ q, p.pcr = some q → P q)
    {oa ob : List Out} {ma mb : Bool}
    (ha : waitReady extra A a p = .ok (a', oa, ma)) (hb : waitReady extra B b p = .ok (b', ob, mb)) :
    (oa = [] ∧ ma = false) ∨
    (ma = true ∧ mb = true ∧ ob = oa ∧ Pair A B P T a' b' ∧ Same a' b' ∧
      ((a'.streaming = false ∧ Pats a' ∧ ∀ x ∈ oa, Header x) ∨
       (a'.streaming = true ∧ a'.pcrPidReady = true ∧ a'.eventTimeReady = true))) ∨
    (A.startMargin ≠ B.startMargin ∧ oa = [] ∧ ma = true ∧ mb = true ∧ Ahead A B P T a' b') := by
  have hpre := hw.twins.pre
  have w := h.weak
  -- what the start of either looks like
  have start : ∀ {o : Opt} {s s' : St} {outs : List Out} {more : Bool} {r : St × Option (List Out × Bool)},
      waitReady extra o s p = .ok (s', outs, more) → waitStart o s p = .ok r →
      (∃ x, r = (s', some x) ∧ x = (outs, more)) ∨ (∃ xs s2 n, r.2 = none ∧
        n = ((r.1.pk.cur.map (extra ·.1)).getD 0) + ((r.1.pk.table.map extra).getD 0) + 1 ∧
        sendCycle extra n (cleared o r.1) = .ok (xs, s2) ∧ outs = pendingPat o r.1 ++ xs ++ [.orig p] ∧ more = true ∧
        s' = { s2 with streaming := true }) := by
    intro o s s' outs more r h1 h2
    rcases ready_form h1 with k | ⟨s1, xs, s2, n, k, k2⟩
    · rw [k] at h2; cases h2; exact Or.inl ⟨_, rfl, rfl⟩
    · rw [k] at h2; cases h2; exact Or.inr ⟨xs, s2, n, rfl, k2⟩
  have ea : ∃ r, waitStart A a p = .ok r := by
    rcases ready_form ha with k | ⟨s1, _, _, _, k, _⟩ <;> exact ⟨_, k⟩
  have eb : ∃ r, waitStart B b p = .ok r := by
    rcases ready_form hb with k | ⟨s1, _, _, _, k, _⟩ <;> exact ⟨_, k⟩
  obtain ⟨⟨a1, ra⟩, ea⟩ := ea
  obtain ⟨⟨b1, rb⟩, eb⟩ := eb
  have xa := start ha ea
  have xb := start hb eb
  have fa := wait_form ea
  have fb := wait_form eb
  rw [← hs.stop, hpre] at fb
  rcases fa with ⟨e0, rfl⟩ | ⟨e0, fa⟩
  · rcases xa with ⟨_, h1, h2⟩ | ⟨_, _, _, h1, _⟩
    · cases h1; cases h2; exact Or.inl ⟨rfl, rfl⟩
    · cases h1
  rcases fb with ⟨f0, _⟩ | ⟨_, fb⟩
  · rw [e0] at f0; cases f0
  rcases fa with ⟨e1, e2, rfl, rfl⟩ | ⟨e1, fa⟩
  · -- a packet of the PAT passed on at once
    rcases fb with ⟨_, _, rfl, rfl⟩ | ⟨f1, _⟩
    · rcases xa with ⟨_, h1, h2⟩ | ⟨_, _, _, h1, _⟩
      · cases h1; cases h2
        rcases xb with ⟨_, h1, h2⟩ | ⟨_, _, _, h1, _⟩
        · cases h1; cases h2
          refine Or.inr (Or.inl ⟨rfl, rfl, rfl, h, hs, Or.inl ⟨hst, hp, fun x hx => ?_⟩⟩)
          rw [List.mem_singleton] at hx
          subst hx
          exact e1
        · cases h1
      · cases h1
    · exact absurd ⟨e1, e2⟩ f1
  rcases fb with ⟨f1, f2, _⟩ | ⟨_, fb⟩
  · exact absurd ⟨f1, f2⟩ e1
  have h1 : Pair A B P T (savePat a p) (savePat b p) := h.aside (.save a p) (.save b p)
  have hs1 := save_same hs p
  obtain ⟨va1, va2, va3, va4, va5⟩ := save_fields a p
  have hm : ∀ q, Measures b p q ↔ Measures a p q := by
    intro q
    unfold Measures
    rw [w.pcrPidReady, w.eventTimeReady, w.pcrPid]
  simp only [hm] at fb
  rcases fa with ⟨e2, rfl, rfl⟩ | ⟨q, e2, e3, fa⟩
  · -- not looked at
    rcases fb with ⟨_, rfl, rfl⟩ | ⟨q, f2, _⟩
    · rcases xa with ⟨_, h2, h3⟩ | ⟨_, _, _, h2, _⟩
      · cases h2; cases h3
        rcases xb with ⟨_, h2, h3⟩ | ⟨_, _, _, h2, _⟩
        · cases h2; cases h3
          exact Or.inr (Or.inl ⟨rfl, rfl, rfl, h1, hs1, Or.inl ⟨va2.trans hst, save_pats hp p, fun x hx => by cases hx⟩⟩)
        · cases h2
      · cases h2
    · exact absurd f2 (e2 q)
  · rcases fb with ⟨f2, _⟩ | ⟨q', f2, f3, fb⟩
    · exact absurd e2 (f2 q)
    have hqq : q' = q := by
      have x := e2.2.2.2
      rw [f2.2.2.2] at x
      cases x
      rfl
    subst hqq
    have hP := hq _ e2.2.2.2
    have h2 := h1.sync hP e3 f3
    obtain ⟨sa, sa2, sa3⟩ := sync_kept e3
    obtain ⟨sb, sb2, sb3⟩ := sync_kept f3
    have hs2 : Same a1 b1 := ⟨by rw [sa.streaming, sb.streaming, hs1.streaming], by rw [sa2, sb2, hs1.stop],
      by rw [sa.lastPat, sb.lastPat, hs1.lastPat], by rw [sa3, sb3, hs1.pk]⟩
    have hp2 : Pats a1 := by
      intro x hx
      rw [sa.lastPat] at hx
      exact save_pats hp p x hx
    have hst2 : a1.streaming = false := by rw [sa.streaming, va2, hst]
    have r1 : a1.pcrPidReady = true := sa.pcrPidReady (va4.trans e2.1)
    have r2 : a1.eventTimeReady = true := sa.eventTimeReady (va5.trans e2.2.1)
    -- both go on waiting
    have go : ra = some ([], true) → rb = some ([], true) →
        ma = true ∧ mb = true ∧ ob = oa ∧ Pair A B P T a' b' ∧ Same a' b' ∧
        ((a'.streaming = false ∧ Pats a' ∧ ∀ x ∈ oa, Header x) ∨
         (a'.streaming = true ∧ a'.pcrPidReady = true ∧ a'.eventTimeReady = true)) := by
      intro k1 k2
      subst k1 k2
      rcases xa with ⟨_, h3, h4⟩ | ⟨_, _, _, h3, _⟩
      · cases h3; cases h4
        rcases xb with ⟨_, h3, h4⟩ | ⟨_, _, _, h3, _⟩
        · cases h3; cases h4
          exact ⟨rfl, rfl, rfl, h2, hs2, Or.inl ⟨hst2, hp2, fun x hx => by cases hx⟩⟩
        · cases h3
      · cases h3
    rw [h2.need] at fb
    rcases fa with ⟨e4, e5⟩ | ⟨e4, ca, e5, fa⟩
    · rcases fb with ⟨_, f5⟩ | ⟨f4, _⟩
      · exact Or.inr (Or.inl (go e5 f5))
      · rw [e4] at f4; cases f4
    rcases fb with ⟨f4, _⟩ | ⟨_, cb, f5, fb⟩
    · rw [e4] at f4; cases f4
    rcases fa with ⟨e6, rfl⟩ | ⟨e6, ca', e7, fa⟩
    · rcases xa with ⟨_, h3, h4⟩ | ⟨_, _, _, h3, _⟩
      · cases h3; cases h4; exact Or.inl ⟨rfl, rfl⟩
      · cases h3
    rcases fb with ⟨f6, _⟩ | ⟨f6, cb', f7, fb⟩
    · exact absurd (end_compare hw h2 r1 r2 e4 hP e5 f5 f6) e6
    have cmp := start_compare hw h2 r1 r2 e4 hP e7 f7
    rcases fa with ⟨e8, e9⟩ | ⟨e8, rfl⟩
    · rcases fb with ⟨f8, f9⟩ | ⟨f8, rfl⟩
      · exact Or.inr (Or.inl (go e9 f9))
      · -- only one starts
        refine Or.inr (Or.inr ⟨fun hm => e8 (cmp.2 hm f8), ?_⟩)
        subst e9
        rcases xa with ⟨_, h3, h4⟩ | ⟨_, _, _, h3, _⟩
        · cases h3; cases h4
          rcases xb with ⟨_, h3, h4⟩ | ⟨xs, s2, n, _, _, h4, rfl, rfl, rfl⟩
          · cases h3
          · obtain ⟨m1, m2, m3, m4, m5⟩ := started h4
            refine ⟨rfl, rfl, rfl, h2.aside (.refl _) m1, hst2, rfl, fun hx => ?_, r1, r2, hp2⟩
            have hx : s2.stop = true := hx
            rw [m2, sb2, ← hs1.stop, va1, e0] at hx
            cases hx
        · cases h3
    · rcases fb with ⟨f8, _⟩ | ⟨_, rfl⟩
      · exact absurd (cmp.1 e8) f8
      · -- both start
        rcases xa with ⟨_, h3, _⟩ | ⟨xs, s2, n, _, hn, h4, rfl, rfl, rfl⟩
        · cases h3
        rcases xb with ⟨_, h3, _⟩ | ⟨ys, t2, m, _, hm', g4, rfl, rfl, rfl⟩
        · cases h3
        have hnm : m = n := by rw [hn, hm', hs2.pk]
        subst hnm
        obtain ⟨m1, m2, m3, m4, m5, m6⟩ := started h4
        obtain ⟨l1, l2, l3, l4, l5⟩ := started g4
        obtain ⟨_, ca1, _⟩ := cleared_aside A a1
        obtain ⟨_, cb1, _⟩ := cleared_aside B b1
        obtain ⟨k1, k2⟩ := cycle_same _ (by rw [ca1, cb1, hs2.pk]) h4 g4
        refine Or.inr (Or.inl ⟨rfl, rfl, ?_, h2.aside m1 l1, ⟨rfl, ?_, ?_, k2⟩, Or.inr ⟨rfl, ?_, ?_⟩⟩)
        · rw [k1]
          unfold pendingPat
          rw [hpre, hs2.lastPat]
        · show s2.stop = t2.stop
          rw [m2, l2, hs2.stop]
        · show t2.lastPat = s2.lastPat
          rw [m3, l3]
          unfold cleared
          rw [hpre]
          split
          · exact hs2.lastPat
          · rfl
        · show s2.pcrPidReady = true
          rw [m5, r1]
        · show s2.eventTimeReady = true
          rw [m6, r2]

/-- A packet while the first waits and the second is streaming. -/
theorem wait_ahead (hw : Wider A B P T) (h : Ahead A B P T a b)
    {extra : Pmt → Nat} {p : Packet} (hq : ∀ q, p.pcr = some q → P q) (h0 : p.pid = 0 → p.pcr = none)
    {oa ob : List Out} {ma mb : Bool}
    (ha : waitReady extra A a p = .ok (a', oa, ma)) (hb : doStreaming extra b p = .ok (b', ob, mb)) :
    (oa = [] ∧ ma = false) ∨
    (ma = true ∧ mb = true ∧ Ahead A B P T a' b' ∧ ∀ x ∈ oa, Header x) ∨
    (ma = true ∧ mb = true ∧ Pair A B P T a' b' ∧ a'.streaming = true ∧ b'.streaming = true ∧ a'.stop = b'.stop ∧
      a'.pcrPidReady = true ∧ a'.eventTimeReady = true ∧ ∃ l x, oa = l ++ [x] ∧ ∀ y ∈ l, Header y) := by
  have w := h.pair.weak
  have start : ∀ {o : Opt} {s s' : St} {outs : List Out} {more : Bool} {r : St × Option (List Out × Bool)},
      waitReady extra o s p = .ok (s', outs, more) → waitStart o s p = .ok r →
      (∃ x, r = (s', some x) ∧ x = (outs, more)) ∨ (∃ xs s2 n, r.2 = none ∧
        sendCycle extra n (cleared o r.1) = .ok (xs, s2) ∧ outs = pendingPat o r.1 ++ xs ++ [.orig p] ∧ more = true ∧
        s' = { s2 with streaming := true }) := by
    intro o s s' outs more r h1 h2
    rcases ready_form h1 with k | ⟨s1, xs, s2, n, k, _, k2⟩
    · rw [k] at h2; cases h2; exact Or.inl ⟨_, rfl, rfl⟩
    · rw [k] at h2; cases h2; exact Or.inr ⟨xs, s2, n, rfl, k2⟩
  have ea : ∃ r, waitStart A a p = .ok r := by
    rcases ready_form ha with k | ⟨s1, _, _, _, k, _⟩ <;> exact ⟨_, k⟩
  obtain ⟨⟨a1, ra⟩, ea⟩ := ea
  have xa := start ha ea
  have fa := wait_form ea
  rcases fa with ⟨e0, rfl⟩ | ⟨e0, fa⟩
  · rcases xa with ⟨_, h1, h2⟩ | ⟨_, _, _, h1, _⟩
    · cases h1; cases h2; exact Or.inl ⟨rfl, rfl⟩
    · cases h1
  have s0 : b.stop = false := by
    cases hx : b.stop with
    | false => rfl
    | true => rw [h.stop hx] at e0; cases e0
  rcases stream_form hb with ⟨f0, _⟩ | ⟨_, fb⟩
  · rw [s0] at f0; cases f0
  rw [w.pcrPid] at fb
  -- a packet without a PCR, for the second
  have plain : ∀ {a2 : St}, (∀ q, ¬ Measures a p q) → Pair A B P T a2 b → a2.streaming = false → a2.stop = false → Pats a2 →
      a2.pcrPidReady = true → a2.eventTimeReady = true → mb = true ∧ Ahead A B P T a2 b' := by
    intro a2 hm k1 k2 k3 k4 k5 k6
    rcases fb with ⟨_, _, rfl, _, rfl⟩ | ⟨_, f2⟩ | ⟨q, _, f1, f2, _⟩
    · exact ⟨rfl, k1, k2, h.streaming, fun hx => (by rw [s0] at hx; cases hx), k5, k6, k4⟩
    · obtain ⟨rfl, f⟩ := forward_form f2
      rcases f with ⟨_, x, k, g1, _, rfl⟩ | ⟨_, rfl, _⟩
      · obtain ⟨_, _, _, g3, g4⟩ := next_form g1
        exact ⟨rfl, k1.aside (.refl _) ⟨⟨_, _, _, _, rfl⟩, g3, g4⟩, k2, h.streaming, fun hx => (by
          have hx : b.stop = true := hx
          rw [s0] at hx; cases hx), k5, k6, k4⟩
      · exact ⟨rfl, k1, k2, h.streaming, fun hx => (by rw [s0] at hx; cases hx), k5, k6, k4⟩
    · exact absurd ⟨h.pcrPid, h.event, f1, f2⟩ (hm q)
  rcases fa with ⟨e1, e2, rfl, rfl⟩ | ⟨e1, fa⟩
  · rcases xa with ⟨_, h1, h2⟩ | ⟨_, _, _, h1, _⟩
    · cases h1; cases h2
      obtain ⟨k1, k2⟩ := plain (fun q hm => by
        have x := hm.2.2.2
        rw [h0 e1] at x
        cases x) h.pair h.waiting e0 h.pats h.pcrPid h.event
      refine Or.inr (Or.inl ⟨rfl, k1, k2, fun x hx => ?_⟩)
      rw [List.mem_singleton] at hx
      subst hx
      exact e1
    · cases h1
  have h1 : Pair A B P T (savePat a p) b := h.pair.aside (.save a p) (.refl b)
  obtain ⟨va1, va2, va3, va4, va5⟩ := save_fields a p
  rcases fa with ⟨e2, rfl, rfl⟩ | ⟨q, e2, e3, fa⟩
  · rcases xa with ⟨_, h2, h3⟩ | ⟨_, _, _, h2, _⟩
    · cases h2; cases h3
      obtain ⟨k1, k2⟩ := plain e2 h1 (va2.trans h.waiting) (va1.trans e0) (save_pats h.pats p) (va4.trans h.pcrPid)
        (va5.trans h.event)
      exact Or.inr (Or.inl ⟨rfl, k1, k2, fun x hx => by cases hx⟩)
    · cases h2
  · have hP := hq _ e2.2.2.2
    rcases fb with ⟨_, f2, _⟩ | ⟨f1, _⟩ | ⟨q', b1, _, f2, f3, fb⟩
    · rw [e2.2.2.2] at f2; cases f2
    · exact absurd e2.2.2.1 f1
    rw [e2.2.2.2] at f2
    cases f2
    have h2 := h1.sync hP e3 f3
    obtain ⟨sa, sa2, sa3⟩ := sync_kept e3
    obtain ⟨sb, sb2, sb3⟩ := sync_kept f3
    have hp2 : Pats a1 := by
      intro x hx
      rw [sa.lastPat] at hx
      exact save_pats h.pats p x hx
    have hst2 : a1.streaming = false := by rw [sa.streaming, va2, h.waiting]
    have r1 : a1.pcrPidReady = true := sa.pcrPidReady (va4.trans e2.1)
    have r2 : a1.eventTimeReady = true := sa.eventTimeReady (va5.trans e2.2.1)
    have s1 : b1.stop = false := by rw [sb2, s0]
    have hstb : b1.streaming = true := sb.streaming.trans h.streaming
    rw [h2.need] at fb
    rcases fa with ⟨e4, rfl⟩ | ⟨e4, ca, e5, fa⟩
    · rcases fb with ⟨_, rfl, _, rfl⟩ | ⟨f4, _⟩
      · rcases xa with ⟨_, h3, h4⟩ | ⟨_, _, _, h3, _⟩
        · cases h3; cases h4
          exact Or.inr (Or.inl ⟨rfl, rfl, ⟨h2, hst2, hstb, fun hx => (by rw [s1] at hx; cases hx), r1, r2, hp2⟩,
            fun x hx => by cases hx⟩)
        · cases h3
      · rw [e4] at f4; cases f4
    rcases fb with ⟨f4, _⟩ | ⟨_, cb, f5, fb⟩
    · rw [e4] at f4; cases f4
    rcases fa with ⟨e6, rfl⟩ | ⟨e6, ca', e7, fa⟩
    · rcases xa with ⟨_, h3, h4⟩ | ⟨_, _, _, h3, _⟩
      · cases h3; cases h4; exact Or.inl ⟨rfl, rfl⟩
      · cases h3
    rcases fb with ⟨f6, _⟩ | ⟨f6, f7⟩
    · exact absurd (end_compare hw h2 r1 r2 e4 hP e5 f5 f6) e6
    obtain ⟨rfl, f⟩ := forward_form f7
    have hb' : Aside b1 b' ∧ b'.stop = false ∧ b'.streaming = true := by
      rcases f with ⟨_, x, k, g1, _, rfl⟩ | ⟨_, rfl, _⟩
      · obtain ⟨_, _, _, g3, g4⟩ := next_form g1
        exact ⟨⟨⟨_, _, _, _, rfl⟩, g3, g4⟩, s1, hstb⟩
      · exact ⟨.refl _, s1, hstb⟩
    obtain ⟨n1, n2, n3⟩ := hb'
    rcases fa with ⟨e8, rfl⟩ | ⟨e8, rfl⟩
    · rcases xa with ⟨_, h3, h4⟩ | ⟨_, _, _, h3, _⟩
      · cases h3; cases h4
        exact Or.inr (Or.inl ⟨rfl, rfl, ⟨h2.aside (.refl _) n1, hst2, n3, fun hx => (by rw [n2] at hx; cases hx), r1, r2, hp2⟩,
            fun x hx => by cases hx⟩)
      · cases h3
    · rcases xa with ⟨_, h3, _⟩ | ⟨xs, s2, n, _, h4, rfl, rfl, rfl⟩
      · cases h3
      obtain ⟨m1, m2, m3, m4, m5, m6⟩ := started h4
      refine Or.inr (Or.inr ⟨rfl, rfl, h2.aside m1 n1, rfl, n3, ?_, ?_, ?_, _, _, rfl, fun y hy => ?_⟩)
      · show s2.stop = b'.stop
        rw [m2, n2, sa2, va1, e0]
      · show s2.pcrPidReady = true
        rw [m5, r1]
      · show s2.eventTimeReady = true
        rw [m6, r2]
      · rcases List.mem_append.1 hy with hy | hy
        · exact pending_header hp2 y hy
        · exact m4 y hy

end

end Mirakc.Margins
