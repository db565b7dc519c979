import Verif.Proof.EnteredMain
import Verif.Props.Entered
import Verif.Props.Joined
/-
Property C150: the command filter-program started at different times before the programme.
-/
namespace Mirakc.Props
open Mirakc.ProgramFilter Mirakc.Spec Mirakc.Spec.Entered Mirakc.Spec.Pipeline Mirakc.Spec.Main
open Mirakc.Main (World Ended main bind_ok_iff mapError_ok_iff reading)
open Mirakc.Spec.ProgramFilter (sent)
open Mirakc.Spec.ServiceFilter (usablePat validPmt validTot validCat)
open Mirakc.Spec.EventsJson (Pairwise₂)

private theorem tables_of {c : Mirakc.Pipeline.Codec} {T : Table → Prop} {tabs : Nat → List Table}
    (hT : ∀ n, ∀ t ∈ tabs n, T t) (l : List (List UInt8)) : ∀ i ∈ seen (arrived c tabs) 0 l, ∀ t ∈ i.tables, T t := by
  intro i hi t ht
  obtain ⟨n, b, _, rfl⟩ := Mirakc.Pipeline.mem_seen hi
  exact hT n t ht

private theorem pre_take {α : Type} {l r : List α} {n : Nat} (h : l.length ≤ n) : l <+: (l ++ r).take n := by
  rw [List.take_append, List.take_of_length_le h]
  exact List.prefix_append _ _

/-- The service filter reads everything. -/
private theorem reads_all {c : Mirakc.Pipeline.Codec} {T : Table → Prop} {tabs : Nat → List Table} {sid : Nat}
    (hS : Joined.Steady sid T) (hT : ∀ n, ∀ t ∈ tabs n, T t) (l : List (List UInt8)) :
    ∃ f items, ServiceFilter.run { sid := sid } (ServiceFilter.init { sid := sid }) (seen (arrived c tabs) 0 l) =
      .ok (f, items) ∧ items.length = l.length := by
  obtain ⟨⟨f, items⟩, h⟩ := (C25_no_abort_partial { sid := sid } (seen (arrived c tabs) 0 l)
    (fun i hi t ht => hS.conforming t (tables_of hT l i hi t ht))).1
  refine ⟨f, items, h, ?_⟩
  rw [Mirakc.Joined.full (o := { sid := sid }) hS rfl (tables_of hT l) h, Mirakc.Pipeline.seen_length]

/-- One run of the command. -/
private theorem command {w : World} (hc : Faithful w.codec) {l : List (List UInt8)} (hr : Reads w l)
    (hw : ∀ x ∈ w.write, 0 ≤ x) {o : Opt} {T : Table → Prop} (hS : Joined.Steady o.sid T)
    (hT : ∀ n, ∀ t ∈ w.tables n, T t) {e : Ended} (h : Main.filterProgram w o = .ok e) :
    ∃ f its g items, ServiceFilter.run { sid := o.sid } (ServiceFilter.init { sid := o.sid })
        (seen (arrived w.codec w.tables) 0 l) = .ok (f, its) ∧ its.length = l.length ∧
      run w.extra o (init o) (seen (forwarded w.codec w.tables2) 0 (ServiceFilter.sent its)) = .ok (g, items) ∧
      e.bytes = ((sent items).map (eventBytes w.codec)).flatten ∧ (g.retry = false → e.code = 0) := by
  obtain ⟨⟨code, n, f, m, g, k, d⟩, h0, h1⟩ := bind_ok_iff.1 h
  cases h1
  rw [feed_exec] at h0
  obtain ⟨cs, its, items, a1, a2, a3, a4, a5, a6, a7, a8, a9⟩ := Pipeline.filter_program hc (reading hr) hw h0
  obtain ⟨F, all, b1, b2⟩ := reads_all (c := w.codec) hS hT l
  refine ⟨F, all, g, items, b1, b2, ?_, a6, fun hg => ?_⟩
  · rcases a8 with a8 | a8
    · have : its = all := by
        have e : Except.ok (f, its) = Except.ok (F, all) := a8.symm.trans b1
        cases e; rfl
      rw [← this]; exact a4
    · obtain ⟨rest, rfl⟩ := a1
      rw [Mirakc.Pipeline.seen_append] at b1
      obtain ⟨more, rfl⟩ := Mirakc.Agree.sf_prefix _ _ _ _ _ _ _ a2 (by rw [a3, Mirakc.Pipeline.seen_length]) b1
      have : ServiceFilter.sent (its ++ more) = ServiceFilter.sent its ++ ServiceFilter.sent more := by
        simp [ServiceFilter.sent]
      rw [this, Mirakc.Pipeline.seen_append]
      exact Mirakc.Entered.run_extend _ _ _ _ _ a4 a8
  · rw [a9, hg, if_neg (by simp), if_neg]
    intro he
    obtain ⟨t, ht, hm⟩ := (Pipeline.error_iff a2).1 he
    exact hS.listed t (Mirakc.Joined.received_of (o := { sid := o.sid }) (tables_of hT cs) a2 t ht) hm

/-- **C150**, filter-program.  Of a broadcast whose tables do not change, let `w` read the packets `qs`, `pa`, `pb` and
`rs`, and `w'`, started later, only `pa`, `pb` and `rs`; which tables the demultiplexers deliver with which packets may
differ.  If `w` knows the service from `qs` and `w'` from `pa`, both have received the tables of the programme with the
end of `pb`, which has a packet of a PAT, and the programme has not begun by then, and if no write fails and both end
normally, then both end with 0 and write the same from there on, except that the packets of the PAT are counted
differently.  Before that they have written nothing but packets of the PAT. -/
theorem C150_filter_program (w w' : World) (hc : Faithful w.codec)
    (hpu : ∀ t n, (w.codec.packet (w.codec.patBytes t n)).pusi = true) (hcc : w'.codec = w.codec) (hx : w'.extra = w.extra)
    (qs pa pb rs : List (List UInt8)) (hr : Reads w (qs ++ (pa ++ pb ++ rs))) (hr' : Reads w' (pa ++ pb ++ rs))
    (hw : ∀ x ∈ w.write, 0 ≤ x) (hw' : ∀ x ∈ w'.write, 0 ≤ x) (a : Options.ProgramArgs) (hs : 0 ≤ a.sid ∧ a.sid < 65536)
    (he : 0 ≤ a.eid ∧ a.eid < 65536) (hp : 0 ≤ a.clockPid ∧ a.clockPid < 65536)
    (T T2 : Table → Prop) (P : Nat) (m : Pmt) (ev : Event) (hS : Joined.Steady a.sid.toNat T)
    (hS2 : ∀ o, Means a o → Steady o P m ev T2)
    (hT : ∀ n, ∀ t ∈ w.tables n, T t) (hT' : ∀ n, ∀ t ∈ w'.tables n, T t)
    (hT2 : ∀ t, Found w a.sid.toNat (qs ++ (pa ++ pb ++ rs)) t → T2 t)
    (hT2' : ∀ t, Found w' a.sid.toNat (pa ++ pb ++ rs) t → T2 t)
    (hK : Joined.Known w.codec w.tables a.sid.toNat (∃ t, T t ∧ validCat t ≠ none) qs)
    (hK' : Joined.Known w.codec w'.tables a.sid.toNat (∃ t, T t ∧ validCat t ≠ none) pa)
    (hpat : ∃ b ∈ pb, (w.codec.packet b).pid = 0)
    (hA : ∀ o, Means a o → Ahead w o (qs ++ (pa ++ pb))) (hA' : ∀ o, Means a o → Ahead w' o (pa ++ pb))
    (e e' : Ended) (h : main w (.filterProgram a) = .ok e) (h' : main w' (.filterProgram a) = .ok e') :
    e.code = 0 ∧ e'.code = 0 ∧ ∃ us vs xs ys : List (List UInt8),
      e.bytes = us.flatten ++ xs.flatten ∧ e'.bytes = vs.flatten ++ ys.flatten ∧
      Pairwise₂ (SameOrPat w.codec) xs ys ∧ ∀ b, b ∈ us ∨ b ∈ vs → ∃ t n, b = w.codec.patBytes t n := by
  obtain ⟨o, ho, h⟩ := bind_ok_iff.1 h
  obtain ⟨o', ho', h'⟩ := bind_ok_iff.1 h'
  rw [ho] at ho'
  cases ho'
  rw [mapError_ok_iff] at ho
  have hm := load_means hs he hp ho
  have hsid : a.sid.toNat = o.sid := by have := hm.sid; omega
  rw [hsid] at hS hK hK' hT2 hT2'
  have hS2 := hS2 o hm
  have hA := hA o hm
  have hA' := hA' o hm
  obtain ⟨f, its, g, items, a1, a2, a3, a4, a5⟩ := command hc hr hw hS hT h
  obtain ⟨f', its', g', items', b1, b2, b3, b4, b5⟩ := command (by rw [hcc]; exact hc) hr' hw' hS hT' h'
  obtain ⟨f0, its0, c1, c2⟩ := reads_all (c := w.codec) hS hT (qs ++ (pa ++ pb))
  obtain ⟨f0', its0', d1, d2⟩ := reads_all (c := w'.codec) hS hT' (pa ++ pb)
  obtain ⟨kn, wt⟩ := hA f0 its0 c1
  obtain ⟨kn', wt'⟩ := hA' f0' its0' d1
  rw [hcc] at b1 b3 b4 d1 kn' wt'
  rw [hx] at b3 wt'
  have a1' := a1
  have b1' := b1
  rw [show qs ++ (pa ++ pb ++ rs) = (qs ++ (pa ++ pb)) ++ rs by simp, Mirakc.Pipeline.seen_append] at a1'
  rw [Mirakc.Pipeline.seen_append] at b1'
  obtain ⟨i3, e1⟩ := Mirakc.Agree.sf_prefix _ _ _ _ _ _ _ c1 (by rw [c2, Mirakc.Pipeline.seen_length]) a1'
  obtain ⟨j3, e2⟩ := Mirakc.Agree.sf_prefix _ _ _ _ _ _ _ d1 (by rw [d2, Mirakc.Pipeline.seen_length]) b1'
  -- the three parts
  obtain ⟨i1, i2, e3, li1⟩ : ∃ i1 i2, its0 = i1 ++ i2 ∧ i1.length = qs.length + pa.length :=
    ⟨_, _, (List.take_append_drop (qs.length + pa.length) its0).symm, by
      rw [List.length_take, c2]; simp⟩
  obtain ⟨j1, j2, e4, lj1⟩ : ∃ j1 j2, its0' = j1 ++ j2 ∧ j1.length = pa.length :=
    ⟨_, _, (List.take_append_drop pa.length its0').symm, by rw [List.length_take, d2]; simp⟩
  subst e1 e2 e3 e4
  have li2 : i2.length = pb.length := by simp at c2; omega
  have lj2 : j2.length = pb.length := by simp at d2; omega
  have li3 : i3.length = rs.length := by simp at a2 c2; omega
  have lj3 : j3.length = rs.length := by simp at b2 d2; omega
  obtain ⟨_, _, hb⟩ := Mirakc.Joined.both_at hS hT hT' qs (pa ++ pb ++ rs) f f' _ _ a1 b1 hK
  have hb2 : ∀ (k : Nat) (b : List UInt8) (x y : ServiceFilter.Item), pb[k]? = some b → i2[k]? = some x →
      j2[k]? = some y → Mirakc.Joined.Both w.codec True b x.act y.act := by
    intro k b x y h1 h2 h3
    have k1 := (List.getElem?_eq_some_iff.1 h1).1
    refine Mirakc.Entered.both_true (Mirakc.Entered.known_mono ?_ hK') (hb (pa.length + k) b x y ?_ ?_ ?_)
    · rw [List.append_assoc]; exact pre_take (by omega)
    · rw [List.append_assoc, List.getElem?_append_right (by omega), List.getElem?_append_left (by omega)]
      simpa using h1
    · rw [List.getElem?_drop, List.append_assoc, List.getElem?_append_right (by omega),
        List.getElem?_append_left (by omega), ← h2]
      congr 1; omega
    · rw [List.append_assoc, List.getElem?_append_right (by omega), List.getElem?_append_left (by omega), ← h3]
      congr 1; omega
  have hb3 : ∀ (k : Nat) (b : List UInt8) (x y : ServiceFilter.Item), rs[k]? = some b → i3[k]? = some x →
      j3[k]? = some y → Mirakc.Joined.Both w.codec True b x.act y.act := by
    intro k b x y h1 h2 h3
    refine Mirakc.Entered.both_true (Mirakc.Entered.known_mono ?_ hK') (hb ((pa ++ pb).length + k) b x y ?_ ?_ ?_)
    · rw [List.append_assoc]; exact pre_take (by simp; omega)
    · rw [List.getElem?_append_right (by omega)]
      simpa using h1
    · rw [List.getElem?_drop, List.getElem?_append_right (by simp; omega), ← h2]
      congr 1; simp; omega
    · rw [List.getElem?_append_right (by simp; omega), ← h3]
      congr 1; simp; omega
  -- the packet of the PAT
  have hpp : ∃ x ∈ ServiceFilter.sent i2, (serviceFields w.codec x).pid = 0 ∧ (serviceFields w.codec x).pusi = true := by
    obtain ⟨b, hb0, hb1⟩ := hpat
    obtain ⟨k, hk, rfl⟩ := List.getElem_of_mem hb0
    have hxk : i2[k]? = some (i2[k]'(by omega)) := List.getElem?_eq_getElem (by omega)
    generalize i2[k]'(by omega) = x at hxk
    have hidx : (i1 ++ i2 ++ i3)[qs.length + pa.length + k]? = some x := by
      rw [List.append_assoc, List.getElem?_append_right (by omega), List.getElem?_append_left (by omega), ← hxk]
      congr 1; omega
    have hin := Mirakc.Joined.seen_get (arrived w.codec w.tables) (qs ++ (pa ++ pb ++ rs)) 0 (qs.length + pa.length + k) pb[k] (by
      rw [List.getElem?_append_right (by omega), List.append_assoc, List.getElem?_append_right (by omega),
        List.getElem?_append_left (by omega), ← List.getElem?_eq_getElem hk]
      congr 1; omega)
    have hns := Mirakc.Joined.no_stop (o := { sid := o.sid }) hS rfl (tables_of hT _) a1 hidx
    obtain ⟨hf, hact⟩ := Mirakc.Joined.acts a1 hidx hin hns
    obtain ⟨⟨pat, hp0⟩, _⟩ := Mirakc.Joined.known (o := { sid := o.sid }) hS rfl (tables_of hT _) a1 (c := w.codec)
      (tabs := w.tables) (ps := qs) (fun k b hk => by
        have := Mirakc.Joined.seen_get (arrived w.codec w.tables) (qs ++ (pa ++ pb ++ rs)) 0 k b (by
          rw [List.getElem?_append_left (List.getElem?_eq_some_iff.1 hk).1]; exact hk)
        simpa using this) hK
    obtain ⟨t, t1, t2⟩ := Mirakc.Joined.latest_mem hp0
    obtain ⟨pat', hp1⟩ := Mirakc.Joined.latest_some (f := usablePat)
      (rs := ServiceFilter.received ((i1 ++ i2 ++ i3).take (qs.length + pa.length + k)) ++ x.handled) (t := t) (by
        refine List.mem_append_left _ ?_
        simp only [ServiceFilter.received, List.mem_flatMap] at t1 ⊢
        obtain ⟨z, hz, ht⟩ := t1
        exact ⟨z, List.take_subset_take_left _ (by omega) hz, ht⟩) t2
    have hnd := hf.2 (.inl ⟨pat', hp1, .inl (by show (w.codec.packet pb[k]).pid ∈ _; rw [hb1]; decide)⟩)
    rcases hact with h0 | ⟨_, h0⟩ | ⟨t, n, h0, _⟩
    · exact absurd h0 hnd
    · exact absurd hb1 h0
    · refine ⟨.pat t n, ?_, hc.patPid _ _, hpu _ _⟩
      simp only [ServiceFilter.sent, List.mem_filterMap]
      exact ⟨x, List.mem_of_getElem? hxk, by simp [ServiceFilter.sentOf, h0]⟩
  have sa : ∀ x y, ServiceFilter.sent (x ++ y) = ServiceFilter.sent x ++ ServiceFilter.sent y := by
    intro x y; simp [ServiceFilter.sent]
  -- where the packets come from
  have src : ∀ {tabs : Nat → List Table} {t2 : Nat → ServiceFilter.Out → List Table} {l : List (List UInt8)}
      {f : ServiceFilter.St} {its : List ServiceFilter.Item} {g : St} {items : List Item},
      (∀ n, ∀ t ∈ tabs n, T t) →
      ServiceFilter.run { sid := o.sid } (ServiceFilter.init { sid := o.sid }) (seen (arrived w.codec tabs) 0 l) =
        .ok (f, its) →
      run w.extra o (init o) (seen (forwarded w.codec t2) 0 (ServiceFilter.sent its)) = .ok (g, items) →
      ∀ p, .orig p ∈ sent items → p.pid = 0 → ∃ tb pat t n, T tb ∧ usablePat tb = some pat ∧
        ServiceFilter.Restricted o.sid pat t ∧ p = w.codec.packet (w.codec.patBytes t n) := by
    intro tabs t2 l f its g items hT k1 k2 p hp h0
    obtain ⟨i, hi, rfl⟩ := Mirakc.Entered.from_input k2 (Mirakc.Pipeline.sf_noPcr hc (tabs' := t2) k1 0) p hp
    obtain ⟨_, x, hx, rfl⟩ := Mirakc.Pipeline.mem_seen hi
    rcases Mirakc.Pipeline.sf_sent k1 x hx with ⟨i, _, h1, rfl⟩ | ⟨t, n, rfl, tb, h1, pat, h2, h3⟩
    · exact absurd h0 h1
    · exact ⟨tb, pat, t, n, Mirakc.Joined.received_of (o := { sid := o.sid }) (tables_of hT l) k1 tb h1, h2, h3, rfl⟩
  have src1 := src hT a1 a3
  have src2 := src hT' b1 b3
  rw [sa, sa, Mirakc.Pipeline.seen_append, Mirakc.Pipeline.seen_append] at a3 b3
  rw [sa, Mirakc.Pipeline.seen_append] at kn kn' wt wt'
  obtain ⟨g0, r0⟩ := Mirakc.Entered.run_take _ _ _ _ _ a3
  obtain ⟨g0', r0'⟩ := Mirakc.Entered.run_take _ _ _ _ _ b3
  have hw0 := wt _ _ r0
  have hw0' := wt' _ _ r0'
  have three : ∀ {t2 : Nat → ServiceFilter.Out → List Table} {n m k : Nat} {a b c : List ServiceFilter.Out},
      (∀ n, ∀ x ∈ a ++ b ++ c, ∀ t ∈ t2 n x, T2 t) → ∀ i ∈ seen (forwarded w.codec t2) n a ++
        seen (forwarded w.codec t2) m b ++ seen (forwarded w.codec t2) k c, ∀ t ∈ i.tables, T2 t := by
    intro t2 n m k a b c h i hi t ht
    simp only [List.mem_append] at hi h
    rcases hi with (hi | hi) | hi
    · obtain ⟨k, x, hx, rfl⟩ := Mirakc.Pipeline.mem_seen hi
      exact h k x (.inl (.inl hx)) t ht
    · obtain ⟨k, x, hx, rfl⟩ := Mirakc.Pipeline.mem_seen hi
      exact h k x (.inl (.inr hx)) t ht
    · obtain ⟨k, x, hx, rfl⟩ := Mirakc.Pipeline.mem_seen hi
      exact h k x (.inr hx) t ht
  have hq : ∃ i ∈ seen (forwarded w.codec w.tables2) (0 + (ServiceFilter.sent i1).length) (ServiceFilter.sent i2),
      i.packet.pid = 0 ∧ i.packet.pusi = true := by
    obtain ⟨x, hx, h0⟩ := hpp
    obtain ⟨k, hk, rfl⟩ := List.getElem_of_mem hx
    have := Mirakc.Joined.seen_get (forwarded w.codec w.tables2) (ServiceFilter.sent i2)
      (0 + (ServiceFilter.sent i1).length) k _ (List.getElem?_eq_getElem hk)
    exact ⟨_, List.mem_of_getElem? this, h0⟩
  obtain ⟨pw, q1, q2⟩ := C150_entered w.extra o P m ev T2 hS2 _ _ _ _ _ _ (three fun n x hx t ht => hT2 t ⟨f, _, n, x, a1, by rw [sa, sa]; exact hx, ht⟩)
    (three fun n x hx t ht => hT2' t ⟨f', _, n, x, by rw [hcc]; exact b1, by rw [sa, sa]; exact hx, ht⟩)
    (Mirakc.Entered.alike_of hc hpu pb i2 j2 _ _ li2 lj2 hb2) (Mirakc.Entered.alike_of hc hpu rs i3 j3 _ _ li3 lj3 hb3)
    kn kn' hq g g' items items' a3 b3 hw0 hw0'
  refine ⟨a5 q2.1, b5 q2.2, ?_⟩
  have cut : ∀ (l : List Item) (n : Nat), sent l = sent (l.take n) ++ sent (l.drop n) := by
    intro l n
    rw [sent, sent, sent, ← List.flatMap_append, List.take_append_drop]
  have pats : ∀ {l : List Item} {n : Nat}, Waiting (l.take n) → (∀ p, .orig p ∈ sent l → p.pid = 0 →
      ∃ tb pat t n, T tb ∧ usablePat tb = some pat ∧ ServiceFilter.Restricted o.sid pat t ∧
        p = w.codec.packet (w.codec.patBytes t n)) →
      ∀ b ∈ (sent (l.take n)).map (eventBytes w.codec), ∃ t n, b = w.codec.patBytes t n := by
    intro l n hw hs b hb
    obtain ⟨x, hx, rfl⟩ := List.mem_map.1 hb
    have hx' := hx
    simp only [sent, List.mem_flatMap] at hx'
    obtain ⟨it, hit, hxo⟩ := hx'
    obtain ⟨p, rfl, h0⟩ := (hw it hit).2 x hxo
    obtain ⟨_, _, t, k, _, _, _, rfl⟩ := hs p (by rw [cut l n]; exact List.mem_append_left _ hx) h0
    exact ⟨t, k, hc.keep _ (hc.pat _ _)⟩
  refine ⟨_, _, _, _, ?_, ?_, Mirakc.Entered.bytes_alike hc (G := fun p => .orig p ∈ sent items)
    (G' := fun p => .orig p ∈ sent items') ?_ q1 ?_ ?_,
    fun b hb => hb.elim (pats hw0 src1 b) (pats hw0' src2 b)⟩
  · rw [a4, ← List.flatten_append, ← List.map_append, ← cut]
  · rw [b4, ← List.flatten_append, ← List.map_append, ← cut]
  · intro p q hp0 hq0 hp hq
    obtain ⟨tb, pat, t, i, k1, k2, k3, rfl⟩ := src1 p hp hp0
    obtain ⟨ub, pat', u, j, m1, m2, m3, rfl⟩ := src2 q hq hq0
    have := hS.pat _ _ _ _ k1 m1 k2 m2
    subst this
    rw [Mirakc.Joined.restricted_unique k3 m3]
    exact ⟨u, i, j, rfl, rfl⟩
  · intro p hp; rw [cut items]; exact List.mem_append_right _ hp
  · intro p hp; rw [cut items']; exact List.mem_append_right _ hp

namespace C150ex2
open C68ex (raw clk pat pmt pat1)
open C147ex (T)

/-- The packets that only the first to start reads. -/
def qs : List (List UInt8) := [raw 0 0 1, raw 0x100 0 2]
/-- The first packets that the other reads. -/
def pa : List (List UInt8) := [raw 0 1 1, raw 0x100 1 2]
/-- With these both know the programme. -/
def pb : List (List UInt8) := [raw 0x111 0 4, raw 0 2 1, raw 0x100 2 2, raw 0x12 0 3]
/-- The programme. -/
def rs : List (List UInt8) := [clk 0x1ff 900100, raw 0x111 1 5, raw 0 3 1, clk 0x1ff 1800100, raw 0x111 2 6]
/-- The tables delivered to both service filters. -/
def tabs : Nat → List Table
  | 0 => [pat]
  | 1 => [pmt]
  | _ => []
/-- The rewritten PAT. -/
def newPat : Table := { sourcePid := 0, body := .pat pat1 }
/-- The tables found behind them. -/
def tabs2 : Nat → ServiceFilter.Out → List Table
  | _, .pat _ _ => [newPat]
  | _, .orig p => if p.pid = 0x100 then [pmt] else if p.pid = 0x12 then [C26ex.eit] else []
/-- A world. -/
def world (l : List (List UInt8)) : World := { C95ex.world with tables := tabs, tables2 := tabs2, read := l.map some }
/-- Arguments. -/
def args : Options.ProgramArgs := { C95ex.args with videoTags := none }
/-- The options. -/
def opt : Opt := { sid := 1, eid := 5, clockPid := 0x1ff, clockPcr := 1000, clockTime := 0 }
/-- The tables behind the service filter. -/
def T2 (t : Table) : Prop := t = newPat ∨ t = pmt ∨ t = C26ex.eit
/-- The PMT. -/
def pmt0 : Pmt := { serviceId := 1, pcrPid := 0x1ff, streams := ⟨[(0x111, { isVideo := true, tag := some 0 })], by decide⟩ }

theorem reads {l : List (List UInt8)} (h : ∀ b ∈ l, b.length = 188 ∧ b[0]? = some 0x47)
    (hu : Mirakc.Spec.Main.upToEnd (l.map some) = l.flatten) : Reads (world l) l := by
  refine ⟨fun r hr => ?_, ?_⟩
  · obtain ⟨b, hb, e⟩ := List.mem_map.1 hr
    cases e
    rw [(h _ hb).1]; decide
  · have : contents (world l) = l.flatten := hu
    rw [this]
    exact Mirakc.Pipeline.packets_flatten h

theorem opt_eq {o : Opt} (h : Means args o) : o = opt := by
  obtain ⟨h1, h2, h3, h4, h5, h6, h7, h8, h9, h10, h11⟩ := h
  have nil : ∀ l : List Nat, (∀ x, x ∈ l ↔ Names none x) → l = [] := by
    intro l hl
    cases l with
    | nil => rfl
    | cons x l =>
      have := (hl x).1 List.mem_cons_self
      simp [Names] at this
  obtain ⟨a, b, c, d, e, f, g, i, j, k, l⟩ := o
  have a0 : a = 1 := Int.ofNat_inj.1 h1
  have b0 : b = 5 := Int.ofNat_inj.1 h2
  have c0 : c = 0x1ff := Int.ofNat_inj.1 h3
  have d0 : d = 1000 := h4
  have e0 : e = 0 := h5
  have f0 : f = [] := nil _ h6
  have g0 : g = [] := nil _ h7
  have i0 : i = 0 := h8
  have j0 : j = 0 := h9
  have k0 : k = none := h10
  have l0 : l = false := h11
  subst a0 b0 c0 d0 e0 f0 g0 i0 j0 k0 l0
  rfl

theorem steady2 : Steady opt 0x100 pmt0 { eventId := 5, startTime := 10000, duration := 10 } T2 where
  pid := by decide
  pat t p ht hp q hq := by
    rcases ht with rfl | rfl | rfl
    · simp [usablePat, newPat] at hp
      rw [← hp.2] at hq
      simpa [opt, pat1] using hq
    · simp [usablePat, pmt] at hp
    · simp [usablePat, C26ex.eit] at hp
  pmt t p ht hp := by
    rcases ht with rfl | rfl | rfl
    · simp [validPmt, newPat] at hp
    · simp [validPmt, pmt] at hp
      exact ⟨hp.2.symm, rfl⟩
    · simp [validPmt, C26ex.eit] at hp
  clock := rfl
  eit t es e ht hp he := by
    rcases ht with rfl | rfl | rfl
    · simp [Spec.ProgramFilter.serviceEit, newPat] at hp
    · simp [Spec.ProgramFilter.serviceEit, pmt] at hp
    · simp [Spec.ProgramFilter.serviceEit, C26ex.eit] at hp
      rw [← hp.2] at he
      simp [Spec.ProgramFilter.listedIn, opt] at he
      exact he.symm
  calm t ht h := by
    rcases ht with rfl | rfl | rfl
    · simp [Spec.ProgramFilter.Cancels, Spec.ProgramFilter.serviceEit, validTot, newPat] at h
    · simp [Spec.ProgramFilter.Cancels, Spec.ProgramFilter.serviceEit, validTot, pmt] at h
    · simp [Spec.ProgramFilter.Cancels, Spec.ProgramFilter.serviceEit, validTot, C26ex.eit,
        Spec.ProgramFilter.listedIn, opt] at h

theorem tabs_T : ∀ n, ∀ t ∈ tabs n, T t := by
  intro n t ht
  unfold tabs at ht
  split at ht
  · exact .inl (by simpa using ht)
  · exact .inr (by simpa using ht)
  · cases ht

theorem tabs2_T : ∀ n x, ∀ t ∈ tabs2 n x, T2 t := by
  intro n x t ht
  cases x with
  | pat p k => exact .inl (by simpa [tabs2] using ht)
  | orig p =>
    simp only [tabs2] at ht
    split at ht
    · exact .inr (.inl (by simpa using ht))
    · split at ht
      · exact .inr (.inr (by simpa using ht))
      · cases ht

theorem known {l : List (List UInt8)} (h0 : ∃ b, l[0]? = some b ∧ (C68ex.codec.packet b).pid = 0)
    (h1 : ∃ b, l[1]? = some b ∧ (C68ex.codec.packet b).pid = 0x100) :
    Joined.Known C68ex.codec tabs 1 (∃ t, T t ∧ validCat t ≠ none) l := by
  obtain ⟨b, hb, hp⟩ := h0
  obtain ⟨b', hb', hp'⟩ := h1
  exact ⟨⟨0, 1, pat, pmt, _, _, by decide, ⟨by simp [tabs], b, hb, hp⟩, rfl, ⟨by simp [tabs], b', hb', hp'⟩, rfl, by decide⟩,
    fun h => absurd h C147ex.no_cat⟩

/-- What the first filter passes on, and what the second makes of it, up to the programme. -/
theorem ahead {l : List (List UInt8)} (S : List ServiceFilter.Out) (a b : List Table)
    (h1 : (match ServiceFilter.run { sid := 1 } (ServiceFilter.init { sid := 1 }) (seen (arrived C68ex.codec tabs) 0 l) with
      | .ok (_, its) => decide (ServiceFilter.sent its = S) | .error _ => false) = true)
    (hr : received (seen (forwarded C68ex.codec tabs2) 0 S) = a ++ [newPat] ++ b) (hb : pmt ∈ b) (hb' : C26ex.eit ∈ b)
    (h2 : (match run C26ex.one opt (init opt) (seen (forwarded C68ex.codec tabs2) 0 S) with
      | .ok (_, items) => items.all (fun it => it.more && it.outs.isEmpty) | .error _ => false) = true) :
    Ahead (world []) opt l := by
  intro f items hf
  have hf : ServiceFilter.run { sid := 1 } (ServiceFilter.init { sid := 1 }) (seen (arrived C68ex.codec tabs) 0 l) =
    .ok (f, items) := hf
  rw [hf] at h1
  have := of_decide_eq_true h1
  rw [this]
  refine ⟨?_, fun g items2 hg => ?_⟩
  · change Known opt (received (seen (forwarded C68ex.codec tabs2) 0 S))
    rw [hr]
    exact ⟨⟨_, _, rfl, ⟨newPat, by simp, by decide⟩, pmt, hb, by decide +kernel⟩, C26ex.eit, List.mem_append_right _ hb', rfl,
      [{ eventId := 5, startTime := 10000, duration := 10 }], by decide +kernel, by decide +kernel⟩
  · have hg : run C26ex.one opt (init opt) (seen (forwarded C68ex.codec tabs2) 0 S) = .ok (g, items2) := hg
    rw [hg] at h2
    intro it hit
    have := List.all_eq_true.1 h2 it hit
    simp only [Bool.and_eq_true, List.isEmpty_iff] at this
    exact ⟨this.1, by rw [this.2]; simp⟩

end C150ex2

open C150ex2 in
/-- Non-trivial case for C150, filter-program: five packets, with the packets of the PAT counted differently. -/
example : Faithful C68ex.codec ∧ (∀ t n, (C68ex.codec.packet (C68ex.codec.patBytes t n)).pusi = true) ∧
    Reads (world (qs ++ (pa ++ pb ++ rs))) (qs ++ (pa ++ pb ++ rs)) ∧ Reads (world (pa ++ pb ++ rs)) (pa ++ pb ++ rs) ∧
    Joined.Steady 1 C147ex.T ∧ (∀ o, Means args o → Steady o 0x100 pmt0 { eventId := 5, startTime := 10000, duration := 10 } T2) ∧
    Joined.Known C68ex.codec tabs 1 (∃ t, C147ex.T t ∧ validCat t ≠ none) qs ∧
    Joined.Known C68ex.codec tabs 1 (∃ t, C147ex.T t ∧ validCat t ≠ none) pa ∧
    (∃ b ∈ pb, (C68ex.codec.packet b).pid = 0) ∧ (∀ n, ∀ t ∈ tabs n, C147ex.T t) ∧
    (∀ t, Found (world (qs ++ (pa ++ pb ++ rs))) 1 (qs ++ (pa ++ pb ++ rs)) t → T2 t) ∧
    (∀ t, Found (world (pa ++ pb ++ rs)) 1 (pa ++ pb ++ rs) t → T2 t) ∧
    (∀ o, Means args o → Ahead (world (qs ++ (pa ++ pb ++ rs))) o (qs ++ (pa ++ pb))) ∧
    (∀ o, Means args o → Ahead (world (pa ++ pb ++ rs)) o (pa ++ pb)) ∧
    (∃ e, main (world (qs ++ (pa ++ pb ++ rs))) (.filterProgram args) = .ok e ∧ e.bytes.length = 188 * 5) ∧
    ∃ e, main (world (pa ++ pb ++ rs)) (.filterProgram args) = .ok e ∧ e.bytes.length = 188 * 5 := by
  refine ⟨C68ex.faithful, fun _ _ => rfl, reads (by decide +kernel) (by decide +kernel), reads (by decide +kernel) (by decide +kernel),
    C147ex.steady, fun o ho => by rw [opt_eq ho]; exact steady2, known ⟨_, rfl, by decide +kernel⟩ ⟨_, rfl, by decide +kernel⟩,
    known ⟨_, rfl, by decide +kernel⟩ ⟨_, rfl, by decide +kernel⟩, ⟨_, List.mem_cons_of_mem _ List.mem_cons_self, by decide +kernel⟩,
    tabs_T, fun t ⟨_, _, n, x, _, _, h⟩ => tabs2_T n x t h, fun t ⟨_, _, n, x, _, _, h⟩ => tabs2_T n x t h, fun o ho => ?_, fun o ho => ?_, ?_, ?_⟩
  · rw [opt_eq ho]
    exact ahead (l := qs ++ (pa ++ pb)) [.pat C68ex.pat1 0, .orig (C68ex.codec.packet (C68ex.raw 0x100 0 2)), .pat C68ex.pat1 1,
      .orig (C68ex.codec.packet (C68ex.raw 0x100 1 2)), .orig (C68ex.codec.packet (C68ex.raw 0x111 0 4)), .pat C68ex.pat1 2,
      .orig (C68ex.codec.packet (C68ex.raw 0x100 2 2)), .orig (C68ex.codec.packet (C68ex.raw 0x12 0 3))]
      [] [C68ex.pmt, newPat, C68ex.pmt, newPat, C68ex.pmt, C26ex.eit] (by decide +kernel) (by decide +kernel) (by simp) (by simp)
      (by decide +kernel)
  · rw [opt_eq ho]
    exact ahead (l := pa ++ pb) [.pat C68ex.pat1 0, .orig (C68ex.codec.packet (C68ex.raw 0x100 1 2)),
      .orig (C68ex.codec.packet (C68ex.raw 0x111 0 4)), .pat C68ex.pat1 1, .orig (C68ex.codec.packet (C68ex.raw 0x100 2 2)),
      .orig (C68ex.codec.packet (C68ex.raw 0x12 0 3))]
      [] [C68ex.pmt, newPat, C68ex.pmt, C26ex.eit] (by decide +kernel) (by decide +kernel) (by simp) (by simp) (by decide +kernel)
  · obtain ⟨e, h1, h2⟩ := C95ex.check (r := main (world (qs ++ (pa ++ pb ++ rs))) (.filterProgram args))
      (P := fun e => e.bytes.length = 188 * 5) (by decide +kernel)
    exact ⟨e, h1, of_decide_eq_true h2⟩
  · obtain ⟨e, h1, h2⟩ := C95ex.check (r := main (world (pa ++ pb ++ rs)) (.filterProgram args))
      (P := fun e => e.bytes.length = 188 * 5) (by decide +kernel)
    exact ⟨e, h1, of_decide_eq_true h2⟩

/-- **C150**: the programme has not begun, and the filter has not ended, as long as no PCR on the PID of the clock has
reached its beginning or its end; these are the times of the event with the margins, by the clock of the options. -/
theorem C150_early (extra : Pmt → Nat) (o : Opt) (P : Nat) (m : Pmt) (ev : Event) (T : Table → Prop)
    (hS : Steady o P m ev T) (is : List Input) (hT : ∀ i ∈ is, ∀ t ∈ i.tables, T t)
    (he : ∀ i ∈ is, i.packet.pid = o.clockPid → ∀ q, i.packet.pcr = some q → Early o ev q)
    (z : St) (items : List Item) (h : run extra o (init o) is = .ok (z, items)) :
    Waiting items ∧ items.length = is.length :=
  Mirakc.Entered.early_waiting hS is _ _ _ [] hT (Mirakc.Entered.inv_init o P m ev hS.pid.2.2.2)
    Mirakc.Entered.knows_nil ⟨rfl, rfl, rfl⟩ he h

/-- Non-trivial case: a PCR six seconds before the programme. -/
example : Steady C26ex.opt 0x100 C26ex.pmt0 { eventId := 5, startTime := 10000, duration := 10 } C150ex.T ∧
    (∀ i ∈ C150ex.cs' ++ C150ex.bs, ∀ t ∈ i.tables, C150ex.T t) ∧
    (∃ i ∈ C150ex.cs' ++ C150ex.bs, i.packet.pid = C26ex.opt.clockPid ∧ i.packet.pcr = some 100000000) ∧
    (∀ i ∈ C150ex.cs' ++ C150ex.bs, i.packet.pid = C26ex.opt.clockPid → ∀ q, i.packet.pcr = some q →
      Early C26ex.opt { eventId := 5, startTime := 10000, duration := 10 } q) ∧
    ∃ z items, run C26ex.one C26ex.opt (init C26ex.opt) (C150ex.cs' ++ C150ex.bs) = .ok (z, items) := by
  refine ⟨C150ex.steady, fun i hi => C150ex.tables_T.2 i (List.mem_append_left _ hi), ?_, ?_, ?_⟩
  · exact ⟨{ packet := C26ex.pcr 100000000 }, by simp [C150ex.bs], by decide, by decide⟩
  · intro i hi hp q hq
    simp only [C150ex.cs', C150ex.bs, List.cons_append, List.nil_append, List.mem_cons, List.not_mem_nil, or_false] at hi
    rcases hi with rfl | rfl | rfl | rfl | rfl <;> cases hq
    unfold Early Spec.ProgramFilter.ReachedNoWrap
    decide
  · obtain ⟨z, h⟩ := ok_of_eval (r := run C26ex.one C26ex.opt (init C26ex.opt) (C150ex.cs' ++ C150ex.bs))
      (b := C150ex.idle (C150ex.cs' ++ C150ex.bs)) (by decide +kernel)
    exact ⟨z, _, h⟩

/-- **C150**, filter-program: so the condition on the packets before the programme can be read off their PCRs. -/
theorem C150_ahead (w : World) (hc : Faithful w.codec) (o : Opt) (P : Nat) (m : Pmt) (ev : Event) (T2 : Table → Prop)
    (hS2 : Steady o P m ev T2) (l : List (List UInt8)) (hT2 : ∀ t, Found w o.sid l t → T2 t)
    (hK : ∀ f items, ServiceFilter.run { sid := o.sid } (ServiceFilter.init { sid := o.sid })
        (seen (arrived w.codec w.tables) 0 l) = .ok (f, items) →
      Known o (received (seen (forwarded w.codec w.tables2) 0 (ServiceFilter.sent items))))
    (he : ∀ b ∈ l, (w.codec.packet b).pid = o.clockPid → ∀ q, (w.codec.packet b).pcr = some q → Early o ev q) :
    Ahead w o l := by
  intro f items h
  refine ⟨hK f items h, fun g items2 h2 => (C150_early w.extra o P m ev T2 hS2 _ ?_ ?_ g items2 h2).1⟩
  · intro i hi t ht
    obtain ⟨n, x, hx, rfl⟩ := Mirakc.Pipeline.mem_seen hi
    exact hT2 t ⟨f, items, n, x, h, hx, ht⟩
  · intro i hi hp q hq
    obtain ⟨n, x, hx, rfl⟩ := Mirakc.Pipeline.mem_seen hi
    rcases Mirakc.Pipeline.sf_sent h x hx with ⟨j, hj, _, rfl⟩ | ⟨t, k, rfl, _⟩
    · obtain ⟨k, b, hb, rfl⟩ := Mirakc.Pipeline.mem_seen hj
      exact he b hb hp q hq
    · exact absurd (hq.symm.trans (hc.patPcr t k)) (by simp)

open C150ex2 in
/-- Non-trivial case: with a PCR before the programme. -/
example : Faithful C68ex.codec ∧ Steady opt 0x100 pmt0 { eventId := 5, startTime := 10000, duration := 10 } T2 ∧
    (∀ t, Found (world []) 1 (pa ++ pb ++ [C68ex.clk 0x1ff 890000]) t → T2 t) ∧
    (∀ f items, ServiceFilter.run { sid := 1 } (ServiceFilter.init { sid := 1 })
        (seen (arrived C68ex.codec tabs) 0 (pa ++ pb ++ [C68ex.clk 0x1ff 890000])) = .ok (f, items) →
      Known opt (received (seen (forwarded C68ex.codec tabs2) 0 (ServiceFilter.sent items)))) ∧
    (∃ q, (C68ex.codec.packet (C68ex.clk 0x1ff 890000)).pcr = some q) ∧
    ∀ b ∈ pa ++ pb ++ [C68ex.clk 0x1ff 890000], (C68ex.codec.packet b).pid = 0x1ff →
      ∀ q, (C68ex.codec.packet b).pcr = some q → Early opt { eventId := 5, startTime := 10000, duration := 10 } q := by
  refine ⟨C68ex.faithful, steady2, fun t ⟨_, _, n, x, _, _, h⟩ => tabs2_T n x t h, fun f items h => ?_,
    ⟨890000 * 300, by decide +kernel⟩, ?_⟩
  · have := ahead (l := pa ++ pb ++ [C68ex.clk 0x1ff 890000]) [.pat C68ex.pat1 0, .orig (C68ex.codec.packet (C68ex.raw 0x100 1 2)),
      .orig (C68ex.codec.packet (C68ex.raw 0x111 0 4)), .pat C68ex.pat1 1, .orig (C68ex.codec.packet (C68ex.raw 0x100 2 2)),
      .orig (C68ex.codec.packet (C68ex.raw 0x12 0 3)), .orig (C68ex.codec.packet (C68ex.clk 0x1ff 890000))]
      [] [C68ex.pmt, newPat, C68ex.pmt, C26ex.eit] (by decide +kernel) (by decide +kernel) (by simp) (by simp) (by decide +kernel)
    exact (this f items h).1
  · have : ∀ b ∈ pa ++ pb ++ [C68ex.clk 0x1ff 890000], (C68ex.codec.packet b).pid = 0x1ff →
        (C68ex.codec.packet b).pcr = some (890000 * 300) := by decide +kernel
    intro b hb hp q hq
    rw [this b hb hp] at hq
    cases hq
    unfold Early Spec.ProgramFilter.ReachedNoWrap
    decide

end Mirakc.Props
