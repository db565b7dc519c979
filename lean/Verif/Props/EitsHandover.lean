import Verif.Spec.EitsHandover
import Verif.Proof.EitsHandover
import Verif.Props.EitpfHandover
/-
Property C157: one process of collect-eits takes over from another.
-/
namespace Mirakc.Props
open Mirakc.Main Mirakc.Spec Mirakc.Spec.Main Mirakc.Spec.Pipeline Mirakc.Spec.EventsJson Mirakc.Spec.EitsHandover

private theorem partner {α β : Type} {R : α → β → Prop} : ∀ {l : List α} {m : List β}, Pairwise₂ R l m → ∀ x ∈ l, ∃ y ∈ m, R x y := by
  intro l m h
  induction h with
  | nil => intro x hx; cases hx
  | cons h1 _ ih =>
    intro x hx
    rcases List.mem_cons.1 hx with rfl | hx
    · exact ⟨_, List.mem_cons_self, h1⟩
    · obtain ⟨y, hy, hr⟩ := ih x hx
      exact ⟨y, List.mem_cons_of_mem _ hy, hr⟩

private theorem seen_parts (w w1 w2 : World) (hc : w1.codec = w.codec ∧ w2.codec = w.codec) (qs ps : List (List UInt8))
    (h1 : ∀ n < qs.length, w1.sections n = w.sections n) (h2 : ∀ n, w2.sections n = w.sections (qs.length + n)) :
    seen (sectionInput w) 0 (qs ++ ps) = seen (sectionInput w1) 0 qs ++ seen (sectionInput w2) 0 ps := by
  rw [Mirakc.Pipeline.seen_append]
  congr 1
  · exact Mirakc.Main.seen_congr _ _ _ _ _ fun k hk q => by
      simp only [sectionInput, Nat.zero_add]; rw [hc.1, h1 k hk]
  · exact Mirakc.Main.seen_congr _ _ _ _ _ fun k _ q => by
      simp only [sectionInput, Nat.zero_add]; rw [hc.2, h2 k]

private theorem mem_delivered {w : World} {n : Nat} {ps : List (List UInt8)} {x : Section}
    (hx : .sect x ∈ (seen (sectionInput w) n ps).flatMap (delivered [0x12, 0x14])) :
    ∃ m < n + ps.length, .sect x ∈ w.sections m := by
  obtain ⟨i, hi, hx⟩ := List.mem_flatMap.1 hx
  obtain ⟨m, b, hm, _, rfl⟩ := Mirakc.Main.mem_seen_lt hi
  unfold delivered at hx
  split at hx
  · exact ⟨m, hm, (List.mem_filter.1 hx).1⟩
  · cases hx

/-- The full claim of C157: with --streaming, collect-eits prints for a stream what it prints for the first packets and
then a part, in order, of what it prints if it is started after them. -/
def C157_claim : Prop :=
  ∀ (w w1 w2 : World), w1.codec = w.codec ∧ w2.codec = w.codec → w1.mjd = w.mjd ∧ w2.mjd = w.mjd →
    ∀ (qs ps : List (List UInt8)), Reads w (qs ++ ps) → Reads w1 qs → Reads w2 ps →
      (∀ n < qs.length, w1.sections n = w.sections n) → (∀ n, w2.sections n = w.sections (qs.length + n)) →
      ∀ (sids xsids : Option (List (List Char))) (timeLimit : Option Int) (onlyActual onlyOthers : Bool) (e e1 e2 : Ended),
        main w (.collectEits sids xsids timeLimit true onlyActual onlyOthers) = .ok e →
        main w1 (.collectEits sids xsids timeLimit true onlyActual onlyOthers) = .ok e1 →
        main w2 (.collectEits sids xsids timeLimit true onlyActual onlyOthers) = .ok e2 →
        ∃ l, e.docs = e1.docs ++ l ∧ l.Sublist e2.docs

/-- **C157**, if the schedules do not change after the handover (`Unchanging`): with --streaming collect-eits prints for a
stream what it prints for the first packets and then a part, in order, of what it prints if it is started after them.
What the new process prints in addition is printed for the first packets too, in the same version if the schedules do not
change at all.
Missing: the case that the schedules change after the handover, for which the claim is false (`C157_claim_false`). -/
theorem C157_collect_eits_partial (w w1 w2 : World) (hc : w1.codec = w.codec ∧ w2.codec = w.codec)
    (hm : w1.mjd = w.mjd ∧ w2.mjd = w.mjd) (qs ps : List (List UInt8)) (hr : Reads w (qs ++ ps)) (hr1 : Reads w1 qs)
    (hr2 : Reads w2 ps) (hs1 : ∀ n < qs.length, w1.sections n = w.sections n)
    (hs2 : ∀ n, w2.sections n = w.sections (qs.length + n))
    (hu : Unchanging fun x => ∃ n < ps.length, .sect x ∈ w2.sections n)
    (sids xsids : Option (List (List Char))) (timeLimit : Option Int) (onlyActual onlyOthers : Bool) (e e1 e2 : Ended)
    (h : main w (.collectEits sids xsids timeLimit true onlyActual onlyOthers) = .ok e)
    (h1 : main w1 (.collectEits sids xsids timeLimit true onlyActual onlyOthers) = .ok e1)
    (h2 : main w2 (.collectEits sids xsids timeLimit true onlyActual onlyOthers) = .ok e2) :
    ∃ l, e.docs = e1.docs ++ l ∧ l.Sublist e2.docs ∧
      ∀ d ∈ e2.docs, d ∈ l ∨ ∃ d' ∈ e1.docs, SamePlace d d' ∧
        ((Unchanging fun x => ∃ n < (qs ++ ps).length, .sect x ∈ w.sections n) → SameVersion d d') := by
  simp only [main, collectEits, loadEits, bind_ok_iff] at h h1 h2
  obtain ⟨o, ⟨a, a1, b, b1, ho⟩, h0, hi, ⟨code, m, y⟩, h3, h4⟩ := h
  obtain ⟨o', ⟨a', a1', b', b1', ho'⟩, h0', hi', ⟨code', m', y'⟩, h3', h4'⟩ := h1
  obtain ⟨o'', ⟨a'', a1'', b'', b1'', ho''⟩, h0'', hi'', ⟨code'', m'', y''⟩, h3'', h4''⟩ := h2
  rw [a1] at a1' a1''
  rw [b1] at b1' b1''
  obtain rfl := Except.ok.inj a1'
  obtain rfl := Except.ok.inj a1''
  obtain rfl := Except.ok.inj b1'
  obtain rfl := Except.ok.inj b1''
  obtain rfl : o = o' := Except.ok.inj (ho.symm.trans ho')
  obtain rfl : o = o'' := Except.ok.inj (ho.symm.trans ho'')
  have hst : o.streaming = true := by rw [← Except.ok.inj ho]
  rw [mapError_ok_iff] at hi hi' hi''
  have hran : Spec.EitCollector.Collected _ (seen (sectionInput w) 0 (qs ++ ps)) code y := ⟨h0, hi, ran_of_feed hr h3⟩
  have hran1 : Spec.EitCollector.Collected _ (seen (sectionInput w1) 0 qs) code' y' := ⟨h0', hi', ran_of_feed hr1 h3'⟩
  have hran2 : Spec.EitCollector.Collected _ (seen (sectionInput w2) 0 ps) code'' y'' := ⟨h0'', hi'', ran_of_feed hr2 h3''⟩
  rw [seen_parts w w1 w2 hc qs ps hs1 hs2] at hran
  have hmem := fun x => mem_delivered (x := x) (w := w2) (n := 0) (ps := ps)
  simp only [Nat.zero_add] at hmem
  have hmem' : ∀ x, .sect x ∈ (seen (sectionInput w1) 0 qs ++ seen (sectionInput w2) 0 ps).flatMap (delivered [0x12, 0x14]) →
      ∃ n < (qs ++ ps).length, .sect x ∈ w.sections n := by
    intro x hx
    rw [← seen_parts w w1 w2 hc qs ps hs1 hs2] at hx
    obtain ⟨n, h1, h2⟩ := mem_delivered hx
    exact ⟨n, by omega, h2⟩
  obtain ⟨l, k1, k2, k3⟩ := Mirakc.EitsHandover.handover hst hran hran1 hran2
    fun x y hx hy => hu x y (hmem x hx) (hmem y hy)
  have hdoc := eitDocs_documents w1 _ (EitCollector.Collected.wf hran1)
  obtain rfl := Except.ok.inj h4
  obtain rfl := Except.ok.inj h4'
  obtain rfl := Except.ok.inj h4''
  unfold EitCollector.calls at k1 k2 k3
  refine ⟨eitDocs w l, ?_, ?_, ?_⟩
  · show eitDocs w _ = eitDocs w1 _ ++ _
    rw [k1]
    simp only [eitDocs, List.filterMap_append, hm.1]
  · show (eitDocs w l).Sublist (eitDocs w2 _)
    simp only [eitDocs, hm.2]
    exact k2.filterMap _
  · intro d hd
    obtain ⟨x, hx, hd⟩ := List.mem_filterMap.1 (show d ∈ eitDocs w2 _ from hd)
    rw [hm.2] at hd
    rcases k3 x hx with hl | ⟨z, hz, ⟨n1, n2, n3⟩, n4⟩
    · exact .inl (List.mem_filterMap.2 ⟨x, hl, hd⟩)
    · refine .inr ?_
      obtain ⟨d', hd', j', evs, tail, rfl, g1, g2, g3, g4, g5, g6, g7, g8, _⟩ := partner hdoc z hz
      refine ⟨_, hd', ?_⟩
      obtain ⟨j, hj, rfl⟩ := Option.map_eq_some_iff.1 hd
      have hj : makeJsonEit w.mjd x = .ok j := by
        cases hx' : makeJsonEit w.mjd x with
        | error f => rw [hx'] at hj; cases hj
        | ok v => rw [hx'] at hj; cases hj; rfl
      unfold makeJsonEit at hj
      obtain ⟨evs', _, hj⟩ := bind_eq_ok hj
      cases hj
      simp only [EitCollector.group, EitCollector.service, EitCollector.extended, Prod.mk.injEq] at n1
      obtain ⟨⟨m1, m2, m3⟩, m4⟩ := n1
      unfold EitCollector.tableNo at n2
      have m4 : (8 ≤ z.tid.toNat % 16) ↔ (8 ≤ x.tid.toNat % 16) := by simpa using m4
      refine ⟨⟨_, j', rfl, rfl, by rw [g1, m1], by rw [g2, m2], by rw [g3, m3], ?_, ?_⟩, fun hall =>
        ⟨_, j', rfl, rfl, by rw [g8, n4 fun x y hx hy => hall x y (hmem' x hx) (hmem' y hy)]⟩⟩
      · rw [g4]; show x.tid.toNat % 16 = z.tid.toNat % 16; omega
      · rw [g5]; exact UInt8.toNat_inj.1 n3.symm

namespace C157ex
open C68ex (raw)

/-- The packets of the first process and those of the second. -/
def qs : List (List UInt8) := [raw 0x12 0 6, raw 0x12 1 7]
def ps : List (List UInt8) := [raw 0x12 2 6, raw 0x12 3 7]
def sections : Nat → List SectionEvent
  | 0 => [.sect (C43ex.sec 101 0x50 1 0 1 1 0x50)]
  | 2 => [.sect (C43ex.sec 101 0x50 1 0 1 1 0x50)]
  | 3 => [.sect (C43ex.sec 101 0x50 1 1 1 1 0x50), .sect (C43ex.sec 101 0x50 1 0 1 1 0x50)]
  | _ => []
def world : World := { C90ex.world with sections := sections, read := [some (qs ++ ps).flatten] }
def world1 : World := { world with read := [some qs.flatten] }
def world2 : World := { world with read := [some ps.flatten], sections := fun n => sections (2 + n) }
theorem reads : Reads world (qs ++ ps) := by
  refine ⟨fun r hr => ?_, ?_⟩
  · have : ∀ r ∈ world.read, (r.getD []).length ≤ 16384 := by decide +kernel
    exact this _ hr
  · have : contents world = (qs ++ ps).flatten := by decide +kernel
    rw [this]
    exact Mirakc.Pipeline.packets_flatten (by decide +kernel)
theorem reads1 : Reads world1 qs := by
  refine ⟨fun r hr => ?_, ?_⟩
  · have : ∀ r ∈ world1.read, (r.getD []).length ≤ 16384 := by decide +kernel
    exact this _ hr
  · have : contents world1 = qs.flatten := by decide +kernel
    rw [this]
    exact Mirakc.Pipeline.packets_flatten (by decide +kernel)
theorem reads2 : Reads world2 ps := by
  refine ⟨fun r hr => ?_, ?_⟩
  · have : ∀ r ∈ world2.read, (r.getD []).length ≤ 16384 := by decide +kernel
    exact this _ hr
  · have : contents world2 = ps.flatten := by decide +kernel
    rw [this]
    exact Mirakc.Pipeline.packets_flatten (by decide +kernel)
theorem all {x : Section} {n : Nat} (h : .sect x ∈ sections n) : ∃ i, x = C43ex.sec 101 0x50 1 i 1 1 0x50 := by
  match n, h with
  | 0, h => exact ⟨0, by simpa [sections] using h⟩
  | 1, h => exact absurd h (by simp [sections])
  | 2, h => exact ⟨0, by simpa [sections] using h⟩
  | 3, h =>
    have h : x = C43ex.sec 101 0x50 1 1 1 1 0x50 ∨ x = C43ex.sec 101 0x50 1 0 1 1 0x50 := by
      simpa [sections] using h
    exact h.elim (⟨1, ·⟩) (⟨0, ·⟩)
  | n + 4, h => exact absurd h (by simp [sections])
theorem unchanging {S : Section → Prop} (h : ∀ x, S x → ∃ n, .sect x ∈ sections n) : Unchanging S := by
  intro x y hx hy _ _ e d he hd
  obtain ⟨_, hx⟩ := h x hx
  obtain ⟨_, hy⟩ := h y hy
  obtain ⟨i, rfl⟩ := all hx
  obtain ⟨j, rfl⟩ := all hy
  obtain rfl := EitCollector.shows_unique he (C43ex.shows ..)
  obtain rfl := EitCollector.shows_unique hd (C43ex.shows ..)
  exact fun _ => ⟨rfl, fun _ => ⟨rfl, fun _ => rfl⟩⟩

/-- The number of the section. -/
def number : Doc → Option UInt8
  | .eit j => some j.sectionNumber
  | _ => none
/-- The sections of the counterexample: a new version of the first segment arrives after the handover. -/
def sections' : Nat → List SectionEvent
  | 0 => [.sect (C43ex.sec 101 0x50 2 16 17 17 0x50)]
  | 2 => [.sect (C43ex.sec 101 0x50 1 0 17 2 0x50), .sect (C43ex.sec 101 0x50 2 8 17 8 0x50)]
  | 3 => [.sect (C43ex.sec 101 0x50 2 16 17 17 0x50), .sect (C43ex.sec 101 0x50 2 0 17 2 0x50)]
  | _ => []
def bad : World := { world with sections := sections' }
def bad1 : World := { world1 with sections := sections' }
def bad2 : World := { world2 with sections := fun n => sections' (2 + n) }

end C157ex

open C157ex in
/-- Non-trivial case for C157: the second process prints two sections, of which one has been printed before. -/
example : Reads world (qs ++ ps) ∧ Reads world1 qs ∧ Reads world2 ps ∧
    (∀ n < qs.length, world1.sections n = world.sections n) ∧
    (∀ n, world2.sections n = world.sections (qs.length + n)) ∧
    (Unchanging fun x => ∃ n < ps.length, .sect x ∈ world2.sections n) ∧
    (Unchanging fun x => ∃ n < (qs ++ ps).length, .sect x ∈ world.sections n) ∧
    (∃ e, main world (.collectEits none none none true false false) = .ok e ∧ decide (e.docs.length = 2) = true) ∧
    (∃ e, main world1 (.collectEits none none none true false false) = .ok e ∧ decide (e.docs.length = 1) = true) ∧
    ∃ e, main world2 (.collectEits none none none true false false) = .ok e ∧ decide (e.docs.length = 2) = true :=
  ⟨reads, reads1, reads2, fun _ _ => rfl, fun _ => rfl, unchanging fun _ ⟨n, _, h⟩ => ⟨2 + n, h⟩, unchanging fun _ ⟨n, _, h⟩ => ⟨n, h⟩,
    C95ex.check (by decide +kernel), C95ex.check (by decide +kernel), C95ex.check (by decide +kernel)⟩

open C157ex in
/-- The full claim is false: the versions are kept by the place in the segment, not by segment.  A section that the first
process has printed is printed again by the second, and sets the version that makes it take a new section for known. -/
theorem C157_claim_false : ¬ C157_claim := by
  intro hall
  obtain ⟨e, h, hd⟩ := C95ex.check (r := main bad (.collectEits none none none true false false))
    (P := fun e => e.docs.map number = [some 16, some 0, some 8, some 0]) (by decide +kernel)
  obtain ⟨e1, h1, hd1⟩ := C95ex.check (r := main bad1 (.collectEits none none none true false false))
    (P := fun e => e.docs.map number = [some 16]) (by decide +kernel)
  obtain ⟨e2, h2, hd2⟩ := C95ex.check (r := main bad2 (.collectEits none none none true false false))
    (P := fun e => e.docs.map number = [some 0, some 8, some 16]) (by decide +kernel)
  obtain ⟨l, k1, k2⟩ := hall bad bad1 bad2 ⟨rfl, rfl⟩ ⟨rfl, rfl⟩ qs ps reads reads1 reads2 (fun _ _ => rfl) (fun _ => rfl)
    _ _ _ _ _ _ _ _ h h1 h2
  have hd := of_decide_eq_true hd
  have hd1 := of_decide_eq_true hd1
  have hd2 := of_decide_eq_true hd2
  have k2 := k2.map number
  rw [k1, List.map_append, hd1, List.singleton_append, List.cons.injEq] at hd
  rw [hd2, hd.2] at k2
  exact absurd k2 (by decide)

end Mirakc.Props
