import Verif.Spec.EitpfHandover
import Verif.Proof.EitpfHandover
import Verif.Props.BehindEits
/-
Property C155: one process of collect-eitpf takes over from another.
-/
namespace Mirakc.Props
open Mirakc.Main Mirakc.Spec Mirakc.Spec.Main Mirakc.Spec.Pipeline Mirakc.Spec.EventsJson Mirakc.Spec.EitpfHandover

private theorem partner {α β : Type} {R : α → β → Prop} : ∀ {l : List α} {m : List β}, Pairwise₂ R l m → ∀ x ∈ l, ∃ y ∈ m, R x y := by
  intro l m h
  induction h with
  | nil => intro x hx; cases hx
  | cons h1 _ ih =>
    intro x hx
    rcases List.mem_cons.1 hx with rfl | hx
    · exact ⟨_, List.mem_cons_self, h1⟩
    · obtain ⟨y, hy, hr⟩ := ih x hx
      exact ⟨y, List.mem_cons_of_mem _ hy, hr⟩

private theorem seen_parts (w w1 w2 : World) (hc : w1.codec = w.codec ∧ w2.codec = w.codec) (qs ps : List (List UInt8))
    (h1 : ∀ n < qs.length, w1.sections n = w.sections n) (h2 : ∀ n, w2.sections n = w.sections (qs.length + n)) :
    seen (sectionInput w) 0 (qs ++ ps) = seen (sectionInput w1) 0 qs ++ seen (sectionInput w2) 0 ps := by
  rw [Mirakc.Pipeline.seen_append]
  congr 1
  · exact Mirakc.Main.seen_congr _ _ _ _ _ fun k hk q => by
      simp only [sectionInput, Nat.zero_add]; rw [hc.1, h1 k hk]
  · exact Mirakc.Main.seen_congr _ _ _ _ _ fun k _ q => by
      simp only [sectionInput, Nat.zero_add]; rw [hc.2, h2 k]

/-- **C155**.  With --streaming collect-eitpf prints, for a stream, what it prints for the first packets and then a part,
in order, of what it prints if it is started after them.  What the new process prints in addition is printed for the
first packets too, in the same version. -/
theorem C155_collect_eitpf (w w1 w2 : World) (hc : w1.codec = w.codec ∧ w2.codec = w.codec)
    (hm : w1.mjd = w.mjd ∧ w2.mjd = w.mjd) (qs ps : List (List UInt8)) (hr : Reads w (qs ++ ps)) (hr1 : Reads w1 qs)
    (hr2 : Reads w2 ps) (hs1 : ∀ n < qs.length, w1.sections n = w.sections n)
    (hs2 : ∀ n, w2.sections n = w.sections (qs.length + n))
    (sids : Option (List (List Char))) (present following : Bool) (e e1 e2 : Ended)
    (h : main w (.collectEitpf sids true present following) = .ok e)
    (h1 : main w1 (.collectEitpf sids true present following) = .ok e1)
    (h2 : main w2 (.collectEitpf sids true present following) = .ok e2) :
    ∃ l, e.docs = e1.docs ++ l ∧ l.Sublist e2.docs ∧
      ∀ d ∈ e2.docs, d ∈ l ∨ ∃ d' ∈ e1.docs, SameSection d d' := by
  simp only [main, collectEitpf, loadEitpf, bind_ok_iff] at h h1 h2
  obtain ⟨o, ⟨a, a1, ho⟩, ⟨code, m, y⟩, h3, h4⟩ := h
  obtain ⟨o', ⟨a', a1', ho'⟩, ⟨code', m', y'⟩, h3', h4'⟩ := h1
  obtain ⟨o'', ⟨a'', a1'', ho''⟩, ⟨code'', m'', y''⟩, h3'', h4''⟩ := h2
  rw [a1] at a1' a1''
  obtain rfl := Except.ok.inj a1'
  obtain rfl := Except.ok.inj a1''
  obtain rfl : o = o' := Except.ok.inj (ho.symm.trans ho')
  obtain rfl : o = o'' := Except.ok.inj (ho.symm.trans ho'')
  have hst : o.streaming = true := by rw [← Except.ok.inj ho]
  have hran : Spec.EitpfCollector.Collected _ (seen (sectionInput w) 0 (qs ++ ps)) code y := ran_of_feed hr h3
  have hran1 : Spec.EitpfCollector.Collected _ (seen (sectionInput w1) 0 qs) code' y' := ran_of_feed hr1 h3'
  have hran2 : Spec.EitpfCollector.Collected _ (seen (sectionInput w2) 0 ps) code'' y'' := ran_of_feed hr2 h3''
  rw [seen_parts w w1 w2 hc qs ps hs1 hs2] at hran
  obtain ⟨l, k1, k2, k3⟩ := Mirakc.EitpfHandover.handover hst hran hran1 hran2
  have hdoc := eitDocs_documents w1 _ (EitpfCollector.Collected.wf hran1)
  obtain rfl := Except.ok.inj h4
  obtain rfl := Except.ok.inj h4'
  obtain rfl := Except.ok.inj h4''
  unfold Mirakc.EitpfHandover.outs at k1 k2 k3
  refine ⟨eitDocs w l, ?_, ?_, ?_⟩
  · show eitDocs w _ = eitDocs w1 _ ++ _
    rw [k1]
    simp only [eitDocs, List.filterMap_append, hm.1]
  · show (eitDocs w l).Sublist (eitDocs w2 _)
    simp only [eitDocs, hm.2]
    exact k2.filterMap _
  · intro d hd
    obtain ⟨x, hx, hd⟩ := List.mem_filterMap.1 (show d ∈ eitDocs w2 _ from hd)
    rw [hm.2] at hd
    rcases k3 x hx with hl | ⟨z, hz, n1, n2, n3⟩
    · exact .inl (List.mem_filterMap.2 ⟨x, hl, hd⟩)
    · refine .inr ?_
      obtain ⟨d', hd', j', evs, tail, rfl, g1, g2, g3, g4, g5, g6, g7, g8, _⟩ := partner hdoc z hz
      refine ⟨_, hd', ?_⟩
      obtain ⟨j, hj, rfl⟩ := Option.map_eq_some_iff.1 hd
      have hj : makeJsonEit w.mjd x = .ok j := by
        cases hx' : makeJsonEit w.mjd x with
        | error f => rw [hx'] at hj; cases hj
        | ok v => rw [hx'] at hj; cases hj; rfl
      unfold makeJsonEit at hj
      obtain ⟨evs', _, hj⟩ := bind_eq_ok hj
      cases hj
      have hsv := EitCollector.serviceTriple_eq.1 n2
      simp only [EitCollector.service, Prod.mk.injEq] at hsv
      exact ⟨_, j', rfl, rfl, by rw [g1, hsv.1], by rw [g2, hsv.2.1], by rw [g3, hsv.2.2], by rw [g5, n1], by rw [g8, n3]⟩

namespace C155ex
open C68ex (raw)

/-- The packets of the first process and those of the second. -/
def qs : List (List UInt8) := [raw 0x12 0 6, raw 0x12 1 7]
def ps : List (List UInt8) := [raw 0x12 2 6, raw 0x12 3 7]
def sections : Nat → List SectionEvent
  | 0 => [.sect (C50ex.sec 4 1 101 1 0)]
  | 1 => [.sect (C50ex.sec 4 1 101 1 1)]
  | 2 => [.sect (C50ex.sec 4 1 101 1 0)]
  | 3 => [.sect (C50ex.sec 4 1 101 2 1)]
  | _ => []
def world : World := { C90ex.world with sections := sections, read := [some (qs ++ ps).flatten] }
def world1 : World := { world with read := [some qs.flatten] }
def world2 : World := { world with read := [some ps.flatten], sections := fun n => sections (2 + n) }
theorem reads : Reads world (qs ++ ps) := by
  refine ⟨fun r hr => ?_, ?_⟩
  · have : ∀ r ∈ world.read, (r.getD []).length ≤ 16384 := by decide +kernel
    exact this _ hr
  · have : contents world = (qs ++ ps).flatten := by decide +kernel
    rw [this]
    exact Mirakc.Pipeline.packets_flatten (by decide +kernel)
theorem reads1 : Reads world1 qs := by
  refine ⟨fun r hr => ?_, ?_⟩
  · have : ∀ r ∈ world1.read, (r.getD []).length ≤ 16384 := by decide +kernel
    exact this _ hr
  · have : contents world1 = qs.flatten := by decide +kernel
    rw [this]
    exact Mirakc.Pipeline.packets_flatten (by decide +kernel)
theorem reads2 : Reads world2 ps := by
  refine ⟨fun r hr => ?_, ?_⟩
  · have : ∀ r ∈ world2.read, (r.getD []).length ≤ 16384 := by decide +kernel
    exact this _ hr
  · have : contents world2 = ps.flatten := by decide +kernel
    rw [this]
    exact Mirakc.Pipeline.packets_flatten (by decide +kernel)

end C155ex

open C155ex in
/-- Non-trivial case for C155: the second process prints two sections, of which one has been printed before. -/
example : Reads world (qs ++ ps) ∧ Reads world1 qs ∧ Reads world2 ps ∧
    (∀ n < qs.length, world1.sections n = world.sections n) ∧
    (∀ n, world2.sections n = world.sections (qs.length + n)) ∧
    (∃ e, main world (.collectEitpf none true false false) = .ok e ∧ decide (e.docs.length = 3) = true) ∧
    (∃ e, main world1 (.collectEitpf none true false false) = .ok e ∧ decide (e.docs.length = 2) = true) ∧
    ∃ e, main world2 (.collectEitpf none true false false) = .ok e ∧ decide (e.docs.length = 2) = true :=
  ⟨reads, reads1, reads2, fun _ _ => rfl, fun _ => rfl, C95ex.check (by decide +kernel), C95ex.check (by decide +kernel),
    C95ex.check (by decide +kernel)⟩

end Mirakc.Props
