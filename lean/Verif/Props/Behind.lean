import Verif.Proof.Behind
import Verif.Props.Again
/-
Property C152: track-airtime and filter-program-metadata behind filter-service.
-/
namespace Mirakc.Props
open Mirakc.Main Mirakc.Spec Mirakc.Spec.Main Mirakc.Spec.Pipeline
open Mirakc.Spec.ServiceFilter (Again sent usablePat)

private theorem behind {w w2 : World} (hc : Faithful w.codec) {ps : List (List UInt8)} (hr : Reads w ps)
    {sid : Nat} {f : ServiceFilter.St} {items : List ServiceFilter.Item}
    (hrun : ServiceFilter.run { sid := sid } (ServiceFilter.init { sid := sid })
      (seen (arrived w.codec w.tables) 0 ps) = .ok (f, items))
    {ts : List (List Table)} (ha : Again (seen (arrived w.codec w.tables) 0 ps) items ts)
    (hp : ∀ k b, ps[k]? = some b → (w.codec.packet b).pid = 0x12 → (∃ t ∈ w.tables k, t.sourcePid = 0x12) →
      ∃ t ∈ Spec.ServiceFilter.received (items.take k), usablePat t ≠ none)
    (hcod : w2.codec = w.codec) (ht : ∀ k l, ts[k]? = some l → w2.tables k = l) :
    Mirakc.Behind.Thin (seen (arrived w.codec w.tables) 0 ps)
      (seen (arrived w2.codec w2.tables) 0 ((sent items).map (serviceBytes w.codec))) := by
  obtain ⟨hl, hn⟩ := again_length ha
  rw [hcod, seen_reread w.codec w2.tables (sent items) ts 0 hl
    (fun k l h => by rw [Nat.zero_add]; exact ht k l h)]
  refine Mirakc.Behind.thin_out (fun t n => hc.patPid t n) ?_ hrun ha hn ?_
  · intro i hi
    obtain ⟨k, b, hb, rfl⟩ := Mirakc.Pipeline.mem_seen hi
    show w.codec.packet (w.codec.bytes (w.codec.packet b)) = w.codec.packet b
    rw [hc.keep b (Mirakc.Pipeline.packets_188 hr.2 b hb)]
  · intro k i hi h1 h2
    have hk : k < ps.length := by
      have := (List.getElem?_eq_some_iff.1 hi).1
      rwa [Mirakc.Pipeline.seen_length] at this
    have := Mirakc.Joined.seen_get (arrived w.codec w.tables) ps 0 k _ (List.getElem?_eq_getElem hk)
    rw [this, Nat.zero_add] at hi
    cases hi
    exact hp k _ (List.getElem?_eq_getElem hk) h1 h2

/-- **C152**, filter-program-metadata.  It prints for the output of filter-service, for any service, what it prints for the
stream, if no EIT is completed before filter-service has received a PAT; the packets that filter-service passes on complete the tables
they complete in the stream, the rewritten PATs instead of the original ones (`Again`). -/
theorem C152_metadata (w w2 : World) (hc : Faithful w.codec) (ps : List (List UInt8)) (hr : Reads w ps) (sid : Nat)
    (f : ServiceFilter.St) (items : List ServiceFilter.Item)
    (hrun : ServiceFilter.run { sid := sid } (ServiceFilter.init { sid := sid })
      (seen (arrived w.codec w.tables) 0 ps) = .ok (f, items))
    (ts : List (List Table)) (ha : Again (seen (arrived w.codec w.tables) 0 ps) items ts)
    (hp : ∀ k b, ps[k]? = some b → (w.codec.packet b).pid = 0x12 → (∃ t ∈ w.tables k, t.sourcePid = 0x12) →
      ∃ t ∈ Spec.ServiceFilter.received (items.take k), usablePat t ≠ none)
    (hcod : w2.codec = w.codec) (hr2 : Reads w2 ((sent items).map (serviceBytes w.codec)))
    (ht : ∀ k l, ts[k]? = some l → w2.tables k = l) (sid' : Option Nat) (hs : ∀ v, sid' = some v → v < 65536)
    (e e2 : Ended) (h : main w (.filterProgramMetadata (sid'.map fun v : Nat => (v : Int))) = .ok e)
    (h2 : main w2 (.filterProgramMetadata (sid'.map fun v : Nat => (v : Int))) = .ok e2) :
    e2.docs = e.docs ∧ e2.code = 0 ∧ e.code = 0 := by
  obtain ⟨a1, a2⟩ := C94_program_metadata w _ hr sid' hs e h
  obtain ⟨b1, b2⟩ := C94_program_metadata w2 _ hr2 sid' hs e2 h2
  refine ⟨?_, b1, a1⟩
  rw [a2, b2, Mirakc.Behind.thin_eits (behind hc hr hrun ha hp hcod ht)]

/-- **C152**, track-airtime, likewise. -/
theorem C152_airtime (w w2 : World) (hc : Faithful w.codec) (ps : List (List UInt8)) (hr : Reads w ps) (sid : Nat)
    (f : ServiceFilter.St) (items : List ServiceFilter.Item)
    (hrun : ServiceFilter.run { sid := sid } (ServiceFilter.init { sid := sid })
      (seen (arrived w.codec w.tables) 0 ps) = .ok (f, items))
    (ts : List (List Table)) (ha : Again (seen (arrived w.codec w.tables) 0 ps) items ts)
    (hp : ∀ k b, ps[k]? = some b → (w.codec.packet b).pid = 0x12 → (∃ t ∈ w.tables k, t.sourcePid = 0x12) →
      ∃ t ∈ Spec.ServiceFilter.received (items.take k), usablePat t ≠ none)
    (hcod : w2.codec = w.codec) (hr2 : Reads w2 ((sent items).map (serviceBytes w.codec)))
    (ht : ∀ k l, ts[k]? = some l → w2.tables k = l) (sid' eid : Nat) (hs : sid' < 65536) (he : eid < 65536)
    (e e2 : Ended) (h : main w (.trackAirtime sid' eid) = .ok e) (h2 : main w2 (.trackAirtime sid' eid) = .ok e2) :
    e2.docs = e.docs ∧ e2.code = 0 ∧ e.code = 0 := by
  obtain ⟨a1, n, n1, n2, n3, n4⟩ := C94_track_airtime w _ hr sid' eid hs he e h
  obtain ⟨b1, m, m1, m2, m3, m4⟩ := C94_track_airtime w2 _ hr2 sid' eid hs he e2 h2
  refine ⟨?_, b1, a1⟩
  rw [n2, m2, Mirakc.Behind.cut_eq n1 n3 n4, Mirakc.Behind.cut_eq m1 m3 m4,
    Mirakc.Behind.thin_cut (behind hc hr hrun ha hp hcod ht)]

namespace C152ex

theorem run_items : ∃ f, ServiceFilter.run { sid := 1 } (ServiceFilter.init { sid := 1 })
    (seen (arrived C95ex.world.codec C95ex.world.tables) 0 C68ex.ps) = .ok (f, C126ex.items) := by
  have key : (match C126ex.result with | .ok _ => true | .error _ => false) = true := by decide +kernel
  cases h : C126ex.result with
  | error x => rw [h] at key; cases key
  | ok x =>
    refine ⟨x.1, ?_⟩
    have : C126ex.items = x.2 := by simp only [C126ex.items, h]
    rw [this]
    exact h

theorem pat_first : ∀ k b, C68ex.ps[k]? = some b → (C68ex.codec.packet b).pid = 0x12 →
    (∃ t ∈ C68ex.tabs k, t.sourcePid = 0x12) →
    ∃ t ∈ Spec.ServiceFilter.received (C126ex.items.take k), usablePat t ≠ none := by
  intro k b _ _ ⟨t, ht, h0⟩
  have hk : k = 2 := by
    unfold C68ex.tabs at ht
    split at ht
    · simp only [List.mem_singleton] at ht; subst ht; cases h0
    · simp only [List.mem_singleton] at ht; subst ht; cases h0
    · rfl
    · cases ht
  subst hk
  exact ⟨C68ex.pat, by decide +kernel, by decide⟩

end C152ex

/-- Non-trivial case for C152: the stream of C68, of which filter-service drops a packet and replaces two; both commands print
something about the event. -/
example : Faithful C95ex.world.codec ∧ Reads C95ex.world C68ex.ps ∧
    Again (seen (arrived C95ex.world.codec C95ex.world.tables) 0 C68ex.ps) C126ex.items C126ex.ts ∧
    Reads C126ex.world ((sent C126ex.items).map (serviceBytes C95ex.world.codec)) ∧
    (∀ k l, C126ex.ts[k]? = some l → C126ex.world.tables k = l) ∧
    (∃ e, main C126ex.world (.filterProgramMetadata (some 1)) = .ok e ∧ decide (e.docs.length = 1) = true) ∧
    ∃ e, main C126ex.world (.trackAirtime 1 5) = .ok e ∧ decide (e.docs.length = 1) = true :=
  ⟨C68ex.faithful, C95ex.reads, again_sound (by decide +kernel), C126ex.reads,
    fun k l h => by simp [C126ex.world, h], C95ex.check (by decide +kernel), C95ex.check (by decide +kernel)⟩

namespace C152ex2

/-- The EIT comes before the PAT. -/
def ps : List (List UInt8) := [C68ex.raw 0x12 0 3, C68ex.raw 0 0 1]
def tabs : Nat → List Table
  | 0 => [C26ex.eit]
  | 1 => [C68ex.pat]
  | _ => []
def items : List ServiceFilter.Item :=
  match ServiceFilter.run { sid := 1 } (ServiceFilter.init { sid := 1 }) (seen (arrived C68ex.codec tabs) 0 ps) with
  | .ok x => x.2 | .error _ => []
def ts : List (List Table) := [[{ sourcePid := 0, body := .pat C68ex.pat1 }]]
def world : World := { C95ex.world with read := [some ps.flatten], tables := tabs }
def world2 : World :=
  { C95ex.world with read := [some ((sent items).map (serviceBytes C68ex.codec)).flatten], tables := fun k => (ts[k]?).getD [] }

end C152ex2

/-- **C152** does not hold for an EIT before the first PAT: filter-service drops its packet. -/
theorem C152_early_eit :
    Again (seen (arrived C152ex2.world.codec C152ex2.world.tables) 0 C152ex2.ps) C152ex2.items C152ex2.ts ∧
    ∃ e e2, main C152ex2.world (.filterProgramMetadata (some 1)) = .ok e ∧
      main C152ex2.world2 (.filterProgramMetadata (some 1)) = .ok e2 ∧ e.docs.length = 1 ∧ e2.docs = [] := by
  refine ⟨again_sound (by decide +kernel), ?_⟩
  obtain ⟨e, h1, h2⟩ := C95ex.check (r := main C152ex2.world (.filterProgramMetadata (some 1)))
    (P := fun e => decide (e.docs.length = 1)) (by decide +kernel)
  obtain ⟨e2, h3, h4⟩ := C95ex.check (r := main C152ex2.world2 (.filterProgramMetadata (some 1)))
    (P := fun e => decide (e.docs.length = 0)) (by decide +kernel)
  exact ⟨e, e2, h1, h3, of_decide_eq_true h2, List.eq_nil_of_length_eq_zero (of_decide_eq_true h4)⟩

end Mirakc.Props
