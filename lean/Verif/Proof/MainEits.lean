import Verif.Spec.MainEits
import Verif.Proof.Main
import Verif.Proof.EitCollector
import Verif.Proof.EitpfCollector
/-
The documents of collect-eits and collect-eitpf can be made, because the sections were written.
-/
namespace Mirakc
open Mirakc.Spec.EventsJson

theorem wellFormed_of_json {mjd : List UInt8 → Option Int} {e : EitSection} {j : JsonEit}
    (h : makeJsonEit mjd e = .ok j) : WellFormed e.events := by
  rcases makeJsonEit_total mjd e with ⟨h1, _⟩ | ⟨_, h1⟩
  · exact h1
  · rw [h] at h1; cases h1

namespace EitCollector
open Mirakc.Spec.EitCollector

theorem handleSection_wf {o : Opt} {s s' : St} {x : Section} {e : EitSection}
    (h : handleSection o s x = .ok (s', some e)) : WellFormed e.events := by
  unfold handleSection at h
  split at h; · cases h
  split at h; · cases h
  split at h; · cases h
  split at h; · cases h
  obtain ⟨e', _, h⟩ := bind_eq_ok h
  split at h; · cases h
  split at h; · cases h
  split at h; · cases h
  obtain ⟨j, h1, h⟩ := bind_eq_ok h
  cases h
  exact wellFormed_of_json h1

theorem handleEvents_wf {o : Opt} : ∀ {evs : List SectionEvent} {s s' : St} {cs : List DemuxCall},
    handleEvents o evs s = .ok (s', cs) → ∀ c ∈ cs, ∀ e, c.out = some e → WellFormed e.events := by
  intro evs
  induction evs with
  | nil => intro s s' cs h c hc; cases h; cases hc
  | cons ev evs ih =>
    intro s s' cs h c hc e he
    unfold handleEvents at h
    obtain ⟨⟨s1, out⟩, h1, h⟩ := bind_eq_ok h
    obtain ⟨⟨s2, cs2⟩, h2, h⟩ := bind_eq_ok h
    cases h
    rcases List.mem_cons.1 hc with rfl | hc
    · simp only at he
      subst he
      cases ev with
      | sect x => exact handleSection_wf h1
      | table t => cases h1
    · exact ih h2 c hc e he

theorem Collected.wf {o : Opt} {is : List SectionInput} {code : Nat} {h : Hist}
    (hr : Collected o is code h) :
    ∀ e ∈ (h.items.flatMap (·.did)).filterMap (·.out), WellFormed e.events := by
  intro e he
  obtain ⟨c, hc, he⟩ := List.mem_filterMap.1 he
  obtain ⟨it, hit, hc⟩ := List.mem_flatMap.1 hc
  obtain ⟨a, b, hs⟩ := List.append_of_mem hit
  obtain ⟨s1, s2, _, _, h3, _⟩ := (Collected.reach hr).1.split a it b hs
  unfold step at h3
  obtain ⟨⟨s3, cs⟩, h4, h5⟩ := bind_eq_ok h3
  simp only [Except.ok.injEq, Prod.mk.injEq] at h5
  exact handleEvents_wf h4 c (by rw [h5.2.1]; exact hc) e he

end EitCollector

namespace EitpfCollector
open Mirakc.Spec.EitpfCollector
open Mirakc.EitCollector (DemuxCall)

theorem handleSection_wf {o : Opt} {s s' : St} {x : Section} {e : EitSection}
    (h : handleSection o s x = .ok (s', some e)) : WellFormed e.events := by
  unfold handleSection at h
  split at h; · cases h
  split at h; · cases h
  split at h; · cases h
  split at h; · cases h
  obtain ⟨e', _, h⟩ := bind_eq_ok h
  split at h; · cases h
  split at h
  · split at h; · cases h
    split at h
    · obtain ⟨j, h1, h⟩ := bind_eq_ok h
      cases h
      exact wellFormed_of_json h1
    · cases h
  · split at h
    · split at h; · cases h
      split at h
      · obtain ⟨j, h1, h⟩ := bind_eq_ok h
        cases h
        exact wellFormed_of_json h1
      · cases h
    · cases h

theorem handleEvents_wf {o : Opt} : ∀ {evs : List SectionEvent} {s s' : St} {cs : List DemuxCall},
    handleEvents o evs s = .ok (s', cs) → ∀ c ∈ cs, ∀ e, c.out = some e → WellFormed e.events := by
  intro evs
  induction evs with
  | nil => intro s s' cs h c hc; cases h; cases hc
  | cons ev evs ih =>
    intro s s' cs h c hc e he
    unfold handleEvents at h
    obtain ⟨⟨s1, out⟩, h1, h⟩ := bind_eq_ok h
    obtain ⟨⟨s2, cs2⟩, h2, h⟩ := bind_eq_ok h
    cases h
    rcases List.mem_cons.1 hc with rfl | hc
    · simp only at he
      subst he
      cases ev with
      | sect x => exact handleSection_wf h1
      | table t => cases h1
    · exact ih h2 c hc e he

theorem Collected.wf {o : Opt} {is : List SectionInput} {code : Nat} {h : Hist}
    (hr : Collected o is code h) :
    ∀ e ∈ (h.items.flatMap (·.did)).filterMap (·.out), WellFormed e.events := by
  intro e he
  obtain ⟨c, hc, he⟩ := List.mem_filterMap.1 he
  obtain ⟨it, hit, hc⟩ := List.mem_flatMap.1 hc
  obtain ⟨a, b, hs⟩ := List.append_of_mem hit
  obtain ⟨s1, s2, _, _, h3, _⟩ := (Collected.reach hr).1.split a it b hs
  unfold step at h3
  obtain ⟨⟨s3, cs⟩, h4, h5⟩ := bind_eq_ok h3
  obtain ⟨d, _, h5⟩ := bind_eq_ok h5
  simp only [Except.ok.injEq, Prod.mk.injEq] at h5
  exact handleEvents_wf h4 c (by rw [h5.2.1]; exact hc) e he

end EitpfCollector

namespace Main
open Mirakc.Spec.Main

theorem eitDocs_documents (w : World) : ∀ es : List EitSection, (∀ e ∈ es, WellFormed e.events) →
    Pairwise₂ (Documents w.mjd) es (eitDocs w es) := by
  intro es
  induction es with
  | nil => intro _; exact .nil
  | cons e es ih =>
    intro h
    obtain ⟨evs, tail, h1, h2, h3⟩ := h e List.mem_cons_self
    obtain ⟨js, h4, h5⟩ := makeEvents_encode w.mjd evs tail h1 h3 (e.events.length + 1) (by rw [h2]; omega)
    rw [← h2] at h5
    have h6 : eitDocs w (e :: es) = Doc.eit ⟨e.nid, e.tsid, e.sid, e.tid, e.sectionNumber,
        e.lastSectionNumber, e.segmentLast, e.version, js⟩ :: eitDocs w es := by
      refine List.filterMap_cons_some ?_
      unfold makeJsonEit makeEventsJson; rw [h5]; rfl
    rw [h6]
    exact .cons ⟨_, evs, tail, rfl, rfl, rfl, rfl, rfl, rfl, rfl, rfl, rfl, h1, h2, h3, h4⟩
      (ih fun x hx => h x (List.mem_cons_of_mem _ hx))

end Main
end Mirakc
