import Verif.Proof.EventsJson
/-
Properties C61, C62: the JSON text of an EIT section (collect-eits, collect-eitpf).
-/
set_option linter.unusedSimpArgs false

namespace Mirakc.Props
open Mirakc.Spec.EventsJson

namespace C61ex

/-- An event of 1 h 30 min with a descriptor. -/
def ev1 : BroadcastEvent :=
  { id := 0x1234, start := fun _ => 0x12, running := 0, scrambled := true,
    duration := fun i => if i = 0 then 0x01 else if i = 1 then 0x30 else 0, descriptors := [0x4D, 1, 7] }
/-- An event of undefined duration. -/
def ev2 : BroadcastEvent :=
  { id := 0x1235, start := fun _ => 0xFF, running := 4, scrambled := false,
    duration := fun _ => 0xFF, descriptors := [] }
/-- A section with these events. -/
def section_ : EitSection :=
  { sid := 101, tid := 0x50, nid := 4, tsid := 0x4010, lastTableId := 0x50, sectionNumber := 0,
    lastSectionNumber := 0, segmentLast := 0, version := 1, events := encode [ev1, ev2] }
/-- A section whose only event claims 4095 bytes of descriptors. -/
def bad : EitSection := { section_ with events := [0, 1, 0, 0, 0, 0, 0, 0, 0, 0, 0x0F, 0xFF] }

end C61ex

/-- **C61.** The JSON document of a section whose payload is an event loop (possibly
followed by less than twelve bytes) shows its header and its events, one by one and in
order, whatever the decoding of dates by TSDuck is. -/
theorem C61_events_decoded (mjd : List UInt8 → Option Int) (e : EitSection)
    (evs : List BroadcastEvent) (tail : List UInt8) (hd : ∀ ev ∈ evs, ev.descriptors.length < 4096)
    (he : e.events = encode evs ++ tail) (ht : tail.length < 12) :
    ∃ j, makeJsonEit mjd e = .ok j ∧ Pairwise₂ (Shown mjd) evs j.events ∧
      j.originalNetworkId = e.nid ∧ j.transportStreamId = e.tsid ∧ j.serviceId = e.sid ∧
      j.tableId = e.tid ∧ j.sectionNumber = e.sectionNumber ∧
      j.lastSectionNumber = e.lastSectionNumber ∧ j.segmentLastSectionNumber = e.segmentLast ∧
      j.versionNumber = e.version := by
  obtain ⟨js, h1, h2⟩ := makeEvents_encode mjd evs tail hd ht (e.events.length + 1) (by rw [he]; omega)
  rw [← he] at h2
  refine ⟨_, by unfold makeJsonEit makeEventsJson; rw [h2]; rfl, h1, ?_⟩
  exact ⟨rfl, rfl, rfl, rfl, rfl, rfl, rfl, rfl⟩

example : ∃ (e : EitSection) (evs : List BroadcastEvent) (tail : List UInt8), (∀ ev ∈ evs, ev.descriptors.length < 4096) ∧ e.events = encode evs ++ tail ∧
    tail.length < 12 ∧ evs.length = 2 :=
  ⟨C61ex.section_, [C61ex.ev1, C61ex.ev2], [],
    by intro ev h; simp at h; rcases h with rfl | rfl <;> decide, by simp [C61ex.section_], by simp, rfl⟩

/-- **C62**, the claim is false: the length of the descriptors is not checked against the
rest of the section. -/
theorem C62_claim_false : ¬ ∀ mjd e, makeJsonEit mjd e ≠ .error .oob := by
  intro h
  exact h (fun _ => none) C61ex.bad (by decide +kernel)

/-- **C62**, partial: decoding reads outside the section if and only if its payload is not
an event loop (followed by less than twelve bytes); there is no other fault.  Missing
from the claim: malformed payloads. -/
theorem C62_memory_safe_partial (mjd : List UInt8 → Option Int) (e : EitSection) :
    ((∃ j, makeJsonEit mjd e = .ok j) ↔ WellFormed e.events) ∧
    (makeJsonEit mjd e = .error .oob ↔ ¬ WellFormed e.events) := by
  rcases makeJsonEit_total mjd e with ⟨h1, j, h2⟩ | ⟨h1, h2⟩
  · rw [h2]
    exact ⟨⟨fun _ => h1, fun _ => ⟨j, rfl⟩⟩, ⟨fun h => absurd h (by simp), fun h => absurd h1 h⟩⟩
  · rw [h2]
    exact ⟨⟨fun ⟨j, h⟩ => absurd h (by simp), fun h => absurd h h1⟩, ⟨fun _ => h1, fun _ => rfl⟩⟩

example : ∃ e : EitSection, WellFormed e.events ∧ e.events.length = 27 :=
  ⟨C61ex.section_, ⟨[C61ex.ev1, C61ex.ev2], [],
    by intro ev h; simp at h; rcases h with rfl | rfl <;> decide, by simp [C61ex.section_], by simp⟩,
    by decide⟩

end Mirakc.Props
