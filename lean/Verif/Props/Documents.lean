import Verif.Proof.Documents
import Verif.Props.MainFilters
/-
Properties C102 to C104: what is on standard output, and the documents against the help texts.
-/
namespace Mirakc.Props
open Mirakc.Main Mirakc.Documents Mirakc.Spec.Documents Mirakc.Spec.Json
open Mirakc.Spec.Main (Reads Numbers)
open Mirakc.Spec.EventsJson (Pairwise₂)

/-- **C102**.  Commands that pass packets print nothing else.  Every other command but print-pes
prints one JSON document per line; read back, they show in the members described by the help
texts what the documents of the other properties say, and no object in them has two members of
the same name. -/
theorem C102_stdout (w : World) (cmd : Cmd) (hc : cmd ≠ .printPes) (e : Ended)
    (h : main w cmd = .ok e) (d : Decoders) :
    (passes cmd = true → stdout d e = e.bytes) ∧
    (passes cmd = false → ∃ js, documents (stdout d e) = js.map some ∧
      Pairwise₂ (Describes d) e.docs js ∧ ∀ j ∈ js, Distinct j) := by
  obtain ⟨h1, h2⟩ := main_apart hc h
  refine ⟨fun hp => ?_, fun hp => ?_⟩
  · rw [stdout, h1 hp]
    simp [Json.jsonl]
  · obtain ⟨h3, h4⟩ := h2 hp
    obtain ⟨js, h5, h6, h7⟩ := docs_read d e.docs h4
    refine ⟨js, ?_, h6, h7⟩
    rw [stdout, h3, h5, List.nil_append]
    exact Json.documents_jsonl js

namespace C102ex

/-- Descriptors as the libraries may see them: a title of two lines, and extended texts. -/
def decoders : Decoders where
  block _ := { descs := [(true, .shortEvent (some [0x41, 0x0A, 0x22]) none), (false, .content []), (true, .other)]
               extended := some [([0x42], [0x43])] }
  scrambled _ := false
  descs _ := [(true, some (.shortEvent (some [0x41, 0x0A, 0x22]) none)), (false, some (.content [])),
    (true, some .other)]

/-- An event with defined times. -/
def event : JsonEvent := ⟨7, some 1000, some 60000, false, []⟩

end C102ex

/-- Non-trivial case for C102: documents of collect-eitpf, whose output has several lines. -/
example : ∃ w cmd e d, cmd ≠ .printPes ∧ main w cmd = .ok e ∧ passes cmd = false ∧
    2 ≤ (lines (stdout d e)).length := by
  obtain ⟨e, h1, h2⟩ := C95ex.check
    (r := main C90ex.world (.collectEitpf (some [['1', '0', '1']]) false false false))
    (P := fun e => 2 ≤ (lines (stdout C102ex.decoders e)).length) (by decide +kernel)
  exact ⟨C90ex.world, _, e, _, by simp, h1, rfl, of_decide_eq_true h2⟩

/-- The library views agree on an event: the same id, the same times where defined, the same CA
flag, and the same descriptors, all of which can be parsed. -/
structure C103_SameEvent (d : Decoders) (e : JsonEvent) (t : ProgramMetadataFilter.EventJson) : Prop where
  id : e.eventId.toNat = t.eventId
  start : e.startTime = none ∨ e.startTime = some t.startTime
  duration : e.duration = none ∨ e.duration = some t.duration
  scrambled : e.scrambled = d.scrambled t.rest
  descs : d.descs t.rest = (d.block e.descriptors).descs.map fun (v, x) => (v, some x)

/-- The events shown by the document. -/
def C103_events (d : Decoders) (x : Doc) : Option Json := (docJson d x).bind (field "events")

/-- **C103**, the claim is false: "the format of each element in `events` is the same as
`collect-eits`" (help of filter-program-metadata).  The extended texts are missing. -/
theorem C103_claim_false : ¬ ∀ d x m, Pairwise₂ (C103_SameEvent d) x.events m.events →
    C103_events d (.metadata m) = C103_events d (.eit x) := by
  intro h
  have := h C102ex.decoders ⟨0, 0, 0, 0, 0, 0, 0, 0, [C102ex.event]⟩
    ⟨0, 0, 0, [⟨7, 1000, 60000, 0⟩]⟩
    (.cons ⟨rfl, .inr rfl, .inr rfl, rfl, rfl⟩ .nil)
  have h2 := congrArg (fun o => o.map fun j => (Json.write j).length) this
  revert h2
  decide +kernel

private theorem same_list {d : Decoders} {e : JsonEvent} {t : ProgramMetadataFilter.EventJson}
    (h : C103_SameEvent d e t) :
    listJson (d.descs t.rest) =
      (d.block e.descriptors).descs.filterMap fun (v, x) => if v then descriptorJson x else none := by
  rw [h.descs, listJson, List.filterMap_map]
  rfl

private theorem same_iff {d : Decoders} {e : JsonEvent} {t : ProgramMetadataFilter.EventJson}
    (h : C103_SameEvent d e t) : tsEventJson d t = eventJson d e ↔
      e.startTime.isSome = true ∧ e.duration.isSome = true ∧ (d.block e.descriptors).extended = none := by
  have h1 := same_list h
  unfold tsEventJson eventJson
  rw [h1, blockJson]
  simp only [Json.obj.injEq, List.cons.injEq, member, Prod.mk.injEq, true_and, and_true,
    Json.arr.injEq, h.id, h.scrambled]
  refine ⟨fun ⟨h2, h3, h4⟩ => ⟨?_, ?_, ?_⟩, fun ⟨h2, h3, h4⟩ => ⟨?_, ?_, ?_⟩⟩
  · cases hs : e.startTime with
    | none => rw [hs] at h2; cases h2
    | some _ => rfl
  · cases hs : e.duration with
    | none => rw [hs] at h3; cases h3
    | some _ => rfl
  · have h5 := congrArg List.length h4
    rw [List.length_append, List.length_map] at h5
    cases hx : (d.block e.descriptors).extended with
    | none => rfl
    | some l => rw [hx] at h5; simp at h5
  · rcases h.start with hs | hs
    · rw [hs] at h2; cases h2
    · rw [hs]; rfl
  · rcases h.duration with hs | hs
    · rw [hs] at h3; cases h3
    · rw [hs]; rfl
  · rw [h4]; simp

/-- **C103**, what holds.  The events are the same as those of collect-eits exactly if their start
times and durations are defined and they have no extended texts. -/
theorem C103_events_partial (d : Decoders) (x : JsonEit) (m : ProgramMetadataFilter.Metadata)
    (h : Pairwise₂ (C103_SameEvent d) x.events m.events) :
    C103_events d (.metadata m) = C103_events d (.eit x) ↔
      ∀ e ∈ x.events, e.startTime.isSome = true ∧ e.duration.isSome = true ∧
        (d.block e.descriptors).extended = none := by
  have e1 : C103_events d (.metadata m) = some (.arr (m.events.map (tsEventJson d))) := rfl
  have e2 : C103_events d (.eit x) = some (.arr (x.events.map (eventJson d))) := rfl
  rw [e1, e2, Option.some.injEq, Json.arr.injEq]
  clear e1 e2
  revert h
  generalize m.events = l2
  generalize x.events = l1
  intro h
  induction h with
  | nil => simp
  | cons h1 _ ih =>
    rw [List.map_cons, List.map_cons, List.cons.injEq, List.forall_mem_cons]
    exact and_congr (same_iff h1) ih

/-- **C103**, for the messages of record-service, whose `data.event` is to have that format, too. -/
theorem C103_messages_partial (d : Decoders) (eit : Eit) (ev : Event) (t : Int) (p : Nat) (e : JsonEvent)
    (h : C103_SameEvent d e (ProgramMetadataFilter.makeEvent ev)) (m : ServiceRecorder.Msg)
    (hm : m = .eventStart eit ev t p ∨ m = .eventUpdate eit ev t p ∨ m = .eventEnd eit ev t p)
    (x : JsonEit) (hx : x.events = [e]) :
    (((docJson d (.message m)).bind (field "data")).bind (field "event")).map (fun j => Json.arr [j]) =
      C103_events d (.eit x) ↔
    e.startTime.isSome = true ∧ e.duration.isSome = true ∧ (d.block e.descriptors).extended = none := by
  have e1 : ((docJson d (.message m)).bind (field "data")).bind (field "event") =
      some (tsEventJson d (ProgramMetadataFilter.makeEvent ev)) := by
    rcases hm with rfl | rfl | rfl <;> rfl
  have e2 : C103_events d (.eit x) = some (.arr (x.events.map (eventJson d))) := rfl
  rw [e1, e2, hx, Option.map_some, Option.some.injEq, Json.arr.injEq, List.map_cons, List.map_nil,
    List.cons.injEq, same_iff h]
  simp

/-- Non-trivial case for C103: an event as both libraries see it. -/
example : ∃ (d : Decoders) (x : JsonEit) (m : ProgramMetadataFilter.Metadata),
    Pairwise₂ (C103_SameEvent d) x.events m.events ∧ x.events.length = 1 ∧
    ∀ e ∈ x.events, e.startTime.isSome = true ∧ e.duration.isSome = true ∧
        (d.block e.descriptors).extended = none :=
  ⟨{ C102ex.decoders with block := fun b => { C102ex.decoders.block b with extended := none } },
    ⟨0, 0, 0, 0, 0, 0, 0, 0, [C102ex.event]⟩, ⟨0, 0, 0, [⟨7, 1000, 60000, 0⟩]⟩,
    .cons ⟨rfl, .inr rfl, .inr rfl, rfl, rfl⟩ .nil, rfl,
    by intro e he; rw [List.mem_singleton] at he; subst he; exact ⟨rfl, rfl, rfl⟩⟩

/-- The type of a message according to the help of record-service, src/main.cc:663-735. -/
def C104_documented : ServiceRecorder.Msg → String
  | .start => "start"
  | .stop _ => "end"
  | .chunk _ _ => "chunk"
  | .eventStart .. => "event-start"
  | .eventUpdate .. => "event-update"
  | .eventEnd .. => "event-end"

/-- **C104**, the claim is false: the last message has the type "stop" instead of "end". -/
theorem C104_claim_false : ¬ ∀ d m, (docJson d (.message m)).bind (field "type") =
    some (.str (Json.ascii (C104_documented m))) := by
  intro h
  have := h C102ex.decoders (.stop false)
  have e : (docJson C102ex.decoders (.message (.stop false))).bind (field "type") =
    some (.str (Json.ascii "stop")) := rfl
  rw [e, Option.some.injEq, Json.str.injEq] at this
  revert this
  decide

/-- **C104**, what holds.  All other messages have the types documented; that one has the type
"stop", and no other has. -/
theorem C104_types_partial (d : Decoders) (m : ServiceRecorder.Msg) :
    (docJson d (.message m)).bind (field "type") =
      some (.str (Json.ascii (match m with | .stop _ => "stop" | m => C104_documented m))) ∧
    ((docJson d (.message m)).bind (field "type") = some (.str (Json.ascii "stop")) ↔
      ∃ reset, m = .stop reset) := by
  have hne : ∀ s : String, Json.ascii s ≠ Json.ascii "stop" →
      some (Json.str (Json.ascii s)) ≠ some (.str (Json.ascii "stop")) := by
    intro s h e
    rw [Option.some.injEq, Json.str.injEq] at e
    exact h e
  cases m with
  | stop reset => exact ⟨rfl, fun _ => ⟨_, rfl⟩, fun _ => rfl⟩
  | start => exact ⟨rfl, fun h => absurd h (hne "start" (by decide)), fun ⟨_, h⟩ => by cases h⟩
  | chunk t p => exact ⟨rfl, fun h => absurd h (hne "chunk" (by decide)), fun ⟨_, h⟩ => by cases h⟩
  | eventStart a b c e =>
    exact ⟨rfl, fun h => absurd h (hne "event-start" (by decide)), fun ⟨_, h⟩ => by cases h⟩
  | eventUpdate a b c e =>
    exact ⟨rfl, fun h => absurd h (hne "event-update" (by decide)), fun ⟨_, h⟩ => by cases h⟩
  | eventEnd a b c e =>
    exact ⟨rfl, fun h => absurd h (hne "event-end" (by decide)), fun ⟨_, h⟩ => by cases h⟩

end Mirakc.Props
