import Verif.Spec.Reports
import Verif.Spec.Selecting
import Verif.Props.Main
/-
Property C141: filter-program-metadata for one service, and track-airtime, tell what filter-program-metadata tells.
-/
namespace Mirakc.Props
open Mirakc.Main Mirakc.Spec Mirakc.Spec.Main Mirakc.Spec.Pipeline Mirakc.Spec.Selecting Mirakc.Spec.Reports

private theorem picked_metadata (sid : Nat) (hs : sid ≠ 0) : ∀ l : List Eit,
    Picked (About sid) ((l.filterMap (EitReporters.metadata {})).map Doc.metadata)
      ((l.filterMap (EitReporters.metadata { sid := sid })).map Doc.metadata)
  | [] => .nil
  | x :: l => by
    have ih := picked_metadata sid hs l
    by_cases hx : x.events = []
    · have e : ∀ o, EitReporters.metadata o x = none := fun o => by unfold EitReporters.metadata; rw [if_neg (by simp [hx])]
      rw [List.filterMap_cons_none (e _), List.filterMap_cons_none (e _)]
      exact ih
    · have e1 : EitReporters.metadata {} x = some
          { nid := x.onetwId, tsid := x.tsId, sid := x.serviceId
            events := x.events.map fun e => ⟨e.eventId, e.startTime - EitReporters.jst, 1000 * e.duration, e.rest⟩ } := by
        unfold EitReporters.metadata; rw [if_pos ⟨.inl rfl, hx⟩]
      rw [List.filterMap_cons_some e1, List.map_cons]
      by_cases hy : x.serviceId = sid
      · have e2 : EitReporters.metadata { sid := sid } x = some
            { nid := x.onetwId, tsid := x.tsId, sid := x.serviceId
              events := x.events.map fun e => ⟨e.eventId, e.startTime - EitReporters.jst, 1000 * e.duration, e.rest⟩ } := by
          unfold EitReporters.metadata; rw [if_pos ⟨.inr hy, hx⟩]
        rw [List.filterMap_cons_some e2, List.map_cons]
        exact .keep ⟨_, rfl, hy⟩ ih
      · have e2 : EitReporters.metadata { sid := sid } x = none := by
          unfold EitReporters.metadata
          rw [if_neg]
          rintro ⟨h | h, _⟩
          · exact hs h
          · exact hy h
        rw [List.filterMap_cons_none e2]
        refine .drop ?_ ih
        rintro ⟨m, hm, h⟩
        cases hm
        exact hy h

/-- **C141**, filter-program-metadata.  With `--sid` it prints those of the documents it prints without that are about
the service, in the same order, with the same exit code. -/
theorem C141_metadata (w : World) (ps : List (List UInt8)) (hr : Reads w ps) (sid : Nat) (hs : sid < 65536)
    (h0 : sid ≠ 0) (e e' : Ended) (h : main w (.filterProgramMetadata none) = .ok e)
    (h' : main w (.filterProgramMetadata (some sid)) = .ok e') :
    e'.code = e.code ∧ Picked (About sid) e.docs e'.docs := by
  obtain ⟨c1, k1⟩ := C94_program_metadata w ps hr none (by intro v hv; cases hv) e h
  obtain ⟨c2, k2⟩ := C94_program_metadata w ps hr (some sid) (by intro v hv; cases hv; exact hs) e' h'
  rw [c1, c2, k1, k2]
  exact ⟨rfl, picked_metadata sid h0 _⟩

private theorem find_map {α β : Type} (f : α → β) (p : β → Bool) (l : List α) :
    (l.map f).find? p = (l.find? (p ∘ f)).map f := by
  induction l with
  | nil => rfl
  | cons a l ih =>
    rw [List.map_cons, List.find?_cons, List.find?_cons, Function.comp]
    cases p (f a) with
    | true => rfl
    | false => exact ih

private theorem info_metadata (sid eid : Nat) (x : Eit) :
    (EitReporters.info { sid := sid, eid := eid } x).map Doc.airtime =
      ((EitReporters.metadata {} x).map Doc.metadata).bind (airtimeIn sid eid) := by
  unfold EitReporters.info EitReporters.metadata
  by_cases hx : x.events = []
  · rw [if_neg (c := _ ∧ _) (by simp [hx]), hx]
    split <;> rfl
  · rw [if_pos (c := _ ∧ _) ⟨.inl rfl, hx⟩, Option.map_some, Option.bind_some]
    unfold airtimeIn
    dsimp only
    by_cases hy : x.serviceId = sid
    · rw [if_pos hy, if_pos hy, ← List.map_take, find_map]
      simp only [Option.map_map, Function.comp_def]
    · rw [if_neg hy, if_neg hy]; rfl

/-- **C141**, track-airtime.  It prints the airtime of the event from the documents that filter-program-metadata prints
for the same stream: from all of them, or from the first ones.  In the second case one of these is about the service and
does not list the event, or there is an EIT of the service without events. -/
theorem C141_airtime (w : World) (ps : List (List UInt8)) (hr : Reads w ps) (sid eid : Nat) (hs : sid < 65536)
    (he : eid < 65536) (e e' : Ended) (h : main w (.filterProgramMetadata none) = .ok e)
    (h' : main w (.trackAirtime sid eid) = .ok e') :
    e'.code = e.code ∧ ∃ first, first <+: e.docs ∧ e'.docs = first.filterMap (airtimeIn sid eid) ∧
      (first = e.docs ∨ (∃ d ∈ first, About sid d ∧ airtimeIn sid eid d = none) ∨
        ∃ x ∈ EitReporters.eits (seen (arrived w.codec w.tables) 0 ps), x.serviceId = sid ∧ x.events = []) := by
  obtain ⟨c1, k1⟩ := C94_program_metadata w ps hr none (by intro v hv; cases hv) e h
  obtain ⟨c2, n, _, k2, _, k3⟩ := C94_track_airtime w ps hr sid eid hs he e' h'
  refine ⟨by rw [c1, c2], ((EitReporters.eits ((seen (arrived w.codec w.tables) 0 ps).take n)).filterMap
      (EitReporters.metadata {})).map .metadata, ?_, ?_, ?_⟩
  · rw [k1]
    obtain ⟨r, hr⟩ := List.take_prefix n (seen (arrived w.codec w.tables) 0 ps)
    have : EitReporters.eits (seen (arrived w.codec w.tables) 0 ps) =
        EitReporters.eits ((seen (arrived w.codec w.tables) 0 ps).take n) ++ EitReporters.eits r := by
      conv => lhs; rw [← hr]
      simp [EitReporters.eits, received]
    rw [this, List.filterMap_append, List.map_append]
    exact List.prefix_append _ _
  · rw [k2, List.map_filterMap, List.map_filterMap, List.filterMap_filterMap]
    exact congrArg (List.filterMap · _) (funext fun x => info_metadata sid eid x)
  · rcases k3 with ⟨rfl, _⟩ | ⟨x, hx, h1, h2⟩
    · left; rw [k1, List.take_length]; rfl
    · right
      by_cases h3 : x.events = []
      · refine .inr ⟨x, ?_, h1, h3⟩
        simp only [EitReporters.eits, received, List.mem_filterMap, List.mem_flatMap] at hx ⊢
        obtain ⟨t, ⟨i, hi, ht⟩, hx⟩ := hx
        exact ⟨t, ⟨i, List.mem_of_mem_take hi, ht⟩, hx⟩
      · have e1 : EitReporters.metadata {} x = some
            { nid := x.onetwId, tsid := x.tsId, sid := x.serviceId
              events := x.events.map fun e => ⟨e.eventId, e.startTime - EitReporters.jst, 1000 * e.duration, e.rest⟩ } := by
          unfold EitReporters.metadata; rw [if_pos ⟨.inl rfl, h3⟩]
        refine .inl ⟨.metadata _, List.mem_map_of_mem (List.mem_filterMap.2 ⟨x, hx, e1⟩), ⟨_, rfl, h1⟩, ?_⟩
        have := info_metadata sid eid x
        rw [e1, Option.map_some, Option.bind_some] at this
        rw [← this]
        unfold EitReporters.info
        rw [if_pos h1, List.find?_eq_none.2 (fun y hy => by simpa using h2 y hy)]
        rfl

/-- Non-trivial case for C141: three documents, of which two are about the service, and one lists the event. -/
example : ∃ w ps e e' e'', Reads w ps ∧ main w (.filterProgramMetadata none) = .ok e ∧ e.docs.length = 3 ∧
    main w (.filterProgramMetadata (some 1)) = .ok e' ∧ e'.docs.length = 2 ∧
    main w (.trackAirtime 1 5) = .ok e'' ∧ e''.docs.length = 1 := by
  refine ⟨C90ex.world, C90ex.ps,
    { code := 0, docs := [.metadata ⟨4, 7, 1, [⟨4, -32400000, 60000, 0⟩, ⟨5, 0, 60000, 0⟩]⟩,
      .metadata ⟨4, 7, 2, [⟨7, -32400000, 60000, 0⟩]⟩, .metadata ⟨4, 7, 1, [⟨6, -32400000, 60000, 0⟩]⟩] },
    { code := 0, docs := [.metadata ⟨4, 7, 1, [⟨4, -32400000, 60000, 0⟩, ⟨5, 0, 60000, 0⟩]⟩,
      .metadata ⟨4, 7, 1, [⟨6, -32400000, 60000, 0⟩]⟩] },
    { code := 0, docs := [.airtime ⟨4, 7, 1, 5, 0, 60000⟩] }, C90ex.reads,
    C90ex.eval (by decide +kernel), rfl, C90ex.eval (by decide +kernel), rfl, C90ex.eval (by decide +kernel), rfl⟩

end Mirakc.Props
