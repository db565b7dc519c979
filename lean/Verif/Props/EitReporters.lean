import Verif.Proof.EitReporters
/-
Properties C58, C59: track-airtime and filter-program-metadata.
-/
namespace Mirakc.Props
open Mirakc.Spec Mirakc.Spec.EitReporters

namespace C58ex

/-- An EIT of the service with the events. -/
def eit (sid : Nat) (events : List Event) : Table :=
  { sourcePid := 0x12, body := .eit { serviceId := sid, tsId := 7, onetwId := 4, events := events } }
/-- A packet that completes the table. -/
def pkt (t : Table) : Input := ⟨{ pid := t.sourcePid }, [t]⟩

/-- Event 5 is the following event, then the present one, with another duration, then
over.  The EIT of another service comes in between. -/
def input : List Input :=
  [ pkt (eit 1 [⟨4, 0, 60, 0⟩, ⟨5, 32400000, 60, 0⟩]), pkt (eit 2 []),
    pkt (eit 1 [⟨5, 32400000, 90, 0⟩, ⟨6, 0, 60, 0⟩]), pkt (eit 1 [⟨6, 0, 60, 0⟩]), pkt (eit 1 [⟨5, 0, 60, 0⟩]) ]
theorem run_input : ∃ h, Tracked { sid := 1, eid := 5 } input 0 h ∧
    h.items.map (·.did) = [[⟨4, 7, 1, 5, 0, 60000⟩], [], [⟨4, 7, 1, 5, 0, 90000⟩], []] := by
  obtain ⟨c, h, hr, hp⟩ := ran_of_check (snk := AirtimeTracker.sink { sid := 1, eid := 5 }) (s0 := { st := {} })
    (is := input) (P := fun c h => decide (c = 0 ∧
      h.items.map (·.did) = [[⟨4, 7, 1, 5, 0, 60000⟩], [], [⟨4, 7, 1, 5, 0, 90000⟩], []]))
    (by decide +kernel)
  obtain ⟨h1, h2⟩ := of_decide_eq_true hp
  exact ⟨h, h1 ▸ hr, h2⟩

end C58ex

/-- **C58.**  track-airtime never aborts and ends with 0.  With each packet it reports, in
order, the EITs of the service that list the event as present or following: the ids of the
EIT, start time and duration of the event.  It ends with the first packet with an EIT of the
service that does not list the event, otherwise with the input. -/
theorem C58_airtime (o : AirtimeTracker.Opt) (is : List Input) :
    (∀ (τ : Type) (src : Source Input τ) (t : τ) (fuel : Nat), Yields src t is → is.length < fuel →
      ∃ r, feedPackets src (AirtimeTracker.sink o) fuel t { st := {} } = .ok r) ∧
    ∀ (code : Nat) (h : AirtimeTracker.Hist), Tracked o is code h → code = 0 ∧
      (∀ x ∈ h.items, x.did = (eits [x.input]).filterMap (info o)) ∧
      ((h.items.map (·.input) = is ∧ ∀ x ∈ eits is, ¬ Gone o x) ∨
       ∃ before i after, is = before ++ i :: after ∧ h.items.map (·.input) = before ++ [i] ∧
         (∀ x ∈ eits before, ¬ Gone o x) ∧ ∃ x ∈ eits [i], Gone o x) := by
  refine ⟨fun τ src t fuel hy hl => ?_, fun code h hr => ?_⟩
  · refine ran_total (fun _ => True) (fun s _ i _ => ?_) (fun s _ => ⟨s, rfl⟩) trivial src t fuel hy hl
    obtain ⟨s', did, more, h⟩ := AirtimeTracker.step_total o s i
    exact ⟨s', did, more, h, trivial⟩
  · obtain ⟨s, h1, _, h3, h4, h5⟩ := Ran.reach hr
    obtain ⟨_, _, k⟩ := AirtimeTracker.reach_spec h1
    have quiet : ∀ l : List (Line Input (List AirtimeTracker.EventInfo)), (∀ x ∈ l, x ∈ h.items) →
        (∀ x ∈ l, x.more = true) → ∀ y ∈ eits (l.map (·.input)), ¬ Gone o y := by
      intro l
      induction l with
      | nil => intro _ _ y hy; simp [eits, received] at hy
      | cons a l ih =>
        intro hl hm y hy
        rw [List.map_cons, show a.input :: l.map (·.input) = [a.input] ++ l.map (·.input) from rfl,
          eits_append] at hy
        rcases List.mem_append.1 hy with hy | hy
        · intro hg
          have := (k a (hl a (by simp))).2.2 ⟨y, hy, hg⟩
          rw [hm a (by simp)] at this
          cases this
        · exact ih (fun x hx => hl x (by simp [hx])) (fun x hx => hm x (by simp [hx])) y hy
    refine ⟨h3, fun x hx => (k x hx).1, ?_⟩
    rcases h5 with ⟨h5, h6⟩ | ⟨x, h5, h6⟩
    · left
      refine ⟨h5, ?_⟩
      rw [← h5]
      exact quiet h.items (fun _ hx => hx) h6
    · right
      obtain ⟨a, e⟩ : ∃ a, h.items = a ++ [x] := by
        rcases List.eq_nil_or_concat h.items with hn | ⟨a, y, e⟩
        · rw [hn] at h5; simp at h5
        · rw [List.concat_eq_append] at e
          rw [e] at h5
          simp only [List.getLast?_append, List.getLast?_singleton, Option.some_or, Option.some.injEq] at h5
          exact ⟨a, by rw [e, h5]⟩
      obtain ⟨_, _, _, hall, _⟩ := h1.split a x [] e
      obtain ⟨after, ha⟩ := h4
      refine ⟨a.map (·.input), x.input, after, ?_, by rw [e]; simp, ?_, ?_⟩
      · rw [← ha, e]; simp
      · exact quiet a (fun y hy => by rw [e]; simp [hy]) hall
      · exact (k x (by rw [e]; simp)).2.1 h6

example : ∃ h, Tracked { sid := 1, eid := 5 } C58ex.input 0 h ∧ h.items.length = 4 := by
  obtain ⟨h, h1, h2⟩ := C58ex.run_input
  exact ⟨h, h1, by have := congrArg List.length h2; simpa using this⟩

namespace C59ex
open C58ex

theorem run_input : ∃ h, Filtered { sid := 0 } input 0 h ∧
    h.items.map (·.did) =
      [ [⟨4, 7, 1, [⟨4, -32400000, 60000, 0⟩, ⟨5, 0, 60000, 0⟩]⟩], [],
        [⟨4, 7, 1, [⟨5, 0, 90000, 0⟩, ⟨6, -32400000, 60000, 0⟩]⟩], [⟨4, 7, 1, [⟨6, -32400000, 60000, 0⟩]⟩],
        [⟨4, 7, 1, [⟨5, -32400000, 60000, 0⟩]⟩] ] := by
  obtain ⟨c, h, hr, hp⟩ := ran_of_check (snk := ProgramMetadataFilter.sink { sid := 0 }) (s0 := { st := {} })
    (is := input) (P := fun c h => decide (c = 0 ∧ h.items.map (·.did) =
      [ [⟨4, 7, 1, [⟨4, -32400000, 60000, 0⟩, ⟨5, 0, 60000, 0⟩]⟩], [],
        [⟨4, 7, 1, [⟨5, 0, 90000, 0⟩, ⟨6, -32400000, 60000, 0⟩]⟩], [⟨4, 7, 1, [⟨6, -32400000, 60000, 0⟩]⟩],
        [⟨4, 7, 1, [⟨5, -32400000, 60000, 0⟩]⟩] ]))
    (by decide +kernel)
  obtain ⟨h1, h2⟩ := of_decide_eq_true hp
  exact ⟨h, h1 ▸ hr, h2⟩

end C59ex

/-- **C59.**  filter-program-metadata never aborts, reads the whole input and ends with 0.
With each packet it reports, in order, the EITs with events of the service that is selected,
or of all services if none is. -/
theorem C59_metadata (o : ProgramMetadataFilter.Opt) (is : List Input) :
    (∀ (τ : Type) (src : Source Input τ) (t : τ) (fuel : Nat), Yields src t is → is.length < fuel →
      ∃ r, feedPackets src (ProgramMetadataFilter.sink o) fuel t { st := {} } = .ok r) ∧
    ∀ (code : Nat) (h : ProgramMetadataFilter.Hist), Filtered o is code h → code = 0 ∧
      h.items.map (·.input) = is ∧ ∀ x ∈ h.items, x.did = (eits [x.input]).filterMap (metadata o) := by
  refine ⟨fun τ src t fuel hy hl => ?_, fun code h hr => ?_⟩
  · refine ran_total (fun _ => True) (fun s _ i _ => ?_) (fun s _ => ⟨s, rfl⟩) trivial src t fuel hy hl
    obtain ⟨s', did, more, h⟩ := ProgramMetadataFilter.step_total o s i
    exact ⟨s', did, more, h, trivial⟩
  · obtain ⟨s, h1, _, h3, _, h5⟩ := Ran.reach hr
    obtain ⟨_, k⟩ := ProgramMetadataFilter.reach_spec h1
    refine ⟨h3, ?_, fun x hx => (k x hx).1⟩
    rcases h5 with ⟨h5, _⟩ | ⟨x, h5, h6⟩
    · exact h5
    · have := (k x (List.mem_of_getLast? h5)).2
      rw [h6] at this; cases this

example : ∃ h, Filtered { sid := 0 } C58ex.input 0 h ∧ h.items.length = 5 := by
  obtain ⟨h, h1, h2⟩ := C59ex.run_input
  exact ⟨h, h1, by have := congrArg List.length h2; simpa using this⟩

end Mirakc.Props
