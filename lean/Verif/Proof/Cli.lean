import Verif.Spec.Cli
import Verif.Proof.Main
/-
Lemmas about the model of the command line.
-/
namespace Mirakc.Cli
open Mirakc.Options Mirakc.Main Mirakc.Spec.Cli

section
variable {a : Args} {k : String}

theorem flag_iff {b : Bool} : flag a k = .ok b ↔ Switch a k b := by
  unfold flag at' Switch
  cases h : a k with
  | none => exact ⟨(fun h => by cases h), fun h => by cases h⟩
  | some v =>
    cases v with
    | bool x => exact ⟨(fun h => by cases h; rfl), (fun h => by cases h; rfl)⟩
    | _ => exact ⟨(fun h => by cases h), fun h => by cases h⟩

theorem asNumber_iff {α : Type} {read : List Char → Option α} {x : Value} {v : α} :
    x.asNumber read = .ok v ↔ ∃ s, x = .str s ∧ read s = some v := by
  cases x with
  | str s =>
    show (match read s with | none => Except.error Refusal.uncaught | some v => Except.ok v) = _ ↔ _
    cases h : read s with
    | none => exact ⟨(fun h => by cases h), fun ⟨s', e, h'⟩ => by cases e; rw [h] at h'; cases h'⟩
    | some n =>
      constructor
      · intro e
        cases e
        exact ⟨s, rfl, h⟩
      · rintro ⟨s', e, h'⟩
        cases e
        rw [h] at h'
        cases h'
        rfl
  | _ => exact ⟨(fun h => by cases h), fun ⟨_, h, _⟩ => by cases h⟩

theorem number_iff {α : Type} {read : List Char → Option α} {v : α} : number read a k = .ok v ↔ Number read a k v := by
  unfold number at' Number
  cases h : a k with
  | none => exact ⟨(fun h => by cases h), fun ⟨_, h, _⟩ => by cases h⟩
  | some x =>
    refine (show _ ↔ _ from asNumber_iff (x := x)).trans ?_
    simp only [Option.some.injEq]

theorem maybeNumber_iff {α : Type} {read : List Char → Option α} {o : Option α} :
    maybeNumber read a k = .ok o ↔ MaybeNumber read a k o := by
  unfold maybeNumber at'
  cases h : a k with
  | none =>
    refine ⟨(fun h => by cases h), fun h' => ?_⟩
    cases o with
    | none => rw [MaybeNumber, h] at h'; cases h'
    | some v => obtain ⟨s, e, _⟩ := h'; rw [h] at e; cases e
  | some x =>
    cases hx : x.given with
    | false =>
      have : x = .empty := by cases x <;> first | rfl | cases hx
      subst this
      constructor
      · intro e
        cases e
        exact h
      · intro h'
        cases o with
        | none => rfl
        | some v => obtain ⟨s, e, _⟩ := h'; rw [h] at e; cases e
    | true =>
      show (if x.given = true then (x.asNumber read >>= fun n => .ok (some n)) else .ok none) = _ ↔ _
      rw [if_pos hx]
      constructor
      · intro e
        obtain ⟨n, hn, e⟩ := bind_ok_iff.1 e
        cases e
        obtain ⟨s, rfl, hs⟩ := asNumber_iff.1 hn
        exact ⟨s, h, hs⟩
      · intro h'
        cases o with
        | none => rw [MaybeNumber, h] at h'; cases h'; cases hx
        | some v =>
          obtain ⟨s, e, h'⟩ := h'
          rw [h] at e
          cases e
          rw [asNumber_iff.2 ⟨s, rfl, h'⟩]
          rfl

theorem sids_of {o : Option (List (List Char))} (h : Words a k o) : sids a k = loadSidSet o := by
  unfold sids at'
  cases o with
  | none => rw [show a k = _ from h]; rfl
  | some l => rw [show a k = _ from h]; rfl

theorem tags_of {o : Option (List (List Char))} (h : Words a k o) : tags a k = loadComponentTags o := by
  unfold tags at'
  cases o with
  | none => rw [show a k = _ from h]; rfl
  | some l => rw [show a k = _ from h]; rfl

theorem words_of_sids {x : List Nat} (h : sids a k = .ok x) : ∃ o, Words a k o := by
  unfold sids at' at h
  cases e : a k with
  | none => rw [e] at h; cases h
  | some v =>
    cases v with
    | empty => exact ⟨none, e⟩
    | list l => exact ⟨some l, e⟩
    | _ => rw [e] at h; cases h

theorem words_of_tags {x : List Nat} (h : tags a k = .ok x) : ∃ o, Words a k o := by
  unfold tags at' at h
  cases e : a k with
  | none => rw [e] at h; cases h
  | some v =>
    cases v with
    | empty => exact ⟨none, e⟩
    | list l => exact ⟨some l, e⟩
    | _ => rw [e] at h; cases h

end

theorem showHelp_only {a : Args} {c : String} : ∀ l : List String, (∀ x ∈ l, a x = some (.bool (decide (x = c)))) →
    c ∈ l → showHelp a l = .ok (some c)
  | [], _, h => by cases h
  | x :: l, h, hc => by
    have hf : flag a x = .ok (decide (x = c)) := flag_iff.2 (h x List.mem_cons_self)
    unfold showHelp
    rw [hf]
    by_cases hx : x = c
    · subst hx
      simp only [decide_true]
      rfl
    · simp only [hx, decide_false]
      refine showHelp_only l (fun y hy => h y (List.mem_cons_of_mem _ hy)) ?_
      rcases List.mem_cons.1 hc with h | h
      · exact absurd h.symm hx
      · exact h

theorem names_perm {x : String} : x ∈ commands ↔ x ∈ names := by
  simp only [commands, names, List.mem_cons, List.not_mem_nil, or_false]
  constructor
  · rintro (h | h | h | h | h | h | h | h | h | h | h | h) <;> simp only [h, true_or, or_true]
  · rintro (h | h | h | h | h | h | h | h | h | h | h | h) <;> simp only [h, true_or, or_true]

theorem command_of {a : Args} {c : String} (h : Only a c) : showHelp a commands = .ok (some c) :=
  showHelp_only _ (fun x hx => h.2 x (names_perm.1 hx)) (names_perm.2 h.1)

/-- `main` without help, up to the command. -/
theorem main_run (d : Reader) (w : World) {a : Args} {c : String} (hn : NoHelp a) (h : Only a c) :
    main d w a = (do
      let w ← (source w a).mapError .refused
      let e ← run d w a (some c)
      .ok (.ended e)) := by
  unfold main
  rw [show flag a "-h" = .ok false from flag_iff.2 hn.1, show flag a "--help" = .ok false from flag_iff.2 hn.2,
    command_of h]
  rfl

theorem source_of {w : World} {a : Args} (h : Supplied a w) : source w a = .ok w := by
  unfold source at'
  rcases h with ⟨s, hs, e⟩ | ⟨e | e, ho⟩
  · rw [e]
    cases s with
    | nil => exact absurd rfl hs
    | cons c s => rfl
  · rw [e]
    show Except.ok { w with opened := true } = _
    rw [← ho]
  · rw [e]
    show Except.ok { w with opened := true } = _
    rw [← ho]

end Mirakc.Cli
