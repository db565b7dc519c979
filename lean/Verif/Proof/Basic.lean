import Verif.Spec.Int64
import Verif.Model.Base
/-
Simplification lemmas for the error monad.
-/
namespace Mirakc

@[simp] theorem ok_bind {α β} (a : α) (f : α → Except Fault β) :
    (Except.ok a >>= f) = f a := rfl

@[simp] theorem pure_eq_ok {α} (a : α) : (pure a : Except Fault α) = .ok a := rfl

@[simp] theorem error_bind {α β} (e : Fault) (f : α → Except Fault β) :
    ((Except.error e : Except Fault α) >>= f) = .error e := rfl

@[simp] theorem assert_true : assertThat true = .ok () := rfl
@[simp] theorem assert_false : assertThat false = .error .assertFail := rfl

theorem assert_of {c : Bool} (h : c = true) : assertThat c = .ok () := by subst h; rfl

theorem bind_eq_ok {α β} {x : Except Fault α} {f : α → Except Fault β} {b : β}
    (h : (x >>= f) = .ok b) : ∃ a, x = .ok a ∧ f a = .ok b := by
  cases x with
  | error e => cases h
  | ok a => exact ⟨a, rfl, h⟩

theorem int64_ok {x y : Int} (h : int64 x = .ok y) :
    y = x ∧ -9223372036854775808 ≤ x ∧ x ≤ 9223372036854775807 := by
  unfold int64 at h
  split at h
  · next hc =>
    simp only [Bool.and_eq_true, decide_eq_true_eq] at hc
    exact ⟨(Except.ok.inj h).symm, hc⟩
  · cases h

theorem int64_of {x : Int} (h : -9223372036854775808 ≤ x ∧ x ≤ 9223372036854775807) : int64 x = .ok x := by
  unfold int64
  rw [if_pos (by simp [h])]

theorem int64_error {x : Int} (h : ¬ (-9223372036854775808 ≤ x ∧ x ≤ 9223372036854775807)) :
    int64 x = .error .overflow := by
  unfold int64
  rw [if_neg (by simpa using h)]

theorem int64_fits {x : Int} (h : Spec.Fits64 x) : int64 x = .ok x :=
  int64_of (by unfold Spec.Fits64 at h; omega)

theorem int64_unfit {x : Int} (h : ¬ Spec.Fits64 x) : int64 x = .error .overflow :=
  int64_error (by unfold Spec.Fits64 at h; omega)

theorem int64_ok_fits {x y : Int} (h : int64 x = .ok y) : y = x ∧ Spec.Fits64 x := by
  obtain ⟨h1, h2⟩ := int64_ok h
  exact ⟨h1, by unfold Spec.Fits64; omega⟩

theorem assert_ok {c : Bool} {u : Unit} (h : assertThat c = .ok u) : c = true := by
  cases c
  · cases h
  · rfl

/-- For evaluating runs in examples. -/
theorem ok_of_eval {α β : Type} {r : Except Fault (α × β)} {b : β}
    (h : r.toOption.map (·.2) = some b) : ∃ a, r = .ok (a, b) := by
  cases r with
  | error e => cases h
  | ok x => exact ⟨x.1, by simp [Except.toOption] at h; rw [← h]⟩

/-- For evaluating runs in examples. -/
theorem error_of_eval {α : Type} {r : Except Fault α} {e : Fault}
    (h : (match r with | .error e => some e | .ok _ => none) = some e) : r = .error e := by
  cases r with
  | error e' => simp at h; rw [h]
  | ok x => cases h

/-- For evaluating runs in examples. -/
theorem ok_of_check {α : Type} {r : Except Fault α} {P : α → Bool}
    (h : (match r with | .ok a => P a | .error _ => false) = true) :
    ∃ a, r = .ok a ∧ P a = true := by
  cases r with
  | error e => cases h
  | ok a => exact ⟨a, rfl, h⟩

end Mirakc
