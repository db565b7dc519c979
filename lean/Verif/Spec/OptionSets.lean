import Verif.Spec.Main
/-
Specification vocabulary: options that are sets.
-/
namespace Mirakc.Spec.Main
open Mirakc.Spec.Options (Denotes)

/-- The values of the option are component tags. -/
def Tags (arg : Option (List (List Char))) : Prop :=
  ∀ l, arg = some l → ∀ s ∈ l, ∃ v, Denotes s v ∧ 0 ≤ v ∧ v < 256

/-- The options name the same numbers. -/
def SameNames (a a' : Option (List (List Char))) : Prop := ∀ n : Nat, Names a n ↔ Names a' n

end Mirakc.Spec.Main
