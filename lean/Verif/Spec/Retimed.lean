import Verif.Spec.Margins
/-
Specification vocabulary for the clock given to filter-program (C144).
-/
namespace Mirakc.Spec.Retimed

/-- A point in time within 3000 years of 1970, in milliseconds. -/
def Recent (x : Int) : Prop := -100000000000000 ≤ x ∧ x ≤ 100000000000000

/-- A value that a PCR can have. -/
def PcrValue (x : Int) : Prop := 0 ≤ x ∧ x < 2 ^ 33 * 300

/-- Two pairs of a PCR and a time say the same about a clock with 27000 ticks in a millisecond that starts over after
2^33 · 300 ticks. -/
def SameClock (p t p' t' : Int) : Prop := ∃ k : Int, p' = p + (t' - t) * 27000 + k * (2 ^ 33 * 300)

end Mirakc.Spec.Retimed
