/-
Specification vocabulary: numbers that `int64_t` can represent, and times that can be converted to
PCRs with it.
-/
namespace Mirakc.Spec

/-- The number can be represented with 64 bits, signed. -/
def Fits64 (x : Int) : Prop := -2 ^ 63 ≤ x ∧ x < 2 ^ 63

/-- With time `t0` corresponding to PCR `p0`: the distance of time `t` in ticks and the PCR before
it is taken modulo the period can be represented. -/
def Convertible (t0 p0 t : Int) : Prop := Fits64 ((t - t0) * 27000) ∧ Fits64 (p0 + (t - t0) * 27000)

/-- A time or span of milliseconds, less than 2535 years. -/
def Near (x : Int) : Prop := -80000000000000 ≤ x ∧ x ≤ 80000000000000

end Mirakc.Spec
