import Verif.Model.Clock
/-
Specification vocabulary for the stream clock.  The broadcaster's 27 MHz counter
is an unbounded integer `x`; what the stream carries is `x` modulo 2^33·300.
-/
namespace Mirakc.Spec

/-- What a clock observes. -/
inductive Ev where
  /-- a PCR taken when the broadcaster's counter was `x` -/
  | pcr (x : Int)
  /-- a TOT with JST time `t`; the machine's local time is then `l` -/
  | tot (t l : Int)

/-- The counter values of the PCRs in a history. -/
def counters : List Ev → List Int
  | [] => []
  | .pcr x :: es => x :: counters es
  | .tot _ _ :: es => counters es

/-- The calls the clock receives for a history. -/
def calls : List Ev → List Clock.Op
  | [] => []
  | .pcr x :: es => .pcr (x % (2 ^ 33 * 300)) :: calls es
  | .tot t l :: es => .time t l :: calls es

/-- Consecutive counter values advance by less than one second. -/
def Steady : List Int → Prop
  | [] => True
  | [_] => True
  | x :: y :: l => x ≤ y ∧ y < x + 27000000 ∧ Steady (y :: l)

end Mirakc.Spec
