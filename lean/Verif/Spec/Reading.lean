import Verif.Spec.ServiceRecorder
/-
Specification vocabulary: what the stream clock shows.
-/
namespace Mirakc.Spec

/-- What matters of the calls a clock received. -/
structure View where
  /-- time and local time of the last TOT; zero before the first -/
  tot : Int × Int := (0, 0)
  /-- the PCR followed -/
  last : Option Int := none
  /-- a TOT arrived since the clock was switched or lost track -/
  time : Bool := false
  /-- ticks the PCR advanced since the last TOT, or since the first PCR after it -/
  ticks : Int := 0
  /-- wrap-arounds of the PCR meanwhile -/
  wraps : Nat := 0
  /-- jumps since the last step below one second -/
  jumps : Nat := 0
deriving DecidableEq

/-- Effect of one call.  A jump is a PCR at a forward distance of one second or more from the PCR followed,
while the clock has the time.  It is ignored, or the clock loses track: with the fifth to the 255th jump in a row,
the 261st to the 511th, ... -/
def View.step (v : View) : Clock.Op → View
  | .setPid _ => { v with last := none, time := false }
  | .time t l => { v with tot := (t, l), time := true, ticks := 0, wraps := 0 }
  | .pcr p =>
    match v.last, v.time with
    | some x, true =>
      if (p - x) % (2 ^ 33 * 300) < 27000000 then
        { v with last := some p, ticks := v.ticks + (p - x) % (2 ^ 33 * 300)
                 wraps := if p < x then v.wraps + 1 else v.wraps, jumps := 0 }
      else if (v.jumps + 1) % 256 ≤ 4 then { v with jumps := v.jumps + 1 }
      else { v with last := none, time := false, jumps := v.jumps + 1 }
    | _, _ => { v with last := some p, ticks := 0, wraps := 0 }

/-- What matters of a sequence of calls. -/
def view (ops : List Clock.Op) : View := ops.foldl View.step {}

/-- The time shown when the local time is `l`: with PCR and TOT, the time of the TOT and what the PCR advanced
since, less one period of the PCR for every wrap-around after the first; otherwise the time of the last TOT and
what the local clock advanced since. -/
def View.shown (v : View) (l : Int) : Int :=
  if v.last.isSome = true ∧ v.time = true then
    v.tot.1 + (v.ticks - (v.wraps - 1 : Nat) * (2 ^ 33 * 300)) / 27000
  else v.tot.1 + (l - v.tot.2)

/-- Every PCR is a PCR. -/
def ValidPcrs (ops : List Clock.Op) : Prop := ∀ p, .pcr p ∈ ops → 0 ≤ p ∧ p < 2 ^ 33 * 300

end Mirakc.Spec
