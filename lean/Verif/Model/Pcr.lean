import Verif.Model.Base
/-
Model of the PCR arithmetic and time conversions of src/tsduck_helper.hh:19-81.

PCR values and times are `Int` (the code uses `int64_t`; the theorems give the
range in which no overflow happens).  A `ts::Time` is its number of milliseconds
since the UNIX epoch on the JST time line.
-/
namespace Mirakc

/-- `kJstTzOffset`, src/tsduck_helper.hh:19. -/
def jstTzOffset : Int := 9 * 3600000
/-- `kMaxPcrExt`, src/tsduck_helper.hh:21. -/
def maxPcrExt : Int := 300
/-- `kMaxPcr`, src/tsduck_helper.hh:22-23. -/
def maxPcr : Int := (2 ^ 33 - 1) * maxPcrExt + (maxPcrExt - 1)
/-- `kPcrUpperBound`, src/tsduck_helper.hh:24. -/
def pcrUpperBound : Int := maxPcr + 1
/-- `kPcrTicksPerSec`, src/tsduck_helper.hh:25. -/
def pcrTicksPerSec : Int := 27 * 1000 * 1000
/-- `kPcrTicksPerMs`, src/tsduck_helper.hh:26. -/
def pcrTicksPerMs : Int := pcrTicksPerSec / 1000

/-- `ConvertUnixTimeToJstTime`, src/tsduck_helper.hh:28-30 (`ts::Time::UnixEpoch`
is the origin of the model's time line). -/
def unixToJst (unixMs : Int) : Int := jstTzOffset + unixMs

/-- `ConvertJstTimeToUnixTime`, src/tsduck_helper.hh:32-34. -/
def jstToUnix (jst : Int) : Int := jst - jstTzOffset

/-- `IsValidPcr`, src/tsduck_helper.hh:54-56. -/
def isValidPcr (pcr : Int) : Bool := pcr ≥ 0 && pcr ≤ maxPcr

/-- `{:0wd}` of libfmt for a non-negative integer: decimal digits, padded on the
left with zeros to at least `w` characters. -/
def fmtPadded (w : Nat) (n : Nat) : List Char := (Nat.toDigits 10 n).leftpad w '0'

/-- `FormatPcr`, src/tsduck_helper.hh:58-64. -/
def formatPcr (pcr : Int) : Except Fault String := do
  assertThat (isValidPcr pcr)
  let base := pcr.tdiv maxPcrExt
  let ext := pcr.tmod maxPcrExt
  .ok (String.ofList (fmtPadded 10 base.toNat ++ ['+'] ++ fmtPadded 3 ext.toNat))

/-- `ComparePcr`, src/tsduck_helper.hh:70-80. -/
def comparePcr (lhs rhs : Int) : Except Fault Int := do
  assertThat (isValidPcr lhs)
  assertThat (isValidPcr rhs)
  let a := lhs - rhs
  let b := lhs - (pcrUpperBound + rhs)
  if a.natAbs < b.natAbs then .ok a else .ok b

/-- The loop `while (pcr < 0) { pcr += kPcrUpperBound; }`, src/base.hh:98-100 and
src/program_filter.hh:554-556. -/
def liftNegative (pcr : Int) : Int :=
  if pcr < 0 then liftNegative (pcr + pcrUpperBound) else pcr
termination_by (-pcr).toNat
decreasing_by
  have : pcrUpperBound = 2576980377600 := by decide
  omega

end Mirakc
