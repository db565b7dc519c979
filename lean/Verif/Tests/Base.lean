import Verif.Model.Clock
import Verif.Model.EventsJson
/-
The tests of /repo/test/base_test.cc and /repo/test/tsduck_helper_test.cc, evaluated on
the model.  `ts::Time()` is 0.
-/
namespace Mirakc.Tests.Base

/-- A baseline with this PCR at time 0. -/
def baseline (pcr : Int) : Except Fault ClockBaseline := do
  let b ← (ClockBaseline.setPid {} 0x100).setPcr pcr
  .ok (b.setTime 0)

/-- ClockTest.PcrWrapAround, base_test.cc:7-21. -/
example : (do
    let b ← baseline (pcrUpperBound - pcrTicksPerMs)
    let c ← (Clock.ofBaseline b).updatePcr (pcrUpperBound - pcrTicksPerMs)
    let n ← c.now 5
    let c' ← c.updatePcr 0
    let n' ← c'.now 5
    .ok (b.isReady, c.isReady, n, n') : Except Fault _) = .ok (true, true, 0, 1) := by decide +kernel

/-- The same PCR a number of times; whether the clock is ready after each. -/
def repeated : Nat → Clock → Except Fault (List Bool × Clock)
  | 0, c => .ok ([], c)
  | n + 1, c => do
    let c ← c.updatePcr pcrTicksPerSec
    let (l, c') ← repeated n c
    .ok (c.isReady :: l, c')

/-- ClockTest.Invalidate, base_test.cc:23-49. -/
example : (do
    let b ← baseline 0
    let c ← (Clock.ofBaseline b).updatePcr 0
    let n ← c.now 5
    let (l, c1) ← repeated Clock.gapCountThreshold c
    let c2 ← c1.updatePcr pcrTicksPerSec
    let c3 ← c2.updatePcr 0
    let c4 ← c3.updateTime 0 5
    let n4 ← c4.now 9
    .ok ([b.isReady, c.isReady] ++ l ++ [c2.isReady, c3.isReady, c4.isReady], n, n4) : Except Fault _) =
      .ok ([true, true, true, true, true, true, false, false, true], 0, 0) := by decide +kernel

/-- ConvertUnixTimeToJstTime and ConvertJstTimeToUnixTime, tsduck_helper_test.cc:11-14. -/
example : unixToJst 0 = jstTzOffset ∧ jstToUnix jstTzOffset = 0 := by decide

/-- A section with these bytes behind the fixed part. -/
def section_ (events : List UInt8) : EitSection :=
  { sid := 0, tid := 0, nid := 0, tsid := 0, lastTableId := 0, sectionNumber := 0, lastSectionNumber := 0,
    segmentLast := 0, version := 0, events := events }

/-- `ts::DecodeMJD` (TSDuck) on the bytes of the tests. -/
def mjd (b : List UInt8) : Option Int := if b = [0xFF, 0xFF, 0xFF, 0xFF, 0xFF] then none else some 0

/-- MakeEventsJsonValue, tsduck_helper_test.cc:16-39. -/
example : makeEventsJson mjd (section_ [0x00, 0x01, 0x00, 0x00, 0x00, 0x00, 0x00, 0x12, 0x34, 0x56, 0x00, 0x00]) =
    .ok [{ eventId := 1, startTime := some (-9 * 3600000), duration := some (12 * 3600000 + 34 * 60000 + 56000),
           scrambled := false, descriptors := [] }] := by decide +kernel

/-- MakeEventsJsonValue_UndefinedStartTimeAndDuration, tsduck_helper_test.cc:41-64. -/
example : makeEventsJson mjd (section_ [0x00, 0x01, 0xFF, 0xFF, 0xFF, 0xFF, 0xFF, 0xFF, 0xFF, 0xFF, 0x00, 0x00]) =
    .ok [{ eventId := 1, startTime := none, duration := none, scrambled := false, descriptors := [] }] := by decide +kernel

end Mirakc.Tests.Base
