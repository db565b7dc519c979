import Verif.Model.Pcr
/-
Model of `ClockBaseline` and `Clock`, src/base.hh:68-264.
`ts::Time::CurrentLocalTime()` is a parameter of the functions that call it.
-/
namespace Mirakc

/-- `ts::PID_NULL`. -/
def pidNull : Nat := 0x1FFF

/-- Data members of `ClockBaseline`, src/base.hh:139-144. -/
structure ClockBaseline where
  time : Int := 0
  pcr : Int := 0
  pid : Nat := pidNull
  pcrReady : Bool := false
  timeReady : Bool := false
deriving DecidableEq

namespace ClockBaseline

/-- `ClockBaseline::IsReady`, src/base.hh:109-111. -/
def isReady (b : ClockBaseline) : Bool := b.pcrReady && b.timeReady

/-- `ClockBaseline::HasPid`, src/base.hh:105-107. -/
def hasPid (b : ClockBaseline) : Bool := b.pid != pidNull

/-- `ClockBaseline::PcrToTime`, src/base.hh:88-92; `/` of C++ truncates. -/
def pcrToTime (b : ClockBaseline) (pcr : Int) : Except Fault Int := do
  assertThat b.isReady
  let deltaMs := (pcr - b.pcr).tdiv pcrTicksPerMs
  .ok (b.time + deltaMs)

/-- `ClockBaseline::TimeToPcr`, src/base.hh:94-103. -/
def timeToPcr (b : ClockBaseline) (time : Int) : Except Fault Int := do
  assertThat b.isReady
  let ms := time - b.time
  let ticks ← int64 (ms * pcrTicksPerMs)
  let pcr ← int64 (b.pcr + ticks)
  let pcr := liftNegative pcr
  assertThat (pcr ≥ 0)
  .ok (pcr.tmod pcrUpperBound)

/-- `ClockBaseline::SetPid`, src/base.hh:113-117. -/
def setPid (b : ClockBaseline) (pid : Nat) : ClockBaseline :=
  { b with pid := pid, pcrReady := false, timeReady := false }

/-- `ClockBaseline::SetPcr`, src/base.hh:119-124. -/
def setPcr (b : ClockBaseline) (pcr : Int) : Except Fault ClockBaseline := do
  assertThat (isValidPcr pcr)
  .ok { b with pcr := pcr, pcrReady := true }

/-- `ClockBaseline::SetTime`, src/base.hh:126-130. -/
def setTime (b : ClockBaseline) (time : Int) : ClockBaseline :=
  { b with time := time, timeReady := true }

/-- `ClockBaseline::Invalidate`, src/base.hh:132-135. -/
def invalidate (b : ClockBaseline) : ClockBaseline :=
  { b with pcrReady := false, timeReady := false }

end ClockBaseline

/-- Data members of `Clock`, src/base.hh:258-263. -/
structure Clock where
  baseline : ClockBaseline := {}
  localTime : Int := 0
  lastPcr : Int := 0
  /-- `uint8_t` -/
  gapCount : Nat := 0
  ready : Bool := false
  wrapped : Bool := false
deriving DecidableEq

namespace Clock

/-- `Clock::kPcrGapCountThreshold`, src/base.hh:149. -/
def gapCountThreshold : Nat := 4

/-- `Clock(const ClockBaseline&)`, src/base.hh:153. -/
def ofBaseline (b : ClockBaseline) : Clock := { baseline := b }

/-- `Clock::IsReady`, src/base.hh:165-167. -/
def isReady (c : Clock) : Bool := c.ready && c.baseline.isReady

/-- `Clock::HasPid`, src/base.hh:161-163. -/
def hasPid (c : Clock) : Bool := c.baseline.hasPid

/-- `Clock::Now`, src/base.hh:169-182; `localNow` is the local time read. -/
def now (c : Clock) (localNow : Int) : Except Fault Int := do
  if c.isReady then
    if c.wrapped then
      assertThat (c.lastPcr + pcrUpperBound > 0)
      c.baseline.pcrToTime (c.lastPcr + pcrUpperBound)
    else
      c.baseline.pcrToTime c.lastPcr
  else
    .ok (c.baseline.time + (localNow - c.localTime))

/-- `Clock::SetPid`, src/base.hh:184-187. -/
def setPid (c : Clock) (pid : Nat) : Clock :=
  { c with baseline := c.baseline.setPid pid, ready := false }

/-- `Clock::SyncPcr`, src/base.hh:253-256. -/
def syncPcr (c : Clock) : Except Fault Clock := do
  let b ← c.baseline.setPcr c.lastPcr
  .ok { c with baseline := b, wrapped := false }

/-- `Clock::UpdateTime`, src/base.hh:189-195; `localNow` is the local time read. -/
def updateTime (c : Clock) (time localNow : Int) : Except Fault Clock := do
  let c := { c with baseline := c.baseline.setTime time, localTime := localNow }
  if c.ready then c.syncPcr else .ok c

/-- `Clock::ComputeDelta`, src/base.hh:239-244. -/
def computeDelta (pcr basePcr : Int) : Int :=
  if pcr < basePcr then pcrUpperBound - basePcr + pcr else pcr - basePcr

/-- `Clock::Invalidate`, src/base.hh:246-251. -/
def invalidate (c : Clock) : Clock :=
  { c with baseline := c.baseline.invalidate, lastPcr := 0, ready := false, wrapped := false }

/-- The part of `Clock::UpdatePcr` after the gap check, src/base.hh:217-226. -/
def acceptPcr (c : Clock) (pcr : Int) : Except Fault Clock :=
  let c := if pcr < c.lastPcr then { c with wrapped := true } else c
  let c := { c with lastPcr := pcr, ready := true }
  if !c.baseline.isReady then c.syncPcr else .ok c

/-- `Clock::UpdatePcr`, src/base.hh:197-227. -/
def updatePcr (c : Clock) (pcr : Int) : Except Fault Clock := do
  assertThat (isValidPcr pcr)
  if c.isReady then
    let gap := computeDelta pcr c.lastPcr
    assertThat (gap ≥ 0)
    if gap ≥ pcrTicksPerSec then
      let c := { c with gapCount := (c.gapCount + 1) % 256 }
      if c.gapCount ≤ gapCountThreshold then
        .ok c
      else
        .ok c.invalidate
    else
      acceptPcr { c with gapCount := 0 } pcr
  else
    acceptPcr c pcr

/-- `Clock::TimeToPcr`, src/base.hh:229-231. -/
def timeToPcr (c : Clock) (time : Int) : Except Fault Int := c.baseline.timeToPcr time

/-- `Clock::PcrToTime`, src/base.hh:233-236. -/
def pcrToTime (c : Clock) (pcr : Int) : Except Fault Int := do
  assertThat (isValidPcr pcr)
  c.baseline.pcrToTime pcr

/-- Calls that change a clock. -/
inductive Op where
  | setPid (pid : Nat)
  | time (t localNow : Int)
  | pcr (p : Int)
deriving DecidableEq

/-- One call. -/
def step (c : Clock) : Op → Except Fault Clock
  | .setPid pid => .ok (c.setPid pid)
  | .time t l => c.updateTime t l
  | .pcr p => c.updatePcr p

/-- A sequence of calls. -/
def run (c : Clock) : List Op → Except Fault Clock
  | [] => .ok c
  | o :: os => do (← c.step o).run os

end Clock
end Mirakc
