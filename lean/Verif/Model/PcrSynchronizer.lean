import Verif.Model.Table
import Verif.Model.History
/-
Model of `PcrSynchronizer`, src/pcr_synchronizer.hh.
-/
namespace Mirakc

/-- `IsAudioVideoService`, src/tsduck_helper.hh:623-636. -/
def isAudioVideoService (serviceType : Nat) : Bool :=
  match serviceType with
  | 0x01 => true
  | 0x02 => true
  | 0xA1 => true
  | 0xA2 => true
  | 0xA5 => true
  | 0xA6 => true
  | 0xAD => true
  | _ => false

namespace PcrSynchronizer

/-- `PcrSynchronizerOption`, src/pcr_synchronizer.hh:20-23; the sets are lists. -/
structure Opt where
  sids : List Nat := []
  xsids : List Nat := []
deriving DecidableEq

/-- An element of the JSON array that is printed, src/pcr_synchronizer.hh:50-59. -/
structure ClockEntry where
  nid : Nat
  tsid : Nat
  sid : Nat
  pid : Nat
  pcr : Int
  time : Int
deriving DecidableEq

/-- Data members, src/pcr_synchronizer.hh:261-273.  `pcrPids` (`std::set`) has no
duplicates, its order does not matter.  `out` is the document printed. -/
structure St where
  demux : PidSet := [pidPat]
  pmtPids : OMap Nat := .empty
  nid : Nat := 0
  tsid : Nat := 0
  pmtCount : Nat := 0
  pcrPidMap : OMap Nat := .empty
  pcrPids : List Nat := []
  pcrMap : OMap Int := .empty
  time : Int := 0
  started : Bool := false
  done : Bool := false
  out : Option (List ClockEntry) := none
deriving DecidableEq

/-- `ResetStates`, src/pcr_synchronizer.hh:241-259. -/
def resetStates (s : St) : St :=
  { s with
    demux := ((s.pmtPids.entries.map (·.2)).foldl PidSet.remove (s.demux.remove pidTot)).remove pidSdt
    pmtPids := .empty
    nid := 0
    tsid := 0
    pmtCount := 0
    pcrPidMap := .empty
    pcrPids := []
    pcrMap := .empty
    started := false
    done := false }

/-- The lists of the options, src/pcr_synchronizer.hh:146-153. -/
def isSelected (o : Opt) (sid : Nat) : Bool :=
  !(!o.sids.isEmpty && !o.sids.contains sid) && !(!o.xsids.isEmpty && o.xsids.contains sid)

/-- `HandlePat`, src/pcr_synchronizer.hh:123-164.  Simplified: the entries are copied to
`pmtPids`, which is empty at that point, by a filter instead of one by one. -/
def handlePat (o : Opt) (s : St) (t : Table) (pat : Pat) : St :=
  if t.sourcePid != pidPat then s
  else if !t.valid then s
  else if pat.tsId == 0 then s
  else
    let s := if !s.pmtPids.entries.isEmpty then resetStates s else s
    let s := { s with pmtPids := pat.pmts.filter fun e => isSelected o e.1 }
    let s := if s.pmtPids.entries.isEmpty then { s with done := true } else s
    { s with demux := s.demux.add pidSdt }

/-- The loop of `HandleSdt`, src/pcr_synchronizer.hh:177-190. -/
def countPmts (sdt : Sdt) : List (Nat × Nat) → St → St
  | [], s => s
  | (sid, pid) :: l, s =>
    match sdt.services.find? sid with
    | none => countPmts sdt l s
    | some service =>
      if !isAudioVideoService service.serviceType then countPmts sdt l s
      else countPmts sdt l { s with pmtCount := s.pmtCount + 1, demux := s.demux.add pid }

/-- `HandleSdt`, src/pcr_synchronizer.hh:166-191. -/
def handleSdt (s : St) (t : Table) (sdt : Sdt) : St :=
  if !t.valid then s
  else countPmts sdt s.pmtPids.entries { s with nid := sdt.onetwId, tsid := sdt.tsId }

/-- `HandlePmt`, src/pcr_synchronizer.hh:193-221. -/
def handlePmt (s : St) (t : Table) (pmt : Pmt) : St :=
  if !t.valid then s
  else
    match s.pmtPids.find? pmt.serviceId with
    | none => s
    | some pid =>
      if pid != t.sourcePid then s
      else
        let s := { s with pcrPidMap := s.pcrPidMap.set pmt.serviceId pmt.pcrPid }
        let s :=
          if pmt.pcrPid != pidNull && !s.pcrPids.contains pmt.pcrPid then
            { s with pcrPids := pmt.pcrPid :: s.pcrPids }
          else s
        if s.pcrPidMap.size == s.pmtCount then { s with demux := s.demux.add pidTot } else s

/-- `HandleTot` and `HandleTime`, src/pcr_synchronizer.hh:223-239. -/
def handleTot (s : St) (t : Table) (time : Int) : St :=
  if !t.valid then s else { s with time := time, started := true }

/-- `handleTable`, src/pcr_synchronizer.hh:104-121. -/
def handleTable (o : Opt) (s : St) (t : Table) : Except Fault St :=
  match t.body with
  | .pat pat => .ok (handlePat o s t pat)
  | .pmt pmt => .ok (handlePmt s t pmt)
  | .sdt sdt => .ok (handleSdt s t sdt)
  | .tot time => .ok (handleTot s t time)
  | _ => .ok s

/-- `HandlePacket`, src/pcr_synchronizer.hh:71-101.  `FormatPcr` is called for the log
message. -/
def step (o : Opt) (s : St) (i : Input) : Except Fault (St × List Table × Bool) :=
  let pid := i.packet.pid
  if pid == pidNull then .ok (s, [], true)
  else do
    let (s, log) ← feedDemux St.demux (handleTable o) pid i.tables s
    if s.done then .ok (s, log, false)
    else if s.started && s.pcrPids.contains pid && (s.pcrMap.find? pid).isNone then
      match i.packet.pcr with
      | none => .ok (s, log, true)
      | some pcr => do
        let _ ← formatPcr pcr
        let s := { s with pcrMap := s.pcrMap.set pid pcr }
        if s.pcrMap.size == s.pcrPids.length then .ok ({ s with done := true }, log, false)
        else .ok (s, log, true)
    else .ok (s, log, true)

/-- The loop of `End`, src/pcr_synchronizer.hh:45-60. -/
def clocks (s : St) : List ClockEntry :=
  s.pcrPidMap.entries.filterMap fun (sid, pid) =>
    match s.pcrMap.find? pid with
    | none => none
    | some pcr => some { nid := s.nid, tsid := s.tsid, sid := sid, pid := pid, pcr := pcr, time := jstToUnix s.time }

/-- `End`, src/pcr_synchronizer.hh:36-62. -/
def finish (s : St) : Except Fault St :=
  if !s.done then .ok s else .ok { s with out := some (clocks s) }

/-- `GetExitCode`, src/pcr_synchronizer.hh:64-69. -/
def exitCode (s : St) : Nat := if !s.done then exitFailure else exitSuccess

/-- The synchronizer with its history: the tables handed over, packet by packet. -/
abbrev Hist := History Input St (List Table)

/-- `PcrSynchronizer` as a sink. -/
def sink (o : Opt) : Sink Input Hist := historySink (step o) finish exitCode

end PcrSynchronizer
end Mirakc
