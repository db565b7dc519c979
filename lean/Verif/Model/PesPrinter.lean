import Verif.Model.Table
import Verif.Model.History
/-
Model of `PesPrinter`, src/pes_printer.hh.

A line printed is represented by what its columns say; `Model/PesText.lean` has its text.
Simplified: the local time read by `Clock::UpdateTime` is 0: print-pes does not use it.  `pcr_pids_` is never used.
-/
namespace Mirakc.PesPrinter

/-- The kinds of streams, src/pes_printer.hh:166-185. -/
inductive Kind where
  | audio
  | video
  | subtitle
  | aribSubtitle
  | aribSuperimposedText
  | other
deriving DecidableEq

/-- What a line is about. -/
inductive Msg where
  | pat (version pid : Nat)
  | service (sid pmtPid : Nat)
  | cat (version : Nat)
  | pmt (sid pcrPid version : Nat)
  | stream (pid : Nat) (kind : Kind) (type : Nat)
  | eit (sid version : Nat)
  | event (index eid : Nat) (start stop minutes : Int)
  | tot
  | pcr (pid : Nat)
  | pts (pid : Nat)
  | dts (pid : Nat)
deriving DecidableEq

/-- A line printed; `none` stands for an empty column.  `label` is the kind of the stream in a
line with a PTS or DTS, `none` stands for "PES". -/
structure PLine where
  time : Option Int := none
  pcr : Option Int := none
  msg : Msg
  label : Option Kind := none
deriving DecidableEq

/-- Data members, src/pes_printer.hh:241-248, initialised in the constructor,
src/pes_printer.hh:21-27, and the lines printed.  `stream_map_` is split in two: `streamMap`
has the `pcr_pid` of the `StreamInfo`, src/pes_printer.hh:236-239, and `kinds` its `type`. -/
structure St where
  demux : PidSet := [pidPat, pidCat, pidEit, pidTot]
  sids : List Nat := []
  pmtPids : List Nat := []
  clockMap : OMap Clock := .empty
  streamMap : OMap Nat := .empty
  kinds : OMap Kind := .empty
  done : Bool := false
  out : List PLine := []
deriving DecidableEq

/-- `Print(msg)`, src/pes_printer.hh:66-68. -/
def print (s : St) (msg : Msg) : St := { s with out := s.out ++ [{ msg := msg }] }

/-- `Print(pcr_pid, pcr, msg)`, src/pes_printer.hh:70-78. -/
def printPcr (s : St) (pcrPid : Nat) (pcr : Int) (msg : Msg) (label : Option Kind) : Except Fault St :=
  match s.clockMap.find? pcrPid with
  | some clock =>
    if clock.isReady then do
      let time ← clock.pcrToTime pcr
      let _ ← formatPcr pcr
      .ok { s with out := s.out ++ [{ time := some time, pcr := some pcr, msg := msg, label := label }] }
    else do
      let _ ← formatPcr pcr
      .ok { s with out := s.out ++ [{ pcr := some pcr, msg := msg, label := label }] }
  | none => do
    let _ ← formatPcr pcr
    .ok { s with out := s.out ++ [{ pcr := some pcr, msg := msg, label := label }] }

/-- `Print(time, msg)`, src/pes_printer.hh:80-82. -/
def printTime (s : St) (time : Int) (msg : Msg) : St :=
  { s with out := s.out ++ [{ time := some time, msg := msg }] }

/-- `ResetStates`, src/pes_printer.hh:225-234. -/
def resetStates (s : St) : St :=
  { s with
    demux := s.pmtPids.foldl PidSet.remove s.demux
    sids := []
    pmtPids := []
    done := false }

/-- The loop of src/pes_printer.hh:119-124. -/
def addPmts : List (Nat × Nat) → St → St
  | [], s => s
  | (sid, pmtPid) :: l, s =>
    let s := print s (.service sid pmtPid)
    addPmts l { s with demux := s.demux.add pmtPid, sids := sid :: s.sids, pmtPids := s.pmtPids ++ [pmtPid] }

/-- The loop of src/pes_printer.hh:132-134. -/
def printPmts : List (Nat × Nat) → St → St
  | [], s => s
  | (sid, pmtPid) :: l, s => printPmts l (print s (.service sid pmtPid))

/-- `HandlePat`, src/pes_printer.hh:106-136. -/
def handlePat (s : St) (t : Table) (pat : Pat) : St :=
  if !t.valid then s
  else
    let s := resetStates s
    let s := print s (.pat t.version t.sourcePid)
    if t.sourcePid == pidPat then
      let s := addPmts pat.pmts.entries s
      if s.pmtPids.isEmpty then { s with done := true } else s
    else printPmts pat.pmts.entries s

/-- `HandleCat`, src/pes_printer.hh:138-147. -/
def handleCat (s : St) (t : Table) : St :=
  if !t.valid then s else print s (.cat t.version)

/-- `CheckComponentTagByRange`, src/tsduck_helper.hh:36-44. -/
def tagInRange (stream : Stream) (min max : Nat) : Bool :=
  match stream.tag with
  | some tag => decide (min ≤ tag) && decide (tag ≤ max)
  | none => false

/-- The branches of src/pes_printer.hh:166-185, with `IsAribSubtitle` and
`IsAribSuperimposedText`, src/tsduck_helper.hh:46-52. -/
def kindOf (stream : Stream) : Kind :=
  if stream.isAudio then .audio
  else if stream.isVideo then .video
  else if stream.isSubtitles then .subtitle
  else if tagInRange stream 0x30 0x37 then .aribSubtitle
  else if tagInRange stream 0x38 0x3F then .aribSuperimposedText
  else .other

/-- The loop of src/pes_printer.hh:165-186; every branch sets the same `pcr_pid`. -/
def addStreams (pcrPid : Nat) : List (Nat × Stream) → St → St
  | [], s => s
  | (pid, stream) :: l, s =>
    addStreams pcrPid l
      (print
        { s with streamMap := s.streamMap.set pid pcrPid, kinds := s.kinds.set pid (kindOf stream) }
        (.stream pid (kindOf stream) stream.streamType))

/-- `HandlePmt`, src/pes_printer.hh:149-187. -/
def handlePmt (s : St) (t : Table) (pmt : Pmt) : St :=
  if !t.valid then s
  else
    let s := print s (.pmt pmt.serviceId pmt.pcrPid t.version)
    let s :=
      if pmt.pcrPid != pidNull then
        { s with clockMap := s.clockMap.set pmt.pcrPid (({} : Clock).setPid pmt.pcrPid) }
      else s
    addStreams pmt.pcrPid pmt.streams.entries s

/-- The loop of src/pes_printer.hh:202-207; `i` is its variable. -/
def printEvents (i : Nat) : List Event → St → St
  | [], s => s
  | e :: l, s => printEvents (i + 1) l
      (print s (.event i e.eventId e.startTime (e.startTime + e.duration * 1000) (e.duration.tdiv 60)))

/-- `HandleEit`, src/pes_printer.hh:189-208. -/
def handleEit (s : St) (t : Table) (eit : Eit) : St :=
  if !t.valid then s
  else if !s.sids.contains eit.serviceId then s
  else printEvents 0 eit.events (print s (.eit eit.serviceId t.version))

/-- The loop of src/pes_printer.hh:220-222. -/
def updateTimes (time : Int) : List (Nat × Clock) → OMap Clock → Except Fault (OMap Clock)
  | [], m => .ok m
  | (pid, clock) :: l, m => do
    let clock ← clock.updateTime time 0
    updateTimes time l (m.set pid clock)

/-- `HandleTot`, src/pes_printer.hh:210-223. -/
def handleTot (s : St) (t : Table) (time : Int) : Except Fault St :=
  if !t.valid then .ok s
  else do
    let s := printTime s time .tot
    let m ← updateTimes time s.clockMap.entries s.clockMap
    .ok { s with clockMap := m }

/-- `handleTable`, src/pes_printer.hh:84-104. -/
def handleTable (s : St) (t : Table) : Except Fault St :=
  match t.body with
  | .pat pat => .ok (handlePat s t pat)
  | .cat _ => .ok (handleCat s t)
  | .pmt pmt => .ok (handlePmt s t pmt)
  | .eit eit => .ok (handleEit s t eit)
  | .tot time => handleTot s t time
  | _ => .ok s

/-- A PCR, src/pes_printer.hh:33-40. -/
def handlePcr (s : St) (p : Packet) : Except Fault St :=
  match p.pcr with
  | none => .ok s
  | some pcr =>
    match s.clockMap.find? p.pid with
    | none => .ok s
    | some clock => do
      let clock ← clock.updatePcr pcr
      printPcr { s with clockMap := s.clockMap.set p.pid clock } p.pid pcr (.pcr p.pid) none

/-- A PTS or DTS, src/pes_printer.hh:41-60. -/
def handleStamp (s : St) (pid : Nat) (stamp : Option Int) (msg : Msg) : Except Fault St :=
  match stamp with
  | none => .ok s
  | some v => do
    let pcr := v * maxPcrExt
    assertThat (isValidPcr pcr)
    match s.streamMap.find? pid with
    | some pcrPid => printPcr s pcrPid pcr msg (s.kinds.find? pid)
    | none => printPcr s pidNull pcr msg none

/-- What is done during a packet: the tables handed over and the lines printed. -/
structure Did where
  tables : List Table
  lines : List PLine
deriving DecidableEq

/-- `HandlePacket`, src/pes_printer.hh:31-63. -/
def step (s : St) (i : Input) : Except Fault (St × Did × Bool) := do
  let p := i.packet
  let s1 ← handlePcr s p
  let s2 ← handleStamp s1 p.pid p.pts (.pts p.pid)
  let s3 ← handleStamp s2 p.pid p.dts (.dts p.pid)
  let (s4, log) ← feedDemux St.demux handleTable p.pid i.tables s3
  .ok (s4, ⟨log, s4.out.drop s.out.length⟩, if s4.done then false else true)

/-- The printer with its history. -/
abbrev Hist := History Input St Did

/-- `PesPrinter` as a sink; `End` and `GetExitCode` are those of `PacketSink`,
src/packet_sink.hh:18-24. -/
def sink : Sink Input Hist := historySink step .ok fun _ => exitSuccess

end Mirakc.PesPrinter
