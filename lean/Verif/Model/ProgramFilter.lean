import Verif.Model.Table
/-
Model of `ProgramFilter`, src/program_filter.hh.
-/
namespace Mirakc.ProgramFilter

/-- `ProgramFilterOption`, src/program_filter.hh:27-39. -/
structure Opt where
  sid : Nat
  eid : Nat
  clockPid : Nat := pidNull
  clockPcr : Int := 0
  clockTime : Int := 0
  audioTags : List Nat := []
  videoTags : List Nat := []
  startMargin : Int := 0
  endMargin : Int := 0
  waitUntil : Option Int := none
  preStreaming : Bool := false
deriving DecidableEq

/-- What the filter passes on: a received packet, or a packet made by the PMT
packetizer: packet `idx` of the table `t` on PID `pid`; `n` counts the packets the
packetizer has made, so `n` modulo 16 is the continuity counter. -/
inductive Out where
  | orig (p : Packet)
  | pmt (pid : Nat) (t : Pmt) (idx n : Nat)
deriving DecidableEq

/-- `ts::CyclingPacketizer` with at most one table: PID, table, the table and packet
index reached if it is in the middle of a section, packets made so far. -/
structure Packetizer where
  pid : Nat := pidNull
  table : Option Pmt := none
  cur : Option (Pmt × Nat) := none
  count : Nat := 0
deriving DecidableEq

/-- Data members, src/program_filter.hh:571-593. -/
structure St where
  demux : PidSet
  streaming : Bool := false
  lastPat : List Packet := []
  black : PidSet := []
  pk : Packetizer := {}
  clockPid : Nat
  clockPcr : Int
  clockTime : Int
  pmtPid : Nat := pidNull
  pcrPid : Nat := pidNull
  eventStart : Int := 0
  eventEnd : Int := 0
  startPcr : Int := 0
  endPcr : Int := 0
  pcrPidReady : Bool := false
  eventTimeReady : Bool := false
  clockPcrReady : Bool := true
  clockTimeReady : Bool := true
  stop : Bool := false
  retry : Bool := false
deriving DecidableEq

/-- Constructor, src/program_filter.hh:43-63. -/
def init (o : Opt) : St :=
  { demux := [pidTot, pidEit, pidPat]
    clockPid := o.clockPid, clockPcr := o.clockPcr, clockTime := o.clockTime }

/-- `getNextPacket` of the packetizer.  `extra t` is the number of packets needed for
the table `t` beyond the first.  An empty packetizer makes a null packet; then the
assertion after the call fails (the packetizer is never empty when the PMT PID is the
null PID, see src/program_filter.hh:184, 230). -/
def Packetizer.next (extra : Pmt → Nat) (k : Packetizer) : Except Fault (Out × Packetizer) :=
  match k.cur.or (k.table.map (·, 0)) with
  | none => .error .assertFail
  | some (t, i) =>
    .ok (.pmt k.pid t i k.count,
      { k with cur := if i < extra t then some (t, i + 1) else none, count := k.count + 1 })

/-- `getNextPacket` with the assertion on the PID, src/program_filter.hh:183-184,
229-230. -/
def nextPmt (extra : Pmt → Nat) (s : St) : Except Fault (Out × St) := do
  let (x, pk) ← s.pk.next extra
  assertThat (pk.pid == s.pmtPid)
  .ok (x, { s with pk := pk })

/-- The `do … while (!atCycleBoundary())` loop, src/program_filter.hh:182-188; `fuel`
bounds the iterations. -/
def sendCycle (extra : Pmt → Nat) : Nat → St → Except Fault (List Out × St)
  | 0, _ => .error .diverge
  | fuel + 1, s => do
    let (x, s) ← nextPmt extra s
    if s.pk.cur.isNone then .ok ([x], s)
    else do
      let (xs, s) ← sendCycle extra fuel s
      .ok (x :: xs, s)

/-- `NeedClockSync`, src/program_filter.hh:532-534. -/
def needClockSync (s : St) : Bool := !s.clockTimeReady || !s.clockPcrReady

/-- `ConvertTimeToPcr`, src/program_filter.hh:547-559. -/
def convertTimeToPcr (s : St) (time : Int) : Except Fault Int := do
  assertThat s.clockPcrReady
  assertThat s.clockTimeReady
  assertThat (isValidPcr s.clockPcr)
  let ms := time - s.clockTime
  let ticks ← int64 (ms * pcrTicksPerMs)
  let pcr ← int64 (s.clockPcr + ticks)
  let pcr := liftNegative pcr
  assertThat (pcr ≥ 0)
  .ok (pcr.tmod pcrUpperBound)

/-- `UpdatePcrRange`, src/program_filter.hh:536-545. -/
def updatePcrRange (s : St) : Except Fault St := do
  assertThat s.eventTimeReady
  assertThat s.clockPcrReady
  assertThat s.clockTimeReady
  let a ← convertTimeToPcr s s.eventStart
  let b ← convertTimeToPcr s s.eventEnd
  .ok { s with startPcr := a, endPcr := b }

/-- `UpdateClockPcr`, src/program_filter.hh:506-517. -/
def updateClockPcr (s : St) (pcr : Int) : Except Fault St := do
  assertThat (needClockSync s)
  let s := { s with clockPcr := pcr, clockPcrReady := true }
  if s.eventTimeReady && s.clockTimeReady then updatePcrRange s else .ok s

/-- `UpdateClockTime`, src/program_filter.hh:519-530. -/
def updateClockTime (s : St) (time : Int) : Except Fault St := do
  assertThat (!s.clockTimeReady)
  let s := { s with clockTime := time, clockTimeReady := true }
  if s.eventTimeReady && s.clockPcrReady then updatePcrRange s else .ok s

/-- `UpdateEventTime`, src/program_filter.hh:491-504. -/
def updateEventTime (o : Opt) (s : St) (e : Event) : Except Fault St := do
  let ms ← int64 (e.duration * 1000)
  let duration ← int64 (ms + o.endMargin)
  let s := { s with
    eventStart := e.startTime - o.startMargin
    eventEnd := e.startTime + duration
    eventTimeReady := true }
  if s.clockTimeReady && s.clockPcrReady then updatePcrRange s else .ok s

/-- `CheckTimeLimit`, src/program_filter.hh:561-569. -/
def checkTimeLimit (o : Opt) (s : St) (time : Int) : St :=
  match o.waitUntil with
  | none => s
  | some limit => if time > limit then { s with stop := true } else s

/-- `HandlePat`, src/program_filter.hh:267-312. -/
def handlePat (o : Opt) (s : St) (t : Table) (pat : Pat) : Except Fault St :=
  if t.sourcePid != pidPat then .ok s
  else if !t.valid then .ok s
  else if pat.tsId == 0 then .ok s
  else
    match pat.pmts.find? o.sid with
    | none => .error .assertFail
    | some newPmtPid =>
      let demux := if s.pmtPid != pidNull then s.demux.remove s.pmtPid else s.demux
      .ok { s with pmtPid := newPmtPid, demux := demux.add newPmtPid }

/-- The body of the loop over the streams of a PMT, src/program_filter.hh:343-377:
whether the stream goes on the black list. -/
def excluded (o : Opt) (st : Stream) : Bool :=
  if st.isVideo && !o.videoTags.isEmpty then
    match st.tag with
    | none => true
    | some tag => !o.videoTags.contains tag
  else if st.isAudio && !o.audioTags.isEmpty then
    match st.tag with
    | none => true
    | some tag => !o.audioTags.contains tag
  else false

/-- `HandlePmt`, src/program_filter.hh:314-414. -/
def handlePmt (o : Opt) (s : St) (t : Table) (pmt : Pmt) : Except Fault St :=
  if !t.valid then .ok s
  else if pmt.serviceId != o.sid then .ok s
  else
    let s := { s with pcrPid := pmt.pcrPid, pcrPidReady := true }
    let s := if s.clockPid != s.pcrPid then
        { s with clockPid := s.pcrPid, clockPcrReady := false, clockTimeReady := false }
      else s
    let black := (pmt.streams.entries.filter (fun e => excluded o e.2)).map (·.1)
    let pmt' := if black.isEmpty then pmt
      else { pmt with streams := pmt.streams.filter (fun e => !black.contains e.1) }
    .ok { s with black := black, pk := { s.pk with pid := t.sourcePid, table := some pmt' } }

/-- `HandleEit`, src/program_filter.hh:416-470. -/
def handleEit (o : Opt) (s : St) (t : Table) (eit : Eit) : Except Fault St :=
  if !t.valid then .ok s
  else if eit.serviceId != o.sid then .ok s
  else
    match eit.events with
    | [] => .ok { s with stop := true }
    | present :: rest =>
      if present.eventId == o.eid then updateEventTime o s present
      else
        match rest with
        | [] => if s.streaming then .ok s else .ok { s with stop := true }
        | following :: _ =>
          if following.eventId == o.eid then updateEventTime o s following
          else if s.streaming then .ok s
          else if o.waitUntil.isNone then .ok { s with stop := true }
          else .ok s

/-- `HandleTot`, src/program_filter.hh:472-489. -/
def handleTot (o : Opt) (s : St) (t : Table) (time : Int) : Except Fault St :=
  if !t.valid then .ok s
  else
    let s := if !s.streaming then checkTimeLimit o s time else s
    if s.clockTimeReady then .ok s
    else updateClockTime s time

/-- `handleTable`, src/program_filter.hh:248-265. -/
def handleTable (o : Opt) (s : St) (t : Table) : Except Fault St :=
  match t.body with
  | .pat pat => handlePat o s t pat
  | .pmt pmt => handlePmt o s t pmt
  | .eit eit => handleEit o s t eit
  | .tot time => handleTot o s t time
  | _ => .ok s

/-- Save the packets of the last PAT, src/program_filter.hh:117-128. -/
def savePat (s : St) (p : Packet) : St :=
  if p.pid == pidPat then
    let l := if p.pusi then [] else s.lastPat
    { s with lastPat := l ++ [p] }
  else s

/-- Bring the clock up to date with a PCR, src/program_filter.hh:147-149, 212-214. -/
def syncClock (s : St) (pcr : Int) : Except Fault St :=
  if needClockSync s then updateClockPcr s pcr else .ok s

/-- `WaitReady` up to the point where it starts to send, src/program_filter.hh:107-172: the
new state, and the packets passed on with the result; or nothing if the programme starts. -/
def waitStart (o : Opt) (s : St) (p : Packet) : Except Fault (St × Option (List Out × Bool)) := do
  if s.stop then .ok ({ s with retry := true }, some ([], false))
  else if p.pid == pidPat && o.preStreaming then .ok (s, some ([.orig p], true))
  else
    let s := savePat s p
    if !s.pcrPidReady || !s.eventTimeReady then .ok (s, some ([], true))
    else if p.pid != s.pcrPid then .ok (s, some ([], true))
    else
      match p.pcr with
      | none => .ok (s, some ([], true))
      | some pcr => do
        let s ← syncClock s pcr
        if needClockSync s then .ok (s, some ([], true))
        else
          let c ← comparePcr pcr s.endPcr
          if c ≥ 0 then .ok (s, some ([], false))
          else
            let c ← comparePcr pcr s.startPcr
            if c < 0 then .ok (s, some ([], true))
            else
              assertThat (o.preStreaming || !s.lastPat.isEmpty)
              .ok (s, none)

/-- The packets of the pending PAT, src/program_filter.hh:170-179. -/
def pendingPat (o : Opt) (s : St) : List Out :=
  if o.preStreaming then [] else s.lastPat.map Out.orig

/-- `WaitReady`, src/program_filter.hh:107-192, if the sink takes all packets: the new
state, the packets passed on and the result.  See `sink` for a sink that refuses one. -/
def waitReady (extra : Pmt → Nat) (o : Opt) (s : St) (p : Packet) :
    Except Fault (St × List Out × Bool) := do
  match ← waitStart o s p with
  | (s, some (outs, ok)) => .ok (s, outs, ok)
  | (s, none) =>
    let pats := pendingPat o s
    let s := if o.preStreaming then s else { s with lastPat := [] }
    let fuel := ((s.pk.cur.map (extra ·.1)).getD 0) + ((s.pk.table.map extra).getD 0) + 1
    let (pmts, s) ← sendCycle extra fuel s
    .ok ({ s with streaming := true }, pats ++ pmts ++ [.orig p], true)

/-- The last part of `DoStreaming`, src/program_filter.hh:227-246. -/
def forward (extra : Pmt → Nat) (s : St) (p : Packet) : Except Fault (St × List Out × Bool) := do
  if p.pid == s.pmtPid then
    let (x, s) ← nextPmt extra s
    .ok (s, [x], true)
  else if s.black.contains p.pid then .ok (s, [], true)
  else .ok (s, [.orig p], true)

/-- `DoStreaming`, src/program_filter.hh:194-239. -/
def doStreaming (extra : Pmt → Nat) (s : St) (p : Packet) :
    Except Fault (St × List Out × Bool) := do
  if s.stop then .ok (s, [], false)
  else if p.pid == s.pcrPid then
    match p.pcr with
    | none => .ok (s, [.orig p], true)
    | some pcr => do
      let s ← syncClock s pcr
      if needClockSync s then .ok (s, [.orig p], true)
      else
        let c ← comparePcr pcr s.endPcr
        if c ≥ 0 then .ok (s, [], false)
        else forward extra s p
  else forward extra s p

/-- `HandlePacket` if the sink takes all packets, src/program_filter.hh:88-99. -/
def step (extra : Pmt → Nat) (o : Opt) (s : St) (i : Input) :
    Except Fault (St × List Table × List Out × Bool) := do
  let (s, log) ← feedDemux St.demux (handleTable o) i.packet.pid i.tables s
  let (s, outs, ok) ← if s.streaming then doStreaming extra s i.packet
    else waitReady extra o s i.packet
  .ok (s, log, outs, ok)

/-- The packets of the PAT with which the programme starts; they are sent before the
assertion on the packets of the PMT is evaluated, src/program_filter.hh:170-184. -/
def announced (o : Opt) (s : St) (i : Input) : List Out :=
  match feedDemux St.demux (handleTable o) i.packet.pid i.tables s with
  | .error _ => []
  | .ok (s, _) =>
    if s.streaming then []
    else
      match waitStart o s i.packet with
      | .ok (s, none) => pendingPat o s
      | _ => []

/-- Pass packets on to the sink until it refuses one. -/
def sendAll {σ : Type} (snk : Sink Out σ) : List Out → σ → Except Fault (Bool × σ)
  | [], d => .ok (true, d)
  | x :: xs, d => do
    let (ok, d) ← snk.handle d x
    if ok then sendAll snk xs d else .ok (false, d)

/-- `ProgramFilter` connected to a sink, src/program_filter.hh:66-99.  If `step` fails, the
packets of the PAT have been sent before, and if the sink refused one of them, the code
returned (src/program_filter.hh:173-177) and did not fail.  Simplified: when the sink refuses
a packet, the state of the filter is the one after or before the whole packet; this cannot be
observed, because the filter is not called again, and its exit code depends on `retry` only. -/
def sink {σ : Type} (extra : Pmt → Nat) (o : Opt) (snk : Sink Out σ) : Sink Input (St × σ) where
  start s := do
    let (ok, d) ← snk.start s.2
    .ok (ok, s.1, d)
  handle s i := do
    match step extra o s.1 i with
    | .ok (f, _, outs, ok) =>
      let (ok', d) ← sendAll snk outs s.2
      .ok (ok' && ok, f, d)
    | .error e =>
      let (ok, d) ← sendAll snk (announced o s.1 i) s.2
      if ok then .error e else .ok (false, s.1, d)
  finish s := do
    let d ← snk.finish s.2
    .ok (s.1, d)
  exitCode s := if s.1.retry then exitRetry else snk.exitCode s.2

/-- One line of the history of the filter: the packet, the tables handed over during
it, what was passed on, and whether the filter wants more. -/
structure Item where
  packet : Packet
  handled : List Table
  outs : List Out
  more : Bool
deriving DecidableEq

/-- The filter on a sequence of inputs, until it refuses a packet. -/
def run (extra : Pmt → Nat) (o : Opt) (s : St) : List Input → Except Fault (St × List Item)
  | [] => .ok (s, [])
  | i :: is => do
    let (s, log, outs, more) ← step extra o s i
    if more then do
      let (s, items) ← run extra o s is
      .ok (s, ⟨i.packet, log, outs, more⟩ :: items)
    else .ok (s, [⟨i.packet, log, outs, more⟩])

end Mirakc.ProgramFilter
