import Verif.Model.Table
import Verif.Model.RingFileSink
/-
Model of `ServiceRecorder`, src/service_recorder.hh, connected to a `RingFileSink`.
-/
namespace Mirakc.ServiceRecorder

/-- `ServiceRecorderOption`, src/service_recorder.hh:25-31 (without the file name). -/
structure Opt where
  sid : Nat
  chunkSize : Nat
  numChunks : Nat
  startPos : Nat := 0
deriving DecidableEq

/-- A packet together with what is read while it is processed: the tables it completes,
its bytes, and the machine's local time as read by `UpdateTime`, by `Now` in the state
machine and by `Now` in `OnEndOfChunk`.  Simplified: all TOTs completed by one packet
see the same local time. -/
structure Input where
  packet : Packet
  bytes : List UInt8
  tables : List Table := []
  totLocal : Int := 0
  nowLocal : Int := 0
  chunkLocal : Int := 0
deriving DecidableEq

/-- The messages, src/service_recorder.hh:334-431.  An event message consists of the
identifiers of the EIT, its first event, and the record (time and position).
Simplified: times are the JST times handed to `ConvertJstTimeToUnixTime`. -/
inductive Msg where
  | start
  | stop (reset : Bool)
  | chunk (time : Int) (pos : Nat)
  | eventStart (eit : Eit) (event : Event) (time : Int) (pos : Nat)
  | eventUpdate (eit : Eit) (event : Event) (time : Int) (pos : Nat)
  | eventEnd (eit : Eit) (event : Event) (time : Int) (pos : Nat)
deriving DecidableEq

/-- What the outside world sees, in order: messages, and the operations of the ring file
(the notification of the observer is kept as an operation, its messages follow it). -/
inductive Tr where
  | msg (m : Msg)
  | op (o : RingFileSink.Op)
deriving DecidableEq

/-- Data members, src/service_recorder.hh:446-457.  `recording` is `state_`; the state
`kDone` is never assigned.  `boundTime` and `boundPos` (`event_boundary_*`, the latter
uninitialised in C++) are not read before they are assigned. -/
structure St where
  demux : PidSet := [pidTot, pidEit, pidPat]
  ring : RingFileSink.St
  clock : Clock := {}
  boundTime : Int := 0
  boundPos : Nat := 0
  eit : Option Eit := none
  newEit : Option Eit := none
  pmtPid : Nat := pidNull
  recording : Bool := false
  started : Bool := false
deriving DecidableEq

/-- `GetEvent`, src/service_recorder.hh:433-436; a null pointer is dereferenced for
`none`. -/
def getEvent : Option Eit → Except Fault (Eit × Event)
  | none => .error .oob
  | some e =>
    match e.events with
    | [] => .error .assertFail
    | ev :: _ => .ok (e, ev)

/-- `IsUnspecifiedEventEndTime`, src/service_recorder.hh:438-440. -/
def unspecified (ev : Event) : Bool := ev.duration ≤ 0

/-- `GetEventEndTime`, src/service_recorder.hh:442-444. -/
def endTime (ev : Event) : Int := ev.startTime + ev.duration * 1000

/-- `HandlePat`, src/service_recorder.hh:147-180. -/
def handlePat (o : Opt) (s : St) (t : Table) (pat : Pat) : Except Fault St :=
  if t.sourcePid != pidPat then .ok s
  else if !t.valid then .ok s
  else if pat.tsId == 0 then .ok s
  else
    match pat.pmts.find? o.sid with
    | none => .error .assertFail
    | some newPmtPid =>
      let demux := if s.pmtPid != pidNull then s.demux.remove s.pmtPid else s.demux
      .ok { s with pmtPid := newPmtPid, demux := demux.add newPmtPid }

/-- `HandlePmt`, src/service_recorder.hh:182-204. -/
def handlePmt (o : Opt) (s : St) (t : Table) (pmt : Pmt) : Except Fault St :=
  if !t.valid then .ok s
  else if pmt.serviceId != o.sid then .ok s
  else if !s.clock.hasPid then .ok { s with clock := s.clock.setPid pmt.pcrPid }
  else if s.clock.baseline.pid != pmt.pcrPid then
    .ok { s with clock := s.clock.setPid pmt.pcrPid }
  else .ok s

/-- `HandleEit`, src/service_recorder.hh:206-240 (without the debug output). -/
def handleEit (o : Opt) (s : St) (t : Table) (eit : Eit) : Except Fault St :=
  if !t.valid then .ok s
  else if eit.serviceId != o.sid then .ok s
  else if eit.events.length == 0 then .ok s
  else .ok { s with newEit := some eit }

/-- `HandleTot`, src/service_recorder.hh:242-249. -/
def handleTot (s : St) (t : Table) (time localNow : Int) : Except Fault St :=
  if !t.valid then .ok s
  else do
    let c ← s.clock.updateTime time localNow
    .ok { s with clock := c }

/-- `handleTable`, src/service_recorder.hh:128-145. -/
def handleTable (o : Opt) (localNow : Int) (s : St) (t : Table) : Except Fault St :=
  match t.body with
  | .pat pat => handlePat o s t pat
  | .pmt pmt => handlePmt o s t pmt
  | .eit eit => handleEit o s t eit
  | .tot time => handleTot s t time localNow
  | _ => .ok s

/-- The PCR part of `HandlePacket`, src/service_recorder.hh:84-90. -/
def tick (s : St) (p : Packet) : Except Fault St :=
  if s.clock.hasPid && s.clock.baseline.pid == p.pid then
    match p.pcr with
    | none => .ok s
    | some pcr => do
      let c ← s.clock.updatePcr pcr
      .ok { s with clock := c }
  else .ok s

/-- `OnEndOfChunk`, src/service_recorder.hh:107-119. -/
def onEndOfChunk (s : St) (pos : Nat) (localNow : Int) : Except Fault (List Tr) := do
  let now ← s.clock.now localNow
  let pos := if pos = s.ring.ringSize then 0 else pos
  if s.started then do
    let (e, ev) ← getEvent s.eit
    .ok [.msg (.eventUpdate e ev now pos), .msg (.chunk now pos)]
  else
    .ok [.msg (.chunk now pos)]

/-- The operations of the ring file made for one packet, with the messages sent from
the notifications among them.  The callback changes neither the recorder nor the ring
file, so it may be evaluated afterwards. -/
def expand (s : St) (localNow : Int) : List RingFileSink.Op → Except Fault (List Tr)
  | [] => .ok []
  | .notify pos :: ops => do
    let ms ← onEndOfChunk s pos localNow
    let rest ← expand s localNow ops
    .ok (.op (.notify pos) :: ms ++ rest)
  | o :: ops => do
    let rest ← expand s localNow ops
    .ok (.op o :: rest)

/-- `OnPreparing`, src/service_recorder.hh:251-281. -/
def onPreparing (o : Opt) (s : St) (i : Input) : Except Fault (St × List Tr) := do
  if s.clock.isReady && s.newEit.isSome then
    let s := { s with eit := s.newEit, newEit := none, recording := true }
    let now ← s.clock.now i.nowLocal
    let pos := s.ring.ringPos
    assertThat (pos < s.ring.ringSize)
    assertThat (pos % o.chunkSize == 0)
    let s := { s with boundTime := now, boundPos := pos }
    let (e, ev) ← getEvent s.eit
    if unspecified ev || now < endTime ev then
      .ok ({ s with started := true },
        [.msg (.chunk now pos), .msg (.eventStart e ev s.boundTime s.boundPos)])
    else
      .ok ({ s with started := false }, [.msg (.chunk now pos)])
  else
    .ok (s, [])

/-- The first part of `OnRecording`, src/service_recorder.hh:287-298: whether the event
changed, the EIT of the current event (`eit`), and `eit_` updated. -/
def updateEit (s : St) : Except Fault (Bool × Option Eit × St) :=
  match s.newEit with
  | none => .ok (false, s.eit, s)
  | some n => do
    let (_, ev) ← getEvent s.eit
    let (_, ev') ← getEvent (some n)
    let s' := { s with eit := some n, newEit := none }
    if ev.eventId != ev'.eventId then .ok (true, s.eit, s') else .ok (false, some n, s')

/-- The second part of `OnRecording`, src/service_recorder.hh:300-324: `newEit` is the
value of `new_eit_` at the beginning. -/
def updateEvent (s : St) (now : Int) (changed : Bool) (eit newEit : Option Eit) :
    Except Fault (St × List Tr) := do
  if s.started then
    if changed then
      let s := { s with boundTime := now, boundPos := s.ring.ringPos }
      let (e, ev) ← getEvent eit
      let (e', ev') ← getEvent newEit
      .ok (s, [.msg (.eventEnd e ev s.boundTime s.boundPos),
        .msg (.eventStart e' ev' s.boundTime s.boundPos)])
    else do
      let (e, ev) ← getEvent eit
      if unspecified ev then .ok (s, [])
      else if now ≥ endTime ev then
        let s := { s with boundTime := endTime ev, boundPos := s.ring.ringPos }
        .ok ({ s with started := false }, [.msg (.eventEnd e ev s.boundTime s.boundPos)])
      else .ok (s, [])
  else if changed then do
    let (e', ev') ← getEvent newEit
    .ok ({ s with started := true }, [.msg (.eventStart e' ev' s.boundTime s.boundPos)])
  else .ok (s, [])

/-- `OnRecording`, src/service_recorder.hh:283-326. -/
def onRecording (s : St) (i : Input) : Except Fault (Bool × St × List Tr) := do
  let now ← s.clock.now i.nowLocal
  let (changed, eit, s1) ← updateEit s
  let (s2, out) ← updateEvent s1 now changed eit s.newEit
  let (ok, ring) ← RingFileSink.handlePacket s2.ring i.bytes
  let ops ← expand s2 i.chunkLocal (ring.log.drop s2.ring.log.length)
  .ok (ok, { s2 with ring := ring }, out ++ ops)

/-- One line of the history: the input, the tables handed over during it, whether the
packet was handed to the ring file, what was sent and done, and the result of
`HandlePacket`. -/
structure Item where
  input : Input
  handled : List Table
  stored : Bool
  out : List Tr
  more : Bool
deriving DecidableEq

/-- `HandlePacket`, src/service_recorder.hh:81-105. -/
def step (o : Opt) (s : St) (i : Input) : Except Fault (St × Item) := do
  let s ← tick s i.packet
  let (s, log) ← feedDemux St.demux (handleTable o i.totLocal) i.packet.pid i.tables s
  if s.recording then do
    let (ok, s, out) ← onRecording s i
    .ok (s, ⟨i, log, true, out, ok⟩)
  else do
    let (s, out) ← onPreparing o s i
    .ok (s, ⟨i, log, false, out, true⟩)

/-- The recorder with its history: the lines for the packets, and everything sent and
done. -/
structure Hist where
  st : St
  items : List Item := []
  trace : List Tr := []
deriving DecidableEq

/-- Construction, src/service_recorder.hh:38-47 and src/ring_file_sink.hh:19-31;
`results` are the results of the file operations. -/
def init (o : Opt) (results : List Int) : Except Fault Hist := do
  let r ← RingFileSink.new o.chunkSize o.numChunks results
  .ok { st := { ring := r } }

/-- `Start`, src/service_recorder.hh:56-68; `Start` of the ring sink succeeds. -/
def start (o : Opt) (h : Hist) : Except Fault (Bool × Hist) := do
  let (ok, r) ← if o.startPos ≠ 0 then RingFileSink.setPosition h.st.ring o.startPos
    else .ok (true, h.st.ring)
  let ops := (r.log.drop h.st.ring.log.length).map Tr.op
  let st := { h.st with ring := r }
  if ok then
    .ok (true, { h with st := st, trace := h.trace ++ ops ++ [.msg .start] })
  else
    .ok (false, { h with st := st, trace := h.trace ++ ops })

/-- `ServiceRecorder` as a sink: `HandlePacket`, `End` (src/service_recorder.hh:70-74),
`GetExitCode` (src/service_recorder.hh:76-79). -/
def sink (o : Opt) : Sink Input Hist where
  start := start o
  handle h i := do
    let (s, it) ← step o h.st i
    .ok (it.more, { st := s, items := h.items ++ [it], trace := h.trace ++ it.out })
  finish h := .ok { h with trace := h.trace ++ [.msg (.stop h.st.ring.broken)] }
  exitCode h := RingFileSink.sink.exitCode h.st.ring

end Mirakc.ServiceRecorder
