import Verif.Model.Table
/-
Model of `ServiceFilter`, src/service_filter.hh.
-/
namespace Mirakc.ServiceFilter

/-- `ServiceFilterOption`, src/service_filter.hh:25-28. -/
structure Opt where
  sid : Nat
  timeLimit : Option Int := none
deriving DecidableEq

/-- What the filter passes on: a received packet, or a packet made by the cycling
packetizer on PID 0 from the table `t`; `n` counts the packets it has made so far, so
`n` modulo 16 is the continuity counter.  Simplified: a PAT with a single service
fills one packet. -/
inductive Out where
  | orig (p : Packet)
  | pat (t : Pat) (n : Nat)
deriving DecidableEq

/-- Data members, src/service_filter.hh:300-310. -/
structure St where
  demux : PidSet
  /-- table in `pat_packetizer_` -/
  packetizer : Option Pat := none
  /-- number of packets generated by `pat_packetizer_` -/
  generated : Nat := 0
  psi : PidSet := []
  content : PidSet := []
  emm : PidSet := []
  pmtPid : Nat := pidNull
  done : Bool := false
  error : Bool := false
deriving DecidableEq

/-- Constructor, src/service_filter.hh:32-45. -/
def init (o : Opt) : St :=
  { demux := if o.timeLimit.isSome then [pidTot, pidCat, pidPat] else [pidCat, pidPat] }

/-- `CheckFilterForDrop`, src/service_filter.hh:105-116. -/
def checkFilterForDrop (s : St) (pid : Nat) : Bool :=
  if s.content.contains pid then false
  else if s.psi.contains pid then false
  else if s.emm.contains pid then false
  else true

/-- `HandlePat`, src/service_filter.hh:137-209. -/
def handlePat (o : Opt) (s : St) (t : Table) (pat : Pat) : Except Fault St :=
  if t.sourcePid != pidPat then .ok s
  else if !t.valid then .ok s
  else if pat.tsId == 0 then .ok s
  else
    match pat.pmts.find? o.sid with
    | none => .ok { s with done := true, error := true }
    | some newPmtPid => do
      let demux := if s.pmtPid != pidNull then s.demux.remove s.pmtPid else s.demux
      let pat' := { pat with pmts := pat.pmts.filter (·.1 == o.sid) }
      assertThat (pat'.pmts.entries.length == 1)
      assertThat (pat'.pmts.find? o.sid).isSome
      .ok { s with
        pmtPid := newPmtPid
        demux := demux.add newPmtPid
        packetizer := some pat'
        psi := [pidPat, pidCat, pidNit, pidSdt, pidEit, pidRst, pidTot, pidBit, pidCdt, newPmtPid] }

/-- `HandleCat`, src/service_filter.hh:211-229. -/
def handleCat (s : St) (t : Table) (cat : Cat) : Except Fault St :=
  if !t.valid then .ok s
  else .ok { s with emm := caPids cat.descs }

/-- `HandlePmt`, src/service_filter.hh:231-278. -/
def handlePmt (o : Opt) (s : St) (t : Table) (pmt : Pmt) : Except Fault St :=
  if !t.valid then .ok s
  else if pmt.serviceId != o.sid then .ok s
  else .ok { s with content := pmt.pcrPid :: caPids pmt.descs ++ pmt.streams.keys }

/-- `HandleTot` and `CheckTimeLimit`, src/service_filter.hh:280-298;
`time_limit.value()` throws when there is no limit. -/
def handleTot (o : Opt) (s : St) (t : Table) (time : Int) : Except Fault St :=
  if !t.valid then .ok s
  else
    match o.timeLimit with
    | none => .error .uncaught
    | some limit => if time < limit then .ok s else .ok { s with done := true }

/-- `handleTable`, src/service_filter.hh:118-135. -/
def handleTable (o : Opt) (s : St) (t : Table) : Except Fault St :=
  match t.body with
  | .pat pat => handlePat o s t pat
  | .cat cat => handleCat s t cat
  | .pmt pmt => handlePmt o s t pmt
  | .tot time => handleTot o s t time
  | _ => .ok s

/-- What happens to a packet: the filter refuses it (the stream stops), drops it, or
passes something on to the connected sink. -/
inductive Act where
  | stop
  | drop
  | send (x : Out)
deriving DecidableEq

/-- `HandlePacket` up to the call of the connected sink, src/service_filter.hh:74-102.
An empty packetizer generates a null packet, so that the assertion in line 96
fails.  The second result lists the calls of `handleTable`. -/
def step (o : Opt) (s : St) (i : Input) : Except Fault (St × List Table × Act) := do
  let (s, log) ← feedDemux St.demux (handleTable o) i.packet.pid i.tables s
  if s.done then .ok (s, log, .stop)
  else if checkFilterForDrop s i.packet.pid then .ok (s, log, .drop)
  else if i.packet.pid == pidPat then
    match s.packetizer with
    | none => .error .assertFail
    | some t => .ok ({ s with generated := s.generated + 1 }, log, .send (.pat t s.generated))
  else do
    assertThat (i.packet.pid != pidNull)
    .ok (s, log, .send (.orig i.packet))

/-- `ServiceFilter` connected to a sink, src/service_filter.hh:49-102. -/
def sink {σ : Type} (o : Opt) (snk : Sink Out σ) : Sink Input (St × σ) where
  start s := do
    let (ok, d) ← snk.start s.2
    .ok (ok, s.1, d)
  handle s i := do
    let (f, _, act) ← step o s.1 i
    match act with
    | .stop => .ok (false, f, s.2)
    | .drop => .ok (true, f, s.2)
    | .send x => do
      let (ok, d) ← snk.handle s.2 x
      .ok (ok, f, d)
  finish s := do
    let d ← snk.finish s.2
    .ok (s.1, d)
  exitCode s :=
    let code := snk.exitCode s.2
    if code == exitSuccess then
      if s.1.error then exitFailure else code
    else code

/-- One line of the history of a filter: the packet, the tables handed over during
it, and what became of the packet. -/
structure Item where
  packet : Packet
  handled : List Table
  act : Act
deriving DecidableEq

/-- The filter on a sequence of inputs, until it refuses a packet. -/
def run (o : Opt) (s : St) : List Input → Except Fault (St × List Item)
  | [] => .ok (s, [])
  | i :: is => do
    let (s, log, act) ← step o s i
    if act = .stop then .ok (s, [⟨i.packet, log, act⟩])
    else do
      let (s, items) ← run o s is
      .ok (s, ⟨i.packet, log, act⟩ :: items)

end Mirakc.ServiceFilter
