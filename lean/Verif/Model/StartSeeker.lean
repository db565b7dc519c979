import Verif.Model.Table
/-
Model of `StartSeeker`, src/start_seeker.hh.
-/
namespace Mirakc.StartSeeker

/-- `StartSeekerOption`, src/start_seeker.hh:17-21. -/
structure Opt where
  sid : Nat
  maxDuration : Int := 0
  maxPackets : Nat := 0
deriving DecidableEq

/-- What happens to the packets held back and the packet at hand: they stay held back;
one of them is sent followed by a suffix; all are sent; the packet is passed on. -/
inductive Act where
  | hold
  | lead (pat : Packet) (l : List Packet)
  | burst (l : List Packet)
  | pass (p : Packet)
deriving DecidableEq

/-- Data members, src/start_seeker.hh:254-267. -/
structure St where
  demux : PidSet := [pidPat]
  streaming : Bool := false
  packets : List Packet := []
  pmtPid : Nat := pidNull
  pcrPid : Nat := pidNull
  video : List Nat := []
  audio : List Nat := []
  endPcr : Int := -1
  transition : Nat := 0
  patIndex : Nat := 0
deriving DecidableEq

/-- Constructor, src/start_seeker.hh:25-29. -/
def init : St := {}

/-- `Seek`, src/start_seeker.hh:75-129.  `getPCR()` is unsigned, so the sum in line 114 is taken
modulo 2^64, and so is the remainder. -/
def seek (o : Opt) (s : St) (p : Packet) : Except Fault (St × Act) := do
  let s := { s with packets := s.packets ++ [p] }
  if s.transition > 0 then
    match s.packets[s.patIndex]? with
    | none => .error .oob
    | some q =>
      .ok ({ s with packets := [], streaming := true }, .lead q (s.packets.drop s.transition))
  else if o.maxPackets != 0 && o.maxPackets == s.packets.length then
    .ok ({ s with packets := [], streaming := true }, .burst s.packets)
  else do
    assertThat (o.maxPackets == 0 || s.packets.length < o.maxPackets)
    if s.pcrPid == pidNull || s.pcrPid != p.pid then .ok (s, .hold)
    else
      match p.pcr with
      | none => .ok (s, .hold)
      | some pcr =>
        if s.endPcr < 0 then do
          let ticks ← int64 (o.maxDuration * pcrTicksPerMs)
          .ok ({ s with endPcr := (pcr + ticks) % 18446744073709551616 % pcrUpperBound }, .hold)
        else do
          let c ← comparePcr pcr s.endPcr
          if c < 0 then .ok (s, .hold)
          else .ok ({ s with packets := [], streaming := true }, .burst s.packets)

/-- `HandlePat`, src/start_seeker.hh:164-200. -/
def handlePat (o : Opt) (s : St) (t : Table) (pat : Pat) : Except Fault St :=
  if t.sourcePid != pidPat then .ok s
  else if !t.valid then .ok s
  else if pat.tsId == 0 then .ok s
  else
    match pat.pmts.find? o.sid with
    | none => .error .assertFail
    | some newPmtPid =>
      let demux := if s.pmtPid != pidNull then s.demux.remove s.pmtPid else s.demux
      .ok { s with pmtPid := newPmtPid, demux := demux.add newPmtPid, patIndex := t.firstPacket }

/-- The PIDs of the streams selected by `f`; `pmt.streams` is ordered, so equality of
the lists is equality of the sets. -/
def pidsOf (f : Stream → Bool) (pmt : Pmt) : List Nat :=
  (pmt.streams.entries.filter (fun e => f e.2)).map (·.1)

/-- `HandlePmt`, src/start_seeker.hh:202-252. -/
def handlePmt (o : Opt) (s : St) (t : Table) (pmt : Pmt) : Except Fault St :=
  if !t.valid then .ok s
  else if pmt.serviceId != o.sid then .ok s
  else
    let video := pidsOf (·.isVideo) pmt
    let audio := pidsOf (·.isAudio) pmt
    let changed := (!s.video.isEmpty && s.video != video) || (!s.audio.isEmpty && s.audio != audio)
    let s := { s with pcrPid := pmt.pcrPid, video := video, audio := audio }
    if changed then
      .ok { s with
        transition := t.firstPacket
        demux := (s.demux.remove s.pmtPid).remove pidPat
        pmtPid := pidNull }
    else .ok s

/-- `handleTable`, src/start_seeker.hh:151-162. -/
def handleTable (o : Opt) (s : St) (t : Table) : Except Fault St :=
  match t.body with
  | .pat pat => handlePat o s t pat
  | .pmt pmt => handlePmt o s t pmt
  | _ => .ok s

/-- `HandlePacket` up to the calls of the connected sink, src/start_seeker.hh:53-67,
147-149. -/
def step (o : Opt) (s : St) (i : Input) : Except Fault (St × List Table × Act) := do
  let (s, log) ← feedDemux St.demux (handleTable o) i.packet.pid i.tables s
  if s.streaming then .ok (s, log, .pass i.packet)
  else do
    let (s, act) ← seek o s i.packet
    .ok (s, log, act)

/-- The loop of `SendPackets`, src/start_seeker.hh:135-145. -/
def sendAll {σ : Type} (snk : Sink Packet σ) : List Packet → σ → Except Fault (Bool × σ)
  | [], d => .ok (true, d)
  | x :: xs, d => do
    let (ok, d) ← snk.handle d x
    if ok then sendAll snk xs d else .ok (false, d)

/-- The calls of the connected sink made for an action, and the result of
`HandlePacket`, src/start_seeker.hh:81-85, 89-92, 125-128, 131-133, 147-149. -/
def perform {σ : Type} (snk : Sink Packet σ) (d : σ) : Act → Except Fault (Bool × σ)
  | .hold => .ok (true, d)
  | .lead q l => do
    let (_, d) ← snk.handle d q
    let (_, d) ← sendAll snk l d
    .ok (true, d)
  | .burst l => do
    let (_, d) ← sendAll snk l d
    .ok (true, d)
  | .pass p => snk.handle d p

/-- `StartSeeker` connected to a sink, src/start_seeker.hh:33-67. -/
def sink {σ : Type} (o : Opt) (snk : Sink Packet σ) : Sink Input (St × σ) where
  start s := do
    let (ok, d) ← snk.start s.2
    .ok (ok, s.1, d)
  handle s i := do
    let (f, _, act) ← step o s.1 i
    let (ok, d) ← perform snk s.2 act
    .ok (ok, f, d)
  finish s := do
    let (_, d) ← sendAll snk s.1.packets s.2
    let d ← snk.finish d
    .ok ({ s.1 with packets := [] }, d)
  exitCode s := snk.exitCode s.2

/-- One line of the history: the packet, the tables handed over during it, and what was
done. -/
structure Item where
  packet : Packet
  handled : List Table
  act : Act
deriving DecidableEq

/-- The seeker on a sequence of inputs. -/
def run (o : Opt) (s : St) : List Input → Except Fault (St × List Item)
  | [] => .ok (s, [])
  | i :: is => do
    let (s, log, act) ← step o s i
    let (s, items) ← run o s is
    .ok (s, ⟨i.packet, log, act⟩ :: items)

end Mirakc.StartSeeker
