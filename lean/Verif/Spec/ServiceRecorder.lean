import Verif.Model.ServiceRecorder
import Verif.Spec.ServiceFilter
import Verif.Spec.RingFile
import Verif.Spec.PacketLoop
/-
Specification vocabulary for record-service.
-/
namespace Mirakc.Spec.ServiceRecorder
open Mirakc.ServiceRecorder (Input Msg Tr Item Opt Hist init sink)
open Mirakc.Spec.ServiceFilter (latest validPmt validTot usablePat)

/-- The messages among what the outside world sees. -/
def messages (tr : List Tr) : List Msg :=
  tr.filterMap fun | .msg m => some m | .op _ => none

/-- The operations of the ring file among what the outside world sees. -/
def fileOps (tr : List Tr) : List RingFileSink.Op :=
  tr.filterMap fun | .msg _ => none | .op o => some o

/-- Where a reader of the messages stands: nothing read; started; recording, no event
open; an event open (its id); stopped. -/
inductive Phase where
  | initial
  | preparing
  | idle
  | event (id : Nat)
  | stopped
deriving DecidableEq

/-- The messages allowed in each phase. -/
def Phase.next : Phase → Msg → Option Phase
  | .initial, .start => some .preparing
  | .preparing, .chunk _ _ => some .idle
  | .preparing, .stop _ => some .stopped
  | .idle, .chunk _ _ => some .idle
  | .idle, .eventStart _ ev _ _ => some (.event ev.eventId)
  | .idle, .stop _ => some .stopped
  | .event id, .chunk _ _ => some (.event id)
  | .event id, .eventUpdate _ ev _ _ => if ev.eventId = id then some (.event id) else none
  | .event id, .eventEnd _ ev _ _ => if ev.eventId = id then some .idle else none
  | .event _, .stop _ => some .stopped
  | _, _ => none

/-- The phase after reading messages; `none` if one was not allowed. -/
def Phase.read : Phase → List Msg → Option Phase
  | ph, [] => some ph
  | ph, m :: ms =>
    match ph.next m with
    | none => none
    | some ph => ph.read ms

/-- The number of chunk messages. -/
def chunks (ms : List Msg) : Nat :=
  (ms.filter fun | .chunk _ _ => true | _ => false).length

/-- The records of the event-end messages. -/
def ends (ms : List Msg) : List (Int × Nat) :=
  ms.filterMap fun | .eventEnd _ _ t p => some (t, p) | _ => none

/-- The records of the chunk messages. -/
def chunkRecords (ms : List Msg) : List (Int × Nat) :=
  ms.filterMap fun | .chunk t p => some (t, p) | _ => none

/-- The event-start and event-end messages. -/
def edges (ms : List Msg) : List Msg :=
  ms.filter fun | .eventStart _ _ _ _ => true | .eventEnd _ _ _ _ => true | _ => false

/-- The EIT in a table if it is a valid present/following EIT of the service with an
event. -/
def presentEit (sid : Nat) (t : Table) : Option Eit :=
  match t.body with
  | .eit eit => if t.valid = true ∧ eit.serviceId = sid ∧ eit.events ≠ [] then some eit else none
  | _ => none

/-- All tables received during a piece of history. -/
def received (items : List Item) : List Table := items.flatMap (·.handled)

/-- The packets handed to the ring file. -/
def stored (items : List Item) : List (List UInt8) :=
  (items.filter (·.stored)).map (·.input.bytes)

/-- The PCR PID according to the last PMT of the service; the null PID without one. -/
def pcrPid (sid : Nat) (rs : List Table) : Nat :=
  match latest (validPmt sid) rs with
  | none => 0x1FFF
  | some pmt => pmt.pcrPid

/-- What a table tells the clock, `rs` having been received before: a PMT with another
PCR PID (or a PCR PID at last), or the time. -/
def tableCalls (sid : Nat) (localNow : Int) : List Table → List Table → List Clock.Op
  | _, [] => []
  | rs, t :: ts =>
    (match validPmt sid t with
      | some pmt =>
        if pcrPid sid rs = 0x1FFF ∨ pcrPid sid rs ≠ pmt.pcrPid then [.setPid pmt.pcrPid] else []
      | none =>
        match validTot t with
        | some time => [.time time localNow]
        | none => []) ++ tableCalls sid localNow (rs ++ [t]) ts

/-- What the packet tells the clock: its PCR, if it is on the PCR PID. -/
def packetCalls (sid : Nat) (rs : List Table) (p : Packet) : List Clock.Op :=
  match p.pcr with
  | some pcr => if pcrPid sid rs ≠ 0x1FFF ∧ p.pid = pcrPid sid rs then [.pcr pcr] else []
  | none => []

/-- What a piece of history tells the clock, `rs` having been received before. -/
def clockCalls (sid : Nat) : List Table → List Item → List Clock.Op
  | _, [] => []
  | rs, it :: items =>
    packetCalls sid rs it.input.packet ++ tableCalls sid it.input.totLocal rs it.handled ++
      clockCalls sid (rs ++ it.handled) items

/-- The clock after a piece of history is `c`. -/
def ClockIs (sid : Nat) (items : List Item) (c : Clock) : Prop :=
  Clock.run {} (clockCalls sid [] items) = .ok c

/-- The stream time at the end of a piece of history, its last packet included. -/
def TimeIs (sid : Nat) (items : List Item) (it : Item) (now : Int) : Prop :=
  ∃ c, ClockIs sid (items ++ [it]) c ∧ c.now it.input.nowLocal = .ok now

/-- The clock is synchronised and a present event of the service is known. -/
def Ready (sid : Nat) (items : List Item) : Prop :=
  (∃ c, ClockIs sid items c ∧ c.isReady = true) ∧
  ∃ eit, latest (presentEit sid) (received items) = some eit

/-- The ready state was reached with the last packet of this piece of history or
before. -/
def HasBeenReady (sid : Nat) (items : List Item) : Prop :=
  ∃ pre post, items = pre ++ post ∧ Ready sid pre

/-- The event is over at the time. -/
def Over (ev : Event) (now : Int) : Prop := 0 < ev.duration ∧ ev.startTime + ev.duration * 1000 ≤ now

/-- The PIDs whose tables are looked at, `rs` having been received before: those of PAT,
EIT and TOT, and the PMT PID according to the last PAT. -/
def Watched (sid : Nat) (rs : List Table) (pid : Nat) : Prop :=
  pid = 0x00 ∨ pid = 0x12 ∨ pid = 0x14 ∨
  ∃ pat, latest usablePat rs = some pat ∧ (sid, pid) ∈ pat.pmts.entries

/-- No usable PAT places the PMT of the service on the PID of PAT, EIT or TOT or on the
null PID. -/
def Conforming (sid : Nat) (t : Table) : Prop :=
  ∀ pat, usablePat t = some pat → ∀ pid, (sid, pid) ∈ pat.pmts.entries →
    pid ≠ 0x00 ∧ pid ≠ 0x12 ∧ pid ≠ 0x14 ∧ pid ≠ 0x1FFF

/-- Every usable PAT lists the service, as it does behind filter-service. -/
def Listed (sid : Nat) (t : Table) : Prop :=
  ∀ pat, usablePat t = some pat → ∃ pid, (sid, pid) ∈ pat.pmts.entries

/-- record-service, offered the packets `is` by some source, with the given results of
the file operations, ended with the exit code and the history. -/
def Recorded (o : Opt) (results : List Int) (is : List Mirakc.ServiceRecorder.Input)
    (code : Nat) (h : Hist) : Prop :=
  ∃ (τ : Type) (src : Source Mirakc.ServiceRecorder.Input τ) (t : τ) (fuel : Nat) (h0 : Hist), Yields src t is ∧
    is.length < fuel ∧ init o results = .ok h0 ∧ feedPackets src (sink o) fuel t h0 = .ok (code, h)

end Mirakc.Spec.ServiceRecorder
