import Verif.Spec.ProgramFilter
import Verif.Spec.ServiceAborts
/-
Specification vocabulary: which streams make filter-program terminate abnormally.
-/
namespace Mirakc.Spec.ProgramFilter
open Mirakc.Spec.ServiceFilter (usablePat validPmt validTot latest listed Missing)
open Mirakc.ProgramFilter (Opt Out Item)

/-- Tables of this PID are looked at after the tables `rs` were received, for arbitrary tables:
those on the PID of the PMT in the latest PAT; those on the PIDs of PAT, EIT and TOT, unless a PAT
placed the PMT there; and those on the null PID once a PAT placed the PMT there. -/
def Looked (sid : Nat) (rs : List Table) (pid : Nat) : Prop :=
  latest (listed sid) rs = some pid ∨
  ((∀ t ∈ rs, listed sid t ≠ some pid) ∧ (pid = 0x00 ∨ pid = 0x12 ∨ pid = 0x14)) ∨
  (pid = 0x1FFF ∧ ∃ t ∈ rs, listed sid t = some pid)

/-- Not a PCR. -/
def OutOfRange (x : Int) : Prop := ¬ (0 ≤ x ∧ x < 2 ^ 33 * 300)

/-- The event is known and the clock is in sync, but with a PCR out of range, or the start or the end
of the programme is so far from the clock that its PCR cannot be computed with 64 bits. -/
def Unsound (o : Opt) (evs : List Ev) : Prop :=
  ∃ e t0 p0, latestEvent o evs = some e ∧ Sync o evs t0 p0 ∧
    (OutOfRange p0 ∨ ¬ Convertible t0 p0 (e.startTime - o.startMargin) ∨
      ¬ Convertible t0 p0 (e.startTime + e.duration * 1000 + o.endMargin))

/-- The table has an event of the programme whose length, in milliseconds, cannot be represented with
64 bits, without or with the margin at the end. -/
def TooLong (o : Opt) (t : Table) : Prop :=
  ∃ e, (serviceEit o.sid t).bind (listedIn o.eid) = some e ∧
    ¬ (Fits64 (e.duration * 1000) ∧ Fits64 (e.duration * 1000 + o.endMargin))

/-- The latest PMT of the service was not received on the PID that the latest PAT says. -/
def Stale (o : Opt) (evs : List Ev) : Prop :=
  ∃ q pmt, latestPmt o evs = some (q, pmt) ∧ ¬ PmtPid o evs q

/-- The packet itself makes the filter terminate abnormally before anything is sent, no table having
cancelled the recording:
* it has a PCR of the service that is out of range while (or because of which) the PCR range of the
  programme is known, or with which the clock gets in sync so that the range cannot be computed;
* or the programme starts with it, and without pre-streaming no packet of a PAT was received;
* or the programme has started, its end is not reached, the packet is to be replaced by one of the
  PMT, and the latest PMT is stale. -/
def BadPacket (o : Opt) (pre : List Item) (it : Item) : Prop :=
  (∃ x, HasPcr o (before pre it) it.packet x ∧
    ((OutOfRange x ∧ ∃ a b, Range o (upto pre it) a b) ∨ Unsound o (upto pre it))) ∨
  (¬ Started ReachedNoWrap o pre ∧ StartCond ReachedNoWrap o pre it ∧
    o.preStreaming = false ∧ ∀ p ∈ packets (upto pre it), p.pid ≠ 0x00) ∨
  (Started ReachedNoWrap o pre ∧ ¬ EndCond ReachedNoWrap o pre it ∧ ¬ Exempt o (before pre it) it.packet ∧
    PmtPid o (before pre it) it.packet.pid ∧ Stale o (before pre it))

/-- The programme starts with the packet, but the latest PMT is stale. -/
def BadStart (o : Opt) (pre : List Item) (it : Item) : Prop :=
  ¬ Started ReachedNoWrap o pre ∧ StartCond ReachedNoWrap o pre it ∧ Stale o (before pre it)

/-- The packet makes filter-program terminate abnormally, after the history `pre`, before anything is
sent: a PAT without the service is looked at; or an EIT with an event that is too long; or a table
with which the event is known and the clock in sync, but the PCR range cannot be computed; or no table
cancels the recording, and the packet is bad. -/
def FailsAtOnce (o : Opt) (pre : List Item) (i : Input) : Prop :=
  ∃ log, Handed (Looked o.sid) i.packet.pid (tables (events pre)) i.tables log ∧
    ((∃ a t b, log = a ++ t :: b ∧ (Missing o.sid t ∨ TooLong o t ∨ Unsound o (events pre ++ (a ++ [t]).map .tab))) ∨
     ((¬ ∃ t ∈ log, Cancels o (Started ReachedNoWrap o pre) t) ∧ BadPacket o pre ⟨i.packet, log, [], true⟩))

/-- The programme would start with the packet and no table cancels it, but the latest PMT is stale; without
pre-streaming, the packets `pats` of the last PAT are sent before that is noticed. -/
def FailsAtStart (o : Opt) (pre : List Item) (i : Input) (pats : List Out) : Prop :=
  ∃ log, Handed (Looked o.sid) i.packet.pid (tables (events pre)) i.tables log ∧
    (¬ ∃ t ∈ log, Cancels o (Started ReachedNoWrap o pre) t) ∧ BadStart o pre ⟨i.packet, log, [], true⟩ ∧
    (o.preStreaming = true ∧ pats = [] ∨
      o.preStreaming = false ∧ ∃ l, LastPat (packets (events pre) ++ [i.packet]) l ∧ pats = l.map .orig)

/-- The packet makes filter-program terminate abnormally if everything sent is taken. -/
def Unfilterable (o : Opt) (pre : List Item) (i : Input) : Prop :=
  FailsAtOnce o pre i ∨ ∃ pats, FailsAtStart o pre i pats

/-- With pre-streaming, there are no PCRs in packets of the PID of the PAT, or no PMT of the service
says that its PCRs are there. -/
def PcrNotOnPat (o : Opt) (is : List Input) : Prop :=
  o.preStreaming = true → (∀ i ∈ is, i.packet.pid = 0 → i.packet.pcr = none) ∨
    ∀ i ∈ is, ∀ t ∈ i.tables, ∀ pmt, validPmt o.sid t = some pmt → pmt.pcrPid ≠ 0

end Mirakc.Spec.ProgramFilter
