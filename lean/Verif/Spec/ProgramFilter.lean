import Verif.Model.ProgramFilter
import Verif.Spec.ServiceFilter
import Verif.Spec.Int64
/-
Specification vocabulary for filter-program: event times, clock and PCR range in terms
of the packets and tables received so far.
-/
namespace Mirakc.Spec.ProgramFilter
open Mirakc.Spec.ServiceFilter (usablePat validPmt validTot latest)
open Mirakc.ProgramFilter (Opt Out Item)

/-- What the filter sees, in order. -/
inductive Ev where
  | tab (t : Table)
  | pkt (p : Packet)
deriving DecidableEq

/-- The tables among the events. -/
def tables (evs : List Ev) : List Table := evs.filterMap fun | .tab t => some t | .pkt _ => none
/-- The packets among the events. -/
def packets (evs : List Ev) : List Packet := evs.filterMap fun | .pkt p => some p | .tab _ => none

/-- The events of a piece of history: for each packet first the tables it completes,
then the packet itself. -/
def events (items : List Item) : List Ev :=
  items.flatMap fun it => it.handled.map .tab ++ [.pkt it.packet]

/-- The events before the packet of `it` is looked at, after the history `pre`. -/
def before (pre : List Item) (it : Item) : List Ev := events pre ++ it.handled.map .tab
/-- The events up to and including the packet of `it`. -/
def upto (pre : List Item) (it : Item) : List Ev := before pre it ++ [.pkt it.packet]

/-- Everything passed on during a piece of history. -/
def sent (items : List Item) : List Out := items.flatMap (·.outs)

/-- The events of a table that is a valid EIT of the service. -/
def serviceEit (sid : Nat) (t : Table) : Option (List Event) :=
  match t.body with
  | .eit eit => if t.valid = true ∧ eit.serviceId = sid then some eit.events else none
  | _ => none

/-- The event among the first two of an EIT (present and following). -/
def listedIn (eid : Nat) (es : List Event) : Option Event := (es.take 2).find? (·.eventId = eid)

/-- The event as described by the most recent EIT that lists it. -/
def latestEvent (o : Opt) (evs : List Ev) : Option Event :=
  latest (fun t => (serviceEit o.sid t).bind (listedIn o.eid)) (tables evs)

/-- Valid PMTs of the service. -/
def pmtsOf (o : Opt) (evs : List Ev) : List Pmt := (tables evs).filterMap (validPmt o.sid)
/-- Times of valid TOTs. -/
def totsOf (evs : List Ev) : List Int := (tables evs).filterMap validTot

/-- PCR PID of the latest PMT of the service, or the one given by the options. -/
def clockPid (o : Opt) (evs : List Ev) : Nat :=
  ((pmtsOf o evs).getLast?.map (·.pcrPid)).getD o.clockPid

/-- The packet carries a PCR of the service after the events `evs`. -/
def HasPcr (o : Opt) (evs : List Ev) (p : Packet) (pcr : Int) : Prop :=
  ∃ pmt, (pmtsOf o evs).getLast? = some pmt ∧ p.pid = pmt.pcrPid ∧ p.pcr = some pcr

/-- The PCRs on `pid` among the events `evs` that follow the events `pre`, from the
time on at which the event is known. -/
def pcrsOn (o : Opt) (pid : Nat) : List Ev → List Ev → List Int
  | _, [] => []
  | pre, .tab t :: evs => pcrsOn o pid (pre ++ [.tab t]) evs
  | pre, .pkt p :: evs =>
    (if p.pid = pid ∧ latestEvent o pre ≠ none then p.pcr.toList else []) ++
      pcrsOn o pid (pre ++ [.pkt p]) evs

/-- The PCR PID changed at the PMT in table `t`, after the events `h`; it has the
given PID since. -/
structure Changed (o : Opt) (h : List Ev) (t : Table) (since : List Ev) (pid : Nat) : Prop where
  new : ∃ pmt, validPmt o.sid t = some pmt ∧ pmt.pcrPid = pid
  change : pid ≠ clockPid o h
  same : ∀ pmt ∈ pmtsOf o since, pmt.pcrPid = pid

/-- `Sync o evs t0 p0`: the clock is in sync, time `t0` corresponds to PCR `p0`.
Either the PCR PID always was the one in the options, and so is the pair.  Or the PCR
PID has changed, a TOT with time `t0` was the first since the last change, and `p0` is
the last PCR before that TOT or, if there was none, the first after it. -/
def Sync (o : Opt) (evs : List Ev) (t0 p0 : Int) : Prop :=
  ((∀ pmt ∈ pmtsOf o evs, pmt.pcrPid = o.clockPid) ∧ t0 = o.clockTime ∧ p0 = o.clockPcr) ∨
  ∃ h t a tot b pid, evs = h ++ [.tab t] ++ a ++ [.tab tot] ++ b ∧
    Changed o h t (a ++ [.tab tot] ++ b) pid ∧ validTot tot = some t0 ∧ totsOf a = [] ∧
    ((pcrsOn o pid (h ++ [.tab t]) a).getLast? = some p0 ∨
      (pcrsOn o pid (h ++ [.tab t]) a = [] ∧
        (pcrsOn o pid (h ++ [.tab t] ++ a ++ [.tab tot]) b).head? = some p0))

/-- The PCR at time `t` when time `t0` corresponds to PCR `p0`. -/
def image (t0 p0 t : Int) : Int := (p0 + (t - t0) * 27000) % (2 ^ 33 * 300)

/-- All PCRs on `pid` among the events. -/
def pcrsAll (pid : Nat) (evs : List Ev) : List Int :=
  (packets evs).flatMap fun p => if p.pid = pid then p.pcr.toList else []

/-- Like `Sync`, but whether the event was known when a PCR was received does not
matter: the PCR is one next to the TOT. -/
def SyncAll (o : Opt) (evs : List Ev) (t0 p0 : Int) : Prop :=
  ((∀ pmt ∈ pmtsOf o evs, pmt.pcrPid = o.clockPid) ∧ t0 = o.clockTime ∧ p0 = o.clockPcr) ∨
  ∃ h t a tot b pid, evs = h ++ [.tab t] ++ a ++ [.tab tot] ++ b ∧
    Changed o h t (a ++ [.tab tot] ++ b) pid ∧ validTot tot = some t0 ∧ totsOf a = [] ∧
    ((pcrsAll pid a).getLast? = some p0 ∨
      (pcrsAll pid a = [] ∧ (pcrsAll pid b).head? = some p0))

/-- Start and end PCR of the programme. -/
def Range (o : Opt) (evs : List Ev) (a b : Int) : Prop :=
  ∃ e t0 p0, latestEvent o evs = some e ∧ Sync o evs t0 p0 ∧
    a = image t0 p0 (e.startTime - o.startMargin) ∧
    b = image t0 p0 (e.startTime + e.duration * 1000 + o.endMargin)

/-- `x` is reached at `pcr`: ahead of `x` by less than half the period, modulo the
period. -/
def Reached (pcr x : Int) : Prop := 2 * ((pcr - x) % (2 ^ 33 * 300)) < 2 ^ 33 * 300

/-- The same, but not across a wrap-around. -/
def ReachedNoWrap (pcr x : Int) : Prop := x ≤ pcr ∧ 2 * (pcr - x) < 2 ^ 33 * 300

/-- The table cancels the recording: an EIT of the service without events; or, before
streaming has started, an EIT that does not list the event (if there is a following
event, only without `--wait-until`) or a TOT after the `--wait-until` time. -/
def Cancels (o : Opt) (started : Prop) (t : Table) : Prop :=
  serviceEit o.sid t = some [] ∨
  (¬ started ∧ ∃ es, serviceEit o.sid t = some es ∧ listedIn o.eid es = none ∧
    (es.length < 2 ∨ o.waitUntil = none)) ∨
  (¬ started ∧ ∃ time l, validTot t = some time ∧ o.waitUntil = some l ∧ l < time)

/-- The programme starts with the packet of `it`, `R` telling when a PCR is reached. -/
def StartCond (R : Int → Int → Prop) (o : Opt) (pre : List Item) (it : Item) : Prop :=
  (¬ ∃ t ∈ it.handled, Cancels o False t) ∧
  ∃ pcr a b, HasPcr o (before pre it) it.packet pcr ∧ Range o (upto pre it) a b ∧
    R pcr a ∧ ¬ R pcr b

/-- The end of the programme is reached with the packet of `it`. -/
def EndCond (R : Int → Int → Prop) (o : Opt) (pre : List Item) (it : Item) : Prop :=
  ∃ pcr a b, HasPcr o (before pre it) it.packet pcr ∧ Range o (upto pre it) a b ∧ R pcr b

/-- The programme has started within the history. -/
def Started (R : Int → Int → Prop) (o : Opt) (items : List Item) : Prop :=
  ∃ pre it post, items = pre ++ it :: post ∧ StartCond R o pre it

/-- `l` are the packets of the last PAT in `ps`: the last packets of PID 0, beginning
with the last one in which a section starts (or all, if there is none). -/
def LastPat (ps l : List Packet) : Prop :=
  ∃ a, ps.filter (·.pid = 0) = a ++ l ∧ (∀ p ∈ l.tail, p.pusi = false) ∧
    (a ≠ [] → ∃ p, l.head? = some p ∧ p.pusi = true)

/-- The stream is excluded by the tag lists. -/
def Excluded (o : Opt) (st : Stream) : Prop :=
  (st.isVideo = true ∧ o.videoTags ≠ [] ∧ ∀ tag ∈ o.videoTags, st.tag ≠ some tag) ∨
  (st.isAudio = true ∧ ¬ (st.isVideo = true ∧ o.videoTags ≠ []) ∧ o.audioTags ≠ [] ∧
    ∀ tag ∈ o.audioTags, st.tag ≠ some tag)

/-- `t` is the PMT `pmt` without the excluded streams. -/
def Rewritten (o : Opt) (pmt t : Pmt) : Prop :=
  t.serviceId = pmt.serviceId ∧ t.pcrPid = pmt.pcrPid ∧ t.descs = pmt.descs ∧ t.rest = pmt.rest ∧
  ∀ pid st, (pid, st) ∈ t.streams.entries ↔ (pid, st) ∈ pmt.streams.entries ∧ ¬ Excluded o st

/-- The PID is excluded by the latest PMT. -/
def ExcludedPid (o : Opt) (evs : List Ev) (pid : Nat) : Prop :=
  ∃ pmt st, (pmtsOf o evs).getLast? = some pmt ∧ (pid, st) ∈ pmt.streams.entries ∧ Excluded o st

/-- PID of the PMT according to the latest usable PAT. -/
def PmtPid (o : Opt) (evs : List Ev) (pid : Nat) : Prop :=
  ∃ pat, latest usablePat (tables evs) = some pat ∧ (o.sid, pid) ∈ pat.pmts.entries

/-- The table with the latest PMT of the service, and its source PID. -/
def latestPmt (o : Opt) (evs : List Ev) : Option (Nat × Pmt) :=
  latest (fun t => (validPmt o.sid t).map (t.sourcePid, ·)) (tables evs)

/-- The PMT packets among the output: table, index, number. -/
def pmtOuts (outs : List Out) : List (Pmt × Nat × Nat) :=
  outs.filterMap fun | .pmt _ t i n => some (t, i, n) | .orig _ => none

/-- PMT packets `prev` are continued by packet `i` of table `t`: sections are completed
before a new one starts, and packets are numbered consecutively. -/
def Continues (extra : Pmt → Nat) (prev : List (Pmt × Nat × Nat)) (t : Pmt) (i n : Nat) : Prop :=
  n = prev.length ∧
  match prev.getLast? with
  | none => i = 0
  | some (t', i', _) => if i' < extra t' then t = t' ∧ i = i' + 1 else i = 0

/-- A packet on the PCR PID without PCR, or while the clock is not in sync. -/
def Exempt (o : Opt) (evs : List Ev) (p : Packet) : Prop :=
  ∃ pmt, (pmtsOf o evs).getLast? = some pmt ∧ p.pid = pmt.pcrPid ∧
    (p.pcr = none ∨ ∀ a b, ¬ Range o (evs ++ [.pkt p]) a b)

/-- What is made of a packet while streaming: a packet on the PMT PID is replaced by
the next packet of the rewritten PMT, a packet on an excluded PID is dropped, any other
is passed on; and exempt packets are always passed on. -/
def Forwarded (extra : Pmt → Nat) (o : Opt) (pre : List Item) (it : Item) : Prop :=
  (Exempt o (before pre it) it.packet ∧ it.outs = [.orig it.packet]) ∨
  (¬ Exempt o (before pre it) it.packet ∧
    ((PmtPid o (before pre it) it.packet.pid ∧
      ∃ q pmt t i n, latestPmt o (before pre it) = some (q, pmt) ∧ it.packet.pid = q ∧
        it.outs = [.pmt q t i n] ∧ Continues extra (pmtOuts (sent pre)) t i n ∧
        (i = 0 → Rewritten o pmt t)) ∨
     (¬ PmtPid o (before pre it) it.packet.pid ∧ ExcludedPid o (before pre it) it.packet.pid ∧
      it.outs = []) ∨
     (¬ PmtPid o (before pre it) it.packet.pid ∧ ¬ ExcludedPid o (before pre it) it.packet.pid ∧
      it.outs = [.orig it.packet])))

/-- One complete cycle of the table `t`: packets 0 to `extra t`. -/
def cycle (extra : Pmt → Nat) (pid : Nat) (t : Pmt) (n : Nat) : List Out :=
  (List.range (extra t + 1)).map fun i => .pmt pid t i (n + i)

/-- With pre-streaming, there is no PCR of the service in a packet of the PID of the PAT
(these are then passed on without being looked at). -/
def PatFree (o : Opt) (items : List Item) : Prop :=
  o.preStreaming = true → ∀ pre it post, items = pre ++ it :: post → it.packet.pid = 0 →
    ∀ x, ¬ HasPcr o (before pre it) it.packet x

/-- The PIDs whose tables are looked at. -/
def Watched (o : Opt) (evs : List Ev) (pid : Nat) : Prop :=
  pid = 0x00 ∨ pid = 0x12 ∨ pid = 0x14 ∨ PmtPid o evs pid

/-- No usable PAT places the PMT of the service on the PID of PAT, EIT or TOT or on
the null PID. -/
def Conforming (o : Opt) (t : Table) : Prop :=
  ∀ pat, usablePat t = some pat → ∀ pid, (o.sid, pid) ∈ pat.pmts.entries →
    pid ≠ 0x00 ∧ pid ≠ 0x12 ∧ pid ≠ 0x14 ∧ pid ≠ 0x1FFF

/-- The times in TOTs and events are near (TOTs and EITs can express 180 years). -/
structure Timely (sid : Nat) (t : Table) : Prop where
  tot : ∀ time, validTot t = some time → Near time
  eit : ∀ es, serviceEit sid t = some es → ∀ e ∈ es, Near e.startTime ∧ Near (e.duration * 1000)

/-- Usable PATs list the service (as they do behind filter-service), always with the
PMT PID `pmtPid`, and the PMT of the service is only found there; and times are near. -/
structure Regular (o : Opt) (pmtPid : Nat) (t : Table) : Prop where
  pat : ∀ pat, usablePat t = some pat → (o.sid, pmtPid) ∈ pat.pmts.entries
  pmt : ∀ pmt, validPmt o.sid t = some pmt → t.sourcePid = pmtPid
  times : Timely o.sid t

end Mirakc.Spec.ProgramFilter
