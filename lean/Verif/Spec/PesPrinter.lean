import Verif.Model.PesPrinter
import Verif.Spec.History
import Verif.Spec.Received
import Verif.Spec.Clock
/-
Specification of print-pes: what was received, the clocks, and the lines that show a PCR, a
PTS or a DTS.
-/
namespace Mirakc.Spec.PesPrinter
open Mirakc.PesPrinter

/-- What is received: a packet, or a table. -/
inductive PEv where
  | pkt (p : Packet)
  | tab (t : Table)
deriving DecidableEq

/-- What was received: a packet, then the tables completed by it that are looked at. -/
def log (items : List (Line Input Did)) : List PEv :=
  items.flatMap fun it => .pkt it.input.packet :: it.did.tables.map .tab

/-- A valid PMT. -/
def pmtOf : PEv → Option Pmt
  | .tab { valid := true, body := .pmt x, .. } => some x
  | _ => none
/-- The time of a valid TOT. -/
def totOf : PEv → Option Int
  | .tab { valid := true, body := .tot x, .. } => some x
  | _ => none

/-- A PMT that says that there is a clock on the PID; 0x1FFF says that a service has no
clock. -/
def NamesClock (pid : Nat) (e : PEv) : Prop := pid ≠ 0x1FFF ∧ (pmtOf e).map (·.pcrPid) = some pid

instance (pid : Nat) (e : PEv) : Decidable (NamesClock pid e) := by unfold NamesClock; infer_instance

/-- There is a clock on the PID. -/
def HasClock (pid : Nat) (l : List PEv) : Prop := ∃ e ∈ l, NamesClock pid e

instance (pid : Nat) (l : List PEv) : Decidable (HasClock pid l) := by unfold HasClock; infer_instance

/-- What was received since the latest PMT that names the clock. -/
def sinceClock (pid : Nat) (l : List PEv) : List PEv :=
  (l.reverse.takeWhile fun e => decide (¬ NamesClock pid e)).reverse

/-- What the clock on the PID observes: the PCRs on the PID, and the TOTs.  (The local time
is not used.) -/
def observed (pid : Nat) (l : List PEv) : List Clock.Op :=
  l.filterMap fun
    | .pkt p => if p.pid = pid then p.pcr.map .pcr else none
    | .tab t => (totOf (.tab t)).map (.time · 0)

/-- The PID of the clock for the stream on the PID, by the latest PMT with the stream. -/
def streamClock (pid : Nat) (l : List PEv) : Option Nat :=
  ((l.filterMap pmtOf).filter fun x => (x.streams.find? pid).isSome).getLast?.map (·.pcrPid)

/-- The PCR, PTS and DTS of a packet that are to be shown, in units of the PCR: a PCR if it
is one of a clock. -/
def stamps (l : List PEv) (p : Packet) : List (Int × Msg) :=
  (if HasClock p.pid l then p.pcr.toList.map (·, .pcr p.pid) else []) ++
    p.pts.toList.map (300 * ·, .pts p.pid) ++ p.dts.toList.map (300 * ·, .dts p.pid)

/-- The stamps shown by the lines. -/
def shown (ls : List PLine) : List (Int × Msg) := ls.filterMap fun ln => ln.pcr.map (·, ln.msg)

/-- The time shown with a stamp. -/
def timesOf (ls : List PLine) (m : Msg) : List (Option Int) :=
  (ls.filter (fun ln => ln.pcr.isSome && ln.msg == m)).map (·.time)

/-- What a clock has observed: a TOT with the time `t`, at which the counter of the
broadcaster was `x0` by the latest PCR (or the first one after it, if there was none); then
only PCRs, the latest with the counter `x`.  Between PCRs there is less than one second. -/
def InSync (ops : List Clock.Op) (t x0 x : Int) : Prop :=
  ∃ before after, (x0 :: after).getLast? = some x ∧
    (Steady (counters before ++ after) ∧ (counters before).getLast? = some x0 ∧
        ops = calls (before ++ [.tot t 0] ++ after.map .pcr) ∨
      Steady (x0 :: after) ∧ counters before = [] ∧
        ops = calls (before ++ [.tot t 0] ++ (x0 :: after).map .pcr))

/-- PTS and DTS have 33 bits. -/
def Stamps33 (p : Packet) : Prop :=
  (∀ v ∈ p.pts, 0 ≤ v ∧ v < 2 ^ 33) ∧ ∀ v ∈ p.dts, 0 ≤ v ∧ v < 2 ^ 33

/-- The PCR is in range: its base has 33 bits, its extension is less than 300. -/
def PcrInRange (p : Packet) : Prop := ∀ v ∈ p.pcr, 0 ≤ v ∧ v < 2 ^ 33 * 300

/-- print-pes, offered the packets, ended with the exit code. -/
def Printed (is : List Input) (code : Nat) (h : Hist) : Prop :=
  Ran sink { st := {} } is code h

/-- A valid PAT, with its PID. -/
def patOf : Table → Option (Nat × Pat)
  | { sourcePid := pid, valid := true, body := .pat x, .. } => some (pid, x)
  | _ => none

/-- PATs are in their place, and name PIDs of PMTs that are no PIDs of other tables. -/
def Regular (is : List Input) : Prop :=
  ∀ t ∈ received is, ∀ pid pat, patOf t = some (pid, pat) →
    pid = 0 ∧ ∀ sid p, pat.pmts.find? sid = some p → p ∉ [0x00, 0x01, 0x12, 0x14]

/-- The latest PAT. -/
def latestPat (l : List Table) : Option Pat := (l.filterMap patOf).getLast?.map (·.2)

/-- The tables of the PID are of interest. -/
def Interesting (l : List Table) (pid : Nat) : Prop :=
  pid ∈ [0x00, 0x01, 0x12, 0x14] ∨ ∃ pat, latestPat l = some pat ∧ ∃ sid, pat.pmts.find? sid = some pid

/-- Exactly the tables of interest were looked at. -/
def Followed (h : Hist) : Prop :=
  ∀ a x b, h.items = a ++ x :: b →
    (Interesting (received (a.map (·.input))) x.input.packet.pid → x.did.tables = received [x.input]) ∧
    (¬ Interesting (received (a.map (·.input))) x.input.packet.pid → x.did.tables = [])

/-- The latest PAT lists services. -/
def Served (l : List Table) : Prop :=
  ∀ pat, latestPat l = some pat → ∃ sid pid, pat.pmts.find? sid = some pid

/-- The run ended with the input, or with the first packet after which the latest PAT lists
no services. -/
def EndsInTime (is : List Input) (h : Hist) : Prop :=
  (h.items.map (·.input) = is ∧ ∀ k, Served (received (is.take k))) ∨
  ∃ before i after, is = before ++ i :: after ∧ h.items.map (·.input) = before ++ [i] ∧
    (∀ k, Served (received (before.take k))) ∧ ¬ Served (received (before ++ [i]))

end Mirakc.Spec.PesPrinter
