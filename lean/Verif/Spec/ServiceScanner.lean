import Verif.Model.ServiceScanner
import Verif.Spec.History
import Verif.Spec.Received
/-
Specification of scan-services: what it knows after the tables received, and what it
prints.
-/
namespace Mirakc.Spec.ServiceScanner
open Mirakc.ServiceScanner

/-- A PAT in its place, valid, of a stream with an id. -/
def patOf : Table → Option Pat
  | { sourcePid := 0, valid := true, body := .pat p, .. } => if p.tsId = 0 then none else some p
  | _ => none
/-- A valid SDT of a stream with an id. -/
def sdtOf : Table → Option Sdt
  | { valid := true, body := .sdt x, .. } => if x.tsId = 0 then none else some x
  | _ => none
/-- A valid NIT. -/
def nitOf : Table → Option Nit
  | { valid := true, body := .nit x, .. } => some x
  | _ => none

/-- The PAT says that the NIT is on another PID than usual. -/
def MovesNit (p : Pat) : Prop := p.nitPid ≠ 0x1FFF ∧ p.nitPid ≠ 0x10

instance (p : Pat) : Decidable (MovesNit p) := by unfold MovesNit; infer_instance

/-- The PATs that move the NIT. -/
def moves (l : List Table) : List Pat := (l.filterMap patOf).filter fun p => MovesNit p

/-- The PID is listened to after the tables: that of the PAT, that of the SDT, and all
PIDs on which the NIT is said to be, or its usual PID. -/
def Watched (l : List Table) (pid : Nat) : Prop :=
  pid = 0x00 ∨ pid = 0x11 ∨ (pid = 0x10 ∧ moves l = []) ∨ ∃ p ∈ moves l, p.nitPid = pid

instance (l : List Table) (pid : Nat) : Decidable (Watched l pid) := by unfold Watched; infer_instance

/-- Those of the tables that are listened to, when the tables `before` came before them. -/
def lookedAfter (before : List Table) : List Table → List Table
  | [] => []
  | t :: l => (if Watched before t.sourcePid then [t] else []) ++ lookedAfter (before ++ [t]) l

/-- The tables that are listened to. -/
def looked (l : List Table) : List Table := lookedAfter [] l

/-- The tables after the last PAT that moved the NIT. -/
def sinceMove (l : List Table) : List Table :=
  (l.reverse.takeWhile fun t => decide (moves [t] = [])).reverse

/-- The latest PAT. -/
def latestPat (l : List Table) : Option Pat := (l.filterMap patOf).getLast?
/-- The latest SDT that is listened to. -/
def latestSdt (l : List Table) : Option Sdt := ((looked l).filterMap sdtOf).getLast?
/-- The latest NIT that is listened to, since it was moved. -/
def latestNit (l : List Table) : Option Nit := ((sinceMove (looked l)).filterMap nitOf).getLast?

/-- All tables are there. -/
def Complete (l : List Table) : Prop := latestPat l ≠ none ∧ latestSdt l ≠ none ∧ latestNit l ≠ none

instance (l : List Table) : Decidable (Complete l) := by unfold Complete; infer_instance

/-- The options select the service. -/
def Selected (o : Opt) (sid : Nat) : Prop := (o.sids = [] ∨ sid ∈ o.sids) ∧ sid ∉ o.xsids

/-- The type of a service with audio or video (ARIB STD-B10): digital TV, digital audio,
and the temporary and other kinds mirakc supports. -/
def AudioVideo (n : Nat) : Prop := n ∈ [0x01, 0x02, 0xA1, 0xA2, 0xA5, 0xA6, 0xAD]

/-- The remote control key of the stream of the SDT: that of the first TS information
descriptor of the stream in the NIT, if there is one and it is not 0. -/
def IsKey (sdt : Sdt) (nit : Nit) (key : Option Nat) : Prop :=
  ∀ k, key = some k ↔ k ≠ 0 ∧ ∃ rest, nit.transports.lookup (sdt.tsId, sdt.onetwId) = some (k :: rest)

/-- The logo of the service: its id if it is sent in the CDT, -1 otherwise. -/
def IsLogo (x : Service) (id : Int) : Prop :=
  (∀ n, (x.logo = some (1, n) ∨ x.logo = some (2, n)) → id = n) ∧
  ((∀ n, x.logo ≠ some (1, n) ∧ x.logo ≠ some (2, n)) → id = -1)

/-- The entry describes a service with audio or video in the PAT and the SDT. -/
def IsEntry (o : Opt) (pat : Pat) (sdt : Sdt) (nit : Nit) (e : ServiceEntry) : Prop :=
  Selected o e.sid ∧ (∃ pid, pat.pmts.find? e.sid = some pid) ∧
  (∃ x, sdt.services.find? e.sid = some x ∧ AudioVideo x.serviceType ∧ e.type = x.serviceType ∧
    e.name = x.name ∧ IsLogo x e.logoId) ∧
  e.nid = sdt.onetwId ∧ e.tsid = sdt.tsId ∧ IsKey sdt nit e.remoteControlKeyId

/-- scan-services with the options, offered the packets, ended with the exit code. -/
def Scanned (o : Opt) (is : List Input) (code : Nat) (h : Hist) : Prop :=
  Ran (sink o) { st := {} } is code h

/-- The packets consumed. -/
def consumed (h : Hist) : List Input := h.items.map (·.input)

end Mirakc.Spec.ServiceScanner
