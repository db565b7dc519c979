import Verif.Model.ServiceFilter
/-
Specification vocabulary for filter-service: which PIDs belong to the selected
service, in terms of the tables received so far.
-/
namespace Mirakc.Spec.ServiceFilter
open Mirakc.ServiceFilter (Out Act Item)

/-- The PAT in a table if it is usable: delivered on PID 0, valid, of a real
transport stream. -/
def usablePat (t : Table) : Option Pat :=
  match t.body with
  | .pat pat => if t.sourcePid = 0 ∧ t.valid = true ∧ pat.tsId ≠ 0 then some pat else none
  | _ => none

/-- The CAT in a table if it is valid. -/
def validCat (t : Table) : Option Cat :=
  match t.body with
  | .cat cat => if t.valid = true then some cat else none
  | _ => none

/-- The PMT in a table if it is a valid PMT of the service. -/
def validPmt (sid : Nat) (t : Table) : Option Pmt :=
  match t.body with
  | .pmt pmt => if t.valid = true ∧ pmt.serviceId = sid then some pmt else none
  | _ => none

/-- The time in a table if it is a valid TOT. -/
def validTot (t : Table) : Option Int :=
  match t.body with
  | .tot time => if t.valid = true then some time else none
  | _ => none

/-- The last of the tables `rs` that `f` selects. -/
def latest {α : Type} (f : Table → Option α) (rs : List Table) : Option α :=
  (rs.filterMap f).getLast?

/-- PAT, CAT, NIT, SDT, EIT, RST, TOT, BIT, CDT. -/
def siPids : List Nat := [0x00, 0x01, 0x10, 0x11, 0x12, 0x13, 0x14, 0x24, 0x29]

/-- The PID is the `ca_pid` of a conditional access descriptor. -/
def CaPid (descs : List Desc) (pid : Nat) : Prop := ∃ d ∈ descs, d.tag = 0x09 ∧ d.caPid = pid

/-- The PID is to be forwarded after the tables `rs` were received. -/
def Forward (sid : Nat) (rs : List Table) (pid : Nat) : Prop :=
  (∃ pat, latest usablePat rs = some pat ∧ (pid ∈ siPids ∨ (sid, pid) ∈ pat.pmts.entries)) ∨
  (∃ cat, latest validCat rs = some cat ∧ CaPid cat.descs pid) ∨
  (∃ pmt, latest (validPmt sid) rs = some pmt ∧
    (pid = pmt.pcrPid ∨ CaPid pmt.descs pid ∨ ∃ s, (pid, s) ∈ pmt.streams.entries))

/-- Tables of this PID are looked at after the tables `rs` were received: PAT, CAT,
TOT if there is a time limit, PMT of the service. -/
def Watched (sid : Nat) (limit : Option Int) (rs : List Table) (pid : Nat) : Prop :=
  pid = 0x00 ∨ pid = 0x01 ∨ (limit ≠ none ∧ pid = 0x14) ∨
  ∃ pat, latest usablePat rs = some pat ∧ (sid, pid) ∈ pat.pmts.entries

/-- A usable PAT that does not list the service. -/
def Missing (sid : Nat) (t : Table) : Prop :=
  ∃ pat, usablePat t = some pat ∧ ∀ pid, (sid, pid) ∉ pat.pmts.entries

/-- A valid TOT that is not before the time limit. -/
def OverLimit (limit : Option Int) (t : Table) : Prop :=
  ∃ l time, limit = some l ∧ validTot t = some time ∧ l ≤ time

/-- `Restricted sid pat pat'`: `pat'` is `pat` with only the entry of the service. -/
def Restricted (sid : Nat) (pat pat' : Pat) : Prop :=
  pat'.tsId = pat.tsId ∧ pat'.nitPid = pat.nitPid ∧ pat'.rest = pat.rest ∧
  ∃ pid, (sid, pid) ∈ pat.pmts.entries ∧ pat'.pmts.entries = [(sid, pid)]

/-- The output is the input with packets dropped and packets of PID 0 replaced one
for one. -/
inductive Derived : List Packet → List Out → Prop
  | nil : Derived [] []
  | drop {p ps os} : Derived ps os → Derived (p :: ps) os
  | keep {p ps os} : p.pid ≠ 0 → Derived ps os → Derived (p :: ps) (.orig p :: os)
  | pat {p ps t n os} : p.pid = 0 → Derived ps os → Derived (p :: ps) (.pat t n :: os)

/-- All tables received during a piece of history. -/
def received (items : List Item) : List Table := items.flatMap (·.handled)

/-- What was passed on for a packet. -/
def sentOf (it : Item) : Option Out :=
  match it.act with
  | .send x => some x
  | _ => none

/-- Everything passed on during a piece of history. -/
def sent (items : List Item) : List Out := items.filterMap sentOf

/-- The number of rewritten PAT packets passed on. -/
def patCount (os : List Out) : Nat :=
  (os.filter fun x => match x with | .pat _ _ => true | _ => false).length

/-- Tables as a standard conforming broadcast sends them: elementary streams, PCR,
ECM and EMM are not on PID 0 or the null PID, a PMT neither on the null PID nor on the
PIDs of PAT, CAT and TOT, and a TOT only on its PID. -/
def Conforming (sid : Nat) (t : Table) : Prop :=
  (∀ pat, usablePat t = some pat → ∀ pid, (sid, pid) ∈ pat.pmts.entries →
    pid ≠ 0x00 ∧ pid ≠ 0x01 ∧ pid ≠ 0x14 ∧ pid ≠ 0x1FFF) ∧
  (∀ cat, validCat t = some cat → ∀ pid, CaPid cat.descs pid → pid ≠ 0x00 ∧ pid ≠ 0x1FFF) ∧
  (∀ pmt, validPmt sid t = some pmt → ∀ pid,
    (pid = pmt.pcrPid ∨ CaPid pmt.descs pid ∨ ∃ s, (pid, s) ∈ pmt.streams.entries) →
    pid ≠ 0x00 ∧ pid ≠ 0x1FFF) ∧
  (∀ time, validTot t = some time → t.sourcePid = 0x14)

end Mirakc.Spec.ServiceFilter
