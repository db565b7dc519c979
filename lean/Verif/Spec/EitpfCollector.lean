import Verif.Model.EitpfCollector
import Verif.Spec.EitCollector
import Verif.Spec.EventsJson
/-
Specification of collect-eitpf.
-/
namespace Mirakc.Spec.EitpfCollector
open Mirakc.EitpfCollector
open Mirakc.EitCollector (DemuxCall)
open Mirakc.Spec.EitCollector (Shows service origin)

/-- The options ask for sections with the number: 0 is the present event, 1 the following. -/
def Wanted (o : Opt) (n : Nat) : Prop :=
  (n = 0 ∧ o.present = true) ∨ (n = 1 ∧ o.following = true)

/-- An EIT p/f section of the stream itself, now valid, of a service that is asked for. -/
def Acceptable (o : Opt) (x : Section) : Prop :=
  x.valid = true ∧ x.next = false ∧ x.tid.toNat = 0x4E ∧ 6 ≤ x.payload.length ∧
  (o.sids = [] ∨ x.ext ∈ o.sids)

/-- The options ask for the section. -/
def Requested (o : Opt) (x : Section) : Prop := Acceptable o x ∧ Wanted o x.number.toNat

/-- The sections written. -/
def written (cs : List DemuxCall) : List EitSection := cs.filterMap (·.out)

/-- The section with the number that was last written for the service. -/
def lastWritten (n : Nat) (g : UInt16 × UInt16 × UInt16) (cs : List DemuxCall) : Option EitSection :=
  ((written cs).filter fun e => decide (e.sectionNumber.toNat = n ∧ service e = g)).getLast?

/-- The version of section `n` that was last written for a service with the id. -/
def version (n : Nat) (sid : UInt16) (cs : List DemuxCall) : Option (Fin 32) :=
  ((written cs).filter fun e => decide (e.sectionNumber.toNat = n ∧ e.sid = sid)).getLast?.map (·.version)

/-- Everything asked for was written: for every service id the sections asked for, and
the present and the following section with the same version. -/
def Complete (o : Opt) (cs : List DemuxCall) : Prop :=
  ∀ sid ∈ o.sids,
    (o.present = true → ∃ v, version 0 sid cs = some v) ∧
    (o.following = true → ∃ v, version 1 sid cs = some v) ∧
    (o.present = true → o.following = true → version 0 sid cs = version 1 sid cs)

/-- In the stream there is only one service with a given id. -/
def OneEach (o : Opt) (is : List SectionInput) : Prop :=
  ∀ i ∈ is, ∀ i' ∈ is, ∀ x y, .sect x ∈ i.events → .sect y ∈ i'.events →
    Acceptable o x → Acceptable o y → x.ext = y.ext → origin x = origin y

/-- collect-eitpf with the options, offered the packets, ended with the exit code. -/
def Collected (o : Opt) (is : List SectionInput) (code : Nat) (h : Hist) : Prop :=
  Ran (sink o) { st := {} } is code h

end Mirakc.Spec.EitpfCollector
