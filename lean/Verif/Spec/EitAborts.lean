import Verif.Spec.EitpfCollector
import Verif.Spec.Aborts
/-
Specification of collect-eits and collect-eitpf for arbitrary streams: exactly which sections are
written, and which packets cannot be processed.
-/
namespace Mirakc.Spec
open Mirakc.Spec.EventsJson

/-- The sections and tables that the packet completes and that are looked at: those of its own PID,
which must be one of the PIDs. -/
def delivered (pids : List Nat) (i : SectionInput) : List SectionEvent :=
  if i.packet.pid ∈ pids then i.events.filter fun e => decide (e.pid = i.packet.pid) else []

/-- `Due l x e`: if `l` was written, the section `x` is to be written next, as `e`.  With such a
rule, `Wrote Due l evs l'` means that all sections could be written, and that everything written
is then `l'`. -/
inductive Wrote (Due : List EitSection → Section → EitSection → Prop) :
    List EitSection → List SectionEvent → List EitSection → Prop
  | nil (l) : Wrote Due l [] l
  | skip {l ev evs l'} : (∀ x, ev = .sect x → ∀ e, ¬ Due l x e) → Wrote Due l evs l' → Wrote Due l (ev :: evs) l'
  | write {l x e evs l'} : Due l x e → WellFormed (x.payload.drop 6) → Wrote Due (l ++ [e]) evs l' →
      Wrote Due l (.sect x :: evs) l'

/-- One of the sections is to be written, when its turn comes, but its event loop is malformed. -/
def Unwritable (Due : List EitSection → Section → EitSection → Prop) (l : List EitSection)
    (evs : List SectionEvent) : Prop :=
  ∃ pre x post l' e, evs = pre ++ .sect x :: post ∧ Wrote Due l pre l' ∧ Due l' x e ∧
    ¬ WellFormed (x.payload.drop 6)

namespace EitCollector
open Mirakc.EitCollector

/-- collect-eits is to write the section next, as `e`. -/
def Due (o : Opt) (l : List EitSection) (x : Section) (e : EitSection) : Prop :=
  Requested o x ∧ Shows e x ∧ ¬ Known l e

end EitCollector

namespace EitpfCollector
open Mirakc.EitpfCollector
open Mirakc.Spec.EitCollector (Shows service)

/-- The version of the section with the number that was last written for the service. -/
def lastVersion (n : Nat) (g : UInt16 × UInt16 × UInt16) (l : List EitSection) : Option (Fin 32) :=
  (l.filter fun e => decide (e.sectionNumber.toNat = n ∧ service e = g)).getLast?.map (·.version)

/-- collect-eitpf is to write the section next, as `e`. -/
def Due (o : Opt) (l : List EitSection) (x : Section) (e : EitSection) : Prop :=
  Requested o x ∧ Shows e x ∧ lastVersion x.number.toNat (service e) l ≠ some e.version

/-- The services, without repetition, for which the section with the number was written. -/
def services (n : Nat) (l : List EitSection) : List (UInt16 × UInt16 × UInt16) :=
  ((l.filter fun e => decide (e.sectionNumber.toNat = n)).map service).eraseDups

/-- For as many services as ids were given, the sections asked for were written. -/
def Enough (o : Opt) (l : List EitSection) : Prop :=
  (o.present = true → (services 0 l).length = o.sids.eraseDups.length) ∧
  (o.following = true → (services 1 l).length = o.sids.eraseDups.length)

/-- The versions of the service's sections are the same. -/
def SameVersion (l : List EitSection) (g : UInt16 × UInt16 × UInt16) : Prop := lastVersion 0 g l = lastVersion 1 g l

/-- Collecting is complete. -/
def Ended (o : Opt) (l : List EitSection) : Prop :=
  o.streaming = false ∧ Enough o l ∧
  (o.present = true → o.following = true → ∀ g ∈ services 0 l, SameVersion l g)

/-- The service comes before the other: by the network, the stream, and the service. -/
def Before (g g' : UInt16 × UInt16 × UInt16) : Prop :=
  g.1 < g'.1 ∨ (g.1 = g'.1 ∧ (g.2.1 < g'.2.1 ∨ (g.2.1 = g'.2.1 ∧ g.2.2 < g'.2.2)))

/-- There is a service with a present section and without a following section, though the number of
services is right; and no service before it shows that collecting is not complete. -/
def Clash (o : Opt) (l : List EitSection) : Prop :=
  o.streaming = false ∧ o.present = true ∧ o.following = true ∧ Enough o l ∧
  ∃ g ∈ services 0 l, g ∉ services 1 l ∧ ∀ g' ∈ services 0 l, Before g' g → SameVersion l g'

/-- The packet cannot be processed: a section to be written is malformed, or after writing all of
them there is a clash of services. -/
def Uncollectable (o : Opt) (l : List EitSection) (i : SectionInput) : Prop :=
  Unwritable (Due o) l (delivered [0x12] i) ∨ ∃ l', Wrote (Due o) l (delivered [0x12] i) l' ∧ Clash o l'

end EitpfCollector

end Mirakc.Spec
