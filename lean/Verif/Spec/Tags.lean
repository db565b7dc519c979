import Verif.Spec.Margins
/-
Specification vocabulary for what component tags remove (C145).
-/
namespace Mirakc.Spec.Tags
open Mirakc.ProgramFilter (Opt Out)
open Mirakc.Spec.ServiceFilter (validPmt)
open Mirakc.Spec.ProgramFilter (Excluded)

/-- The first list is the second without some packets, all of them on certain PIDs. -/
inductive Without (E : Nat → Prop) : List Packet → List Packet → Prop where
  | nil : Without E [] []
  | keep {xs ys} (p : Packet) : Without E xs ys → Without E (p :: xs) (p :: ys)
  | drop {xs ys} (p : Packet) : E p.pid → Without E xs ys → Without E xs (p :: ys)

/-- The packets passed on, without those of the PMT that the filter makes. -/
def originals (xs : List Out) : List Packet := xs.filterMap fun
  | .orig p => some p
  | .pmt .. => none

/-- A PMT of the service has a stream on this PID that the tags exclude. -/
def SomeExcluded (o : Opt) (T : Table → Prop) (pid : Nat) : Prop :=
  ∃ t pmt st, T t ∧ validPmt o.sid t = some pmt ∧ (pid, st) ∈ pmt.streams.entries ∧ Excluded o st

end Mirakc.Spec.Tags
