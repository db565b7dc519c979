import Verif.Spec.Main
/-
Vocabulary for C127: packets that do not matter to the commands that print documents.
-/
namespace Mirakc.Spec.Main
open Mirakc.Main

/-- Packet number `n` with the bytes `b` carries nothing for the command: it does not complete a
table (or section) of its PID, or the PID is none of those that the command listens to; for sync-clocks and
print-pes it carries no time stamp either. -/
def Idle (w : World) (n : Nat) (b : List UInt8) : Cmd → Prop
  | .scanServices .. => ∀ t ∈ w.tables n, t.sourcePid ≠ (w.codec.packet b).pid
  | .syncClocks .. => (w.codec.packet b).pid = 0x1FFF ∨
      (∀ t ∈ w.tables n, t.sourcePid ≠ (w.codec.packet b).pid) ∧ (w.codec.packet b).pcr = none
  | .collectEits .. => (w.codec.packet b).pid ≠ 0x12 ∧ (w.codec.packet b).pid ≠ 0x14 ∨
      ∀ e ∈ w.sections n, e.pid ≠ (w.codec.packet b).pid
  | .collectEitpf .. => (w.codec.packet b).pid ≠ 0x12 ∨ ∀ e ∈ w.sections n, e.pid ≠ (w.codec.packet b).pid
  | .collectLogos => w.logos n = { logos := [], result := true }
  | .filterProgramMetadata .. | .trackAirtime .. =>
      (w.codec.packet b).pid ≠ 0x12 ∨ ∀ t ∈ w.tables n, t.sourcePid ≠ (w.codec.packet b).pid
  | .printPes => (∀ t ∈ w.tables n, t.sourcePid ≠ (w.codec.packet b).pid) ∧
      (w.codec.packet b).pcr = none ∧ (w.codec.packet b).pts = none ∧ (w.codec.packet b).dts = none
  | _ => False

/-- The commands that may stop at the first packet whatever it is: collect-eits with a time limit that
is not positive, and collect-eitpf without --sids, with an argument of --sids that is not a number, or with both
--present and --following. -/
def Hasty : Cmd → Prop
  | .collectEits _ _ limit streaming _ _ => streaming = false ∧ limit.getD 30000 ≤ 0
  | .collectEitpf sids streaming present following =>
      streaming = false ∧ (sids.getD [] = [] ∨ ¬ Numbers sids ∨ present = true ∧ following = true)
  | _ => False

/-- The list without element number `n`. -/
def dropNth {α : Type} (f : Nat → α) (n : Nat) : Nat → α := fun k => if k < n then f k else f (k + 1)

/-- The world in which packet number `n` is missing from the input: what is completed by the
others stays the same. -/
def lacking (w : World) (n : Nat) (opened : Bool) (read : List (Option (List UInt8))) : World :=
  { w with opened := opened, read := read, tables := dropNth w.tables n, sections := dropNth w.sections n
           logos := dropNth w.logos n }

end Mirakc.Spec.Main
