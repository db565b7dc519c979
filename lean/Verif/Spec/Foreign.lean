import Verif.Spec.Main
/-
Specification vocabulary: packets that do not matter to the commands for a service.
-/
namespace Mirakc.Spec.Main
open Mirakc.Main

/-- The command looks at the service only. -/
def Serves (sid : Nat) : Cmd → Prop
  | .filterService s => s = some (sid : Int)
  | .filterProgram a => a.sid = sid
  | .recordService s .. => s = sid
  | _ => False

/-- The world in which packet number `n` is missing from the input: the tables completed by the
others stay the same. -/
def without (w : World) (n : Nat) (opened : Bool) (read : List (Option (List UInt8))) : World :=
  { w with opened := opened, read := read, tables := fun k => if k < n then w.tables k else w.tables (k + 1) }

end Mirakc.Spec.Main
