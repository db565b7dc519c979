import Verif.Spec.ServiceRecorder
import Verif.Spec.Main
/-
Specification vocabulary for recordings into ring files of different sizes.
-/
namespace Mirakc.Spec.Geometry
open Mirakc.ServiceRecorder (Msg)

/-- An event message whose position is the number of bytes recorded before, as it is for a ring file of `ring` bytes
that is filled from `start` on. -/
def place (start ring : Nat) : Msg → Msg
  | .eventStart e ev t k => .eventStart e ev t ((start + k) % ring)
  | .eventEnd e ev t k => .eventEnd e ev t ((start + k) % ring)
  | m => m

/-- The messages of record-service among the documents printed. -/
def printed (docs : List Main.Doc) : List Msg :=
  docs.filterMap fun | .message m => some m | _ => none

end Mirakc.Spec.Geometry
