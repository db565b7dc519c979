import Verif.Spec.Main
/-
Specification vocabulary: two runs, the input of one of which continues that of the other.
-/
namespace Mirakc.Spec.Main
open Mirakc.Main

/-- The worlds differ at most in the input. -/
structure SameBut (w w' : World) : Prop where
  codec : w'.codec = w.codec
  tables : w'.tables = w.tables
  tables2 : w'.tables2 = w.tables2
  sections : w'.sections = w.sections
  logos : w'.logos = w.logos
  times : w'.times = w.times
  extra : w'.extra = w.extra
  base64 : w'.base64 = w.base64
  mjd : w'.mjd = w.mjd
  write : w'.write = w.write
  file : w'.file = w.file

/-- The commands that write nothing they could have to take back: all but scan-services and
sync-clocks, which print at the end, and seek-start, which chooses where to begin. -/
def live : Cmd → Bool
  | .scanServices .. => false
  | .syncClocks .. => false
  | .seekStart .. => false
  | _ => true

/-- The documents without the message that ends a recording. -/
def withoutStop (ds : List Doc) : List Doc :=
  ds.filter fun | .message (.stop _) => false | _ => true

end Mirakc.Spec.Main
