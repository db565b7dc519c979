import Verif.Tests.Helper
import Verif.Model.EitCollector
import Verif.Model.LogoCollector
/-
The tests of /repo/test/eit_collector_test.cc and /repo/test/logo_collector_test.cc, evaluated on
the model.
-/
namespace Mirakc.Tests.Collectors

/-- A TOT, as `EitCollector` gets it. -/
def tot (n cc : Nat) (time : Int) : SectionInput :=
  { packet := pk pidTot cc, events := [.table { sourcePid := pidTot, body := .tot time, firstPacket := n }] }

/-- No document is written, the exit code is `EXIT_SUCCESS`, and everything is read. -/
def silent (o : EitCollector.Opt) (is : List SectionInput) : Bool :=
  match EitCollector.init o with
  | .ok h =>
    match outcome (EitCollector.sink o) h is with
    | .ok (c, h, n) => ((h.items.flatMap (·.did)).filterMap (·.out)).isEmpty && c == exitSuccess && n == 0
    | .error _ => false
  | .error _ => false

/-- NoPacket, eit_collector_test.cc:16-27. -/
example : silent {} [] = true := by decide +kernel
/-- TimedOut, eit_collector_test.cc:29-53.  The test makes the collector with the default options; with the
options it means to use, the result is the same. -/
example : silent {} [tot 0 0 1580860800000, tot 1 1 1580860805000] = true ∧
    silent { timeLimit := 5000 } [tot 0 0 1580860800000, tot 1 1 1580860805000] = true := by decide +kernel
/-- Streaming, eit_collector_test.cc:55-81.  Likewise. -/
example : silent {} [tot 0 0 1580860800000, tot 1 1 1580860805000, tot 2 2 1580860810000] = true ∧
    silent { timeLimit := 5000, streaming := true }
      [tot 0 0 1580860800000, tot 1 1 1580860805000, tot 2 2 1580860810000] = true := by decide +kernel
/-- Without --streaming the third packet would not be read. -/
example : silent { timeLimit := 5000 }
    [tot 0 0 1580860800000, tot 1 1 1580860805000, tot 2 2 1580860810000] = false := by decide +kernel

/-- NoPacket, logo_collector_test.cc:9-20. -/
example : (match outcome (LogoCollector.sink fun _ => "") { st := () } [] with
    | .ok (c, h, n) => h.items.isEmpty && c == exitSuccess && n == 0
    | .error _ => false) = true := by decide +kernel

end Mirakc.Tests.Collectors
