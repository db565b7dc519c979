import Verif.Spec.PesPrinter
import Verif.Spec.Aborts
/-
Which packets print-pes cannot print.
-/
namespace Mirakc.Spec.PesPrinter

/-- The packet cannot be printed: its PCR is out of range, and there is a clock on its PID; or
its PTS or DTS has not 33 bits. -/
def Unprintable (l : List PEv) (p : Packet) : Prop := (HasClock p.pid l ∧ ¬ PcrInRange p) ∨ ¬ Stamps33 p

end Mirakc.Spec.PesPrinter
