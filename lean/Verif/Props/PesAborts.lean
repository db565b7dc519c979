import Verif.Proof.PesAborts
import Verif.Props.PesPrinter
/-
Property C106: exactly which streams make print-pes terminate abnormally.
-/
namespace Mirakc.Props
open Mirakc.Spec Mirakc.Spec.PesPrinter

/-- **C106**.  print-pes terminates abnormally exactly at the first packet, before its end, that
cannot be printed: its PCR is out of range and an earlier PMT named its PID as the PID of a clock,
or its PTS or DTS is out of range.  All other streams are printed to the end. -/
theorem C106_print_pes (is : List Input) :
    (Aborts PesPrinter.sink { st := {} } is ↔
      StopsAt PesPrinter.sink {} (fun items i => Unprintable (log items) i.packet) is) ∧
    ((∃ code h, Printed is code h) ↔
      ¬ StopsAt PesPrinter.sink {} (fun items i => Unprintable (log items) i.packet) is) := by
  refine ⟨PesPrinter.aborts, ?_⟩
  rw [← PesPrinter.aborts]
  rcases aborts_or_ran PesPrinter.sink { st := {} } is with ⟨h1, h2⟩ | ⟨h1, h2⟩
  · exact ⟨fun h => absurd h h2, fun h => absurd h1 h⟩
  · exact ⟨fun _ => h1, fun _ => h2⟩

/-- Non-trivial cases for C106: a PCR out of range is no problem before the PMT, and one after
it. -/
example : (∃ code h, Printed [C60ex.pcr (2 ^ 33 * 300), C60ex.tab C60ex.pat, C60ex.tab C60ex.pmt] code h) ∧
    StopsAt PesPrinter.sink {} (fun items i => Unprintable (log items) i.packet)
      [C60ex.pcr (2 ^ 33 * 300), C60ex.tab C60ex.pat, C60ex.tab C60ex.pmt, C60ex.pcr 5, C60ex.pcr (2 ^ 33 * 300),
        C60ex.pcr 6] := by
  rw [(C106_print_pes _).2, ← (C106_print_pes _).1, ← (C106_print_pes _).1]
  exact ⟨not_aborts_of_check (by decide +kernel), aborts_of_check (by decide +kernel)⟩

end Mirakc.Props
