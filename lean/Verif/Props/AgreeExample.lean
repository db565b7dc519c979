import Verif.Props.Agree
/-
A longer example for C136: a recording of which a block of 8192 bytes is written.
-/
namespace Mirakc.Props
open Mirakc.Main Mirakc.Spec Mirakc.Spec.Main Mirakc.Spec.Pipeline

namespace C136ex
open C68ex (raw clk)

/-- A stream to be recorded: PAT, PMT, EIT, a PCR, TOT, a PCR, 20 packets of the video, another EIT, a PCR, 26 packets of
the video, among them some of another service. -/
def ps : List (List UInt8) :=
  [raw 0 0 1, raw 0x100 0 2, raw 0x12 0 3, clk 0x1ff 900100, raw 0x14 0 4, clk 0x1ff 900200, raw 0x211 0 5] ++
    List.replicate 20 (raw 0x111 0 6) ++ [raw 0x12 1 7, clk 0x1ff 1000000, raw 0x211 1 5] ++
    List.replicate 26 (raw 0x111 0 8)
/-- The tables delivered to the service filter. -/
def tabs : Nat → List Table
  | 0 => [C68ex.pat]
  | 1 => [C68ex.pmt]
  | _ => []
/-- The tables behind the service filter. -/
def tabs' : Nat → ServiceFilter.Out → List Table
  | _, .pat p _ => [{ sourcePid := 0, body := .pat p }]
  | n, .orig p =>
    if p.pid = 0x100 then [C68ex.pmt]
    else if p.pid = 0x12 then [C58ex.eit 1 [⟨if n < 20 then 5 else 6, 32400000, 60, 0⟩]]
    else if p.pid = 0x14 then [C52ex.tot 32400000] else []
/-- Every read delivers a packet, and everything can be written. -/
def world : World :=
  { C95ex.world with tables := tabs, tables2 := tabs', read := ps.map some, file := List.replicate 20 8192 }
theorem reads : Reads world ps := by
  refine ⟨fun r hr => ?_, ?_⟩
  · have : ∀ r ∈ world.read, (r.getD []).length ≤ 16384 := by decide +kernel
    exact this _ hr
  · have hne : ∀ l : List (List UInt8), (∀ b ∈ l, b ≠ []) → upToEnd (l.map some) = l.flatten := by
      intro l h
      induction l with
      | nil => rfl
      | cons r l ih =>
        cases r with
        | nil => exact absurd rfl (h [] (by simp))
        | cons x r => simp only [List.map_cons, upToEnd, ih (fun b hb => h b (by simp [hb])), List.flatten_cons]
    have : contents world = ps.flatten := hne ps (by decide +kernel)
    rw [this]
    exact Mirakc.Pipeline.packets_flatten (by decide +kernel)

/-- The recording. -/
theorem recorded : ∃ e, main C136ex.world (.recordService 1 8192 2 (some 8192)) = .ok e ∧
    decide (e.code = 0 ∧ (written e.ops).length = 8192 ∧ e.docs.length = 8) = true := C95ex.check (by decide +kernel)

end C136ex

example : Faithful C136ex.world.codec ∧ Reads C136ex.world C136ex.ps ∧ (∀ x ∈ C136ex.world.write, 0 ≤ x) ∧
    (∃ e, main C136ex.world (.filterService (some 1)) = .ok e ∧ decide (e.code = 0 ∧ e.bytes.length = 188 * 54) = true) ∧
    ∃ e, main C136ex.world (.recordService 1 8192 2 (some 8192)) = .ok e ∧
      decide (e.code = 0 ∧ (written e.ops).length = 8192 ∧ e.docs.length = 8) = true :=
  ⟨C68ex.faithful, C136ex.reads, C95ex.writes, C95ex.check (by decide +kernel), C136ex.recorded⟩

end Mirakc.Props
