import Verif.Proof.ExitCodes
import Verif.Props.MainFilters
/-
Property C132: what the exit code of a command says.
-/
namespace Mirakc.Props
open Mirakc.Main Mirakc.Spec.ExitCodes

/-- **C132.**  Whatever is read, and whichever operations fail: scan-services and sync-clocks succeed exactly with one
document, and fail with none; filter-service ends with 0 or 1; filter-program ends with 0, 1 or 222, and with 222
nothing has been written, unless the PAT was asked for in advance; record-service fails without a message and without
writing to its file, or sends "start" first and "stop" last, and if it reports its file to be broken, it fails; all
other commands end with 0. -/
theorem C132_exit_code (w : World) (cmd : Cmd) (e : Ended) (h : main w cmd = .ok e) : Says cmd e :=
  ExitCodes.code_says h

/-- **C132**, filter-program with `--pre-streaming`: with 222, nothing but packets of the PAT has been written. -/
theorem C132_retry (w : World) (hc : Spec.Pipeline.Faithful w.codec) (a : Options.ProgramArgs) (e : Ended)
    (h : main w (.filterProgram a) = .ok e) (h222 : e.code = 222) : OnlyPat w e.bytes := by
  obtain ⟨o, ho, h⟩ := bind_ok_iff.1 h
  rcases ExitCodes.filterProgram_code (fun _ => hc) h with h | h | ⟨_, ps, h1, h2⟩
  · rw [h] at h222; cases h222
  · rw [h] at h222; cases h222
  · exact ⟨ps, fun p hp => (h1 p hp).1, h2⟩

/-- The event 6 is not in the EIT: 222, with and without the PAT in advance. -/
example : (∃ e, main C95ex.world (.filterProgram { C95ex.args with eid := 6 }) = .ok e ∧
      (decide (e.code = 222 ∧ e.bytes = [])) = true) ∧
    (∃ e, main C95ex.world (.filterProgram { C95ex.args with eid := 6, preStreaming := true }) = .ok e ∧
      (decide (e.code = 222 ∧ e.bytes.length = 188)) = true) ∧
    (∃ e, main C95ex.world (.filterProgram C95ex.args) = .ok e ∧ (decide (e.code = 0 ∧ e.bytes ≠ [])) = true) :=
  ⟨C95ex.check (by decide +kernel), C95ex.check (by decide +kernel), C95ex.check (by decide +kernel)⟩

example : Spec.Pipeline.Faithful C95ex.world.codec := C68ex.faithful

end Mirakc.Props
