import Verif.Proof.PreStreaming
import Verif.Props.MainFilters
/-
Property C133: what `--pre-streaming` adds.
-/
namespace Mirakc.Props
open Mirakc.Main Mirakc.Spec.Main Mirakc.Spec.Pipeline

/-- **C133.**  If no write fails, and filter-program ends normally without `--pre-streaming`, it ends normally with it,
with the same exit code, and what it writes is the same behind some more packets of the PAT of the service. -/
theorem C133_pre_streaming (w : World) (hc : Faithful w.codec) (ps : List (List UInt8)) (hr : Reads w ps)
    (hw : ∀ x ∈ w.write, 0 ≤ x) (a : Options.ProgramArgs) (e : Ended)
    (h : main w (.filterProgram { a with preStreaming := false }) = .ok e) :
    ∃ e', main w (.filterProgram { a with preStreaming := true }) = .ok e' ∧
      e'.code = e.code ∧ e'.docs = e.docs ∧ e'.ops = e.ops ∧
      ∃ pats : List (Pat × Nat), e'.bytes = (pats.map fun x => w.codec.patBytes x.1 x.2).flatten ++ e.bytes := by
  obtain ⟨o, ho, h⟩ := bind_ok_iff.1 h
  rw [mapError_ok_iff] at ho
  obtain ⟨t, h1, ho⟩ := bind_ok_iff.1 ho
  obtain ⟨x, h2, ho⟩ := bind_ok_iff.1 ho
  obtain ⟨y, h3, ho⟩ := bind_ok_iff.1 ho
  obtain ⟨z, h4, ho⟩ := bind_ok_iff.1 ho
  have ho' : Options.loadProgramFilter { a with preStreaming := true } = .ok (PreStreaming.on o) := by
    cases ho
    exact bind_ok_iff.2 ⟨t, h1, bind_ok_iff.2 ⟨x, h2, bind_ok_iff.2 ⟨y, h3, bind_ok_iff.2 ⟨z, h4, rfl⟩⟩⟩⟩
  have hoff : PreStreaming.off o = o := by cases ho; rfl
  obtain ⟨e', h5, h6⟩ := PreStreaming.filterProgram_both hc hr hw o (by rw [hoff]; exact h)
  exact ⟨e', bind_ok_iff.2 ⟨_, mapError_ok_iff.2 ho', h5⟩, h6⟩

/-- The event 6 does not come: nothing without, and the packet of the PAT with `--pre-streaming`. -/
example : Faithful C95ex.world.codec ∧ Reads C95ex.world C68ex.ps ∧ (∀ x ∈ C95ex.world.write, 0 ≤ x) ∧
    (∃ e, main C95ex.world (.filterProgram { C95ex.args with eid := 6, preStreaming := false }) = .ok e ∧
      (decide (e.bytes = [])) = true) ∧
    (∃ e, main C95ex.world (.filterProgram { C95ex.args with eid := 6, preStreaming := true }) = .ok e ∧
      (decide (e.bytes.length = 188)) = true) ∧
    (∃ e, main C95ex.world (.filterProgram { C95ex.args with preStreaming := false }) = .ok e ∧
      (decide (e.bytes ≠ [])) = true) :=
  ⟨C68ex.faithful, C95ex.reads, C95ex.writes, C95ex.check (by decide +kernel), C95ex.check (by decide +kernel),
    C95ex.check (by decide +kernel)⟩

end Mirakc.Props
