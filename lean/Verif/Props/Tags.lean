import Verif.Proof.Tags
import Verif.Props.Margins
/-
Property C145: what component tags remove.
-/
namespace Mirakc.Props
open Mirakc.Main Mirakc.Spec Mirakc.Spec.Main Mirakc.Spec.Pipeline Mirakc.Spec.Margins Mirakc.Spec.Tags

private theorem load_noTags {a : Options.ProgramArgs} {A : ProgramFilter.Opt} (hA : Options.loadProgramFilter a = .ok A) :
    Options.loadProgramFilter { a with audioTags := none, videoTags := none } = .ok (Mirakc.Tags.noTags A) := by
  obtain ⟨c, h1, hA⟩ := bind_ok_iff.1 hA
  obtain ⟨x, h2, hA⟩ := bind_ok_iff.1 hA
  obtain ⟨y, h3, hA⟩ := bind_ok_iff.1 hA
  obtain ⟨z, h4, hA⟩ := bind_ok_iff.1 hA
  cases hA
  exact bind_ok_iff.2 ⟨_, h1, bind_ok_iff.2 ⟨_, rfl, bind_ok_iff.2 ⟨_, rfl, bind_ok_iff.2 ⟨_, h4, rfl⟩⟩⟩⟩

private theorem eventBytes_eq (c : Mirakc.Pipeline.Codec) : Mirakc.Pipeline.programBytes c = eventBytes c := by
  funext x
  cases x <;> rfl

/-- **C145**.  Tags only take away packets of excluded streams: filter-program without them ends with the same exit code, and
apart from the packets of PMTs it writes the same packets in the same order, and between them others, which are on PIDs
excluded by the tags in some PMT of the service. -/
theorem C145_tags (w : World) (hc : Faithful w.codec) (ps : List (List UInt8)) (hr : Reads w ps)
    (hw : ∀ x ∈ w.write, 0 ≤ x) (a : Options.ProgramArgs) (hs : 0 ≤ a.sid ∧ a.sid < 65536)
    (he : 0 ≤ a.eid ∧ a.eid < 65536) (hp : 0 ≤ a.clockPid ∧ a.clockPid < 65536) (e : Ended)
    (h : main w (.filterProgram a) = .ok e) :
    ∃ e', main w (.filterProgram { a with audioTags := none, videoTags := none }) = .ok e' ∧ e'.code = e.code ∧
      ∃ o xs ys, Means a o ∧
        e.bytes = (xs.map (eventBytes w.codec)).flatten ∧ (∀ x ∈ xs, (eventBytes w.codec x).length = 188) ∧
        e'.bytes = (ys.map (eventBytes w.codec)).flatten ∧ (∀ x ∈ ys, (eventBytes w.codec x).length = 188) ∧
        Without (SomeExcluded o (TableOf w)) (originals xs) (originals ys) := by
  obtain ⟨A, hA, h⟩ := bind_ok_iff.1 h
  rw [mapError_ok_iff] at hA
  obtain ⟨e', h1, h2, xs, ys, h3, h4, h5, h6, h7⟩ := (Mirakc.Tags.filterProgram_tags hc hr hw A).1 e h
  rw [Mirakc.PreStreaming.bytesOf, eventBytes_eq] at h6 h7
  refine ⟨e', bind_ok_iff.2 ⟨_, mapError_ok_iff.2 (load_noTags hA), h1⟩, h2, A, xs, ys, load_means hs he hp hA, h6, ?_, h7, ?_, h3⟩
  · rw [← eventBytes_eq]; exact h4
  · rw [← eventBytes_eq]; exact h5

/-- **C145**, the converse: unless the tags are refused, the command ends regularly with them if it does without. -/
theorem C145_tags_end (w : World) (hc : Faithful w.codec) (ps : List (List UInt8)) (hr : Reads w ps)
    (hw : ∀ x ∈ w.write, 0 ≤ x) (a : Options.ProgramArgs) (e' : Ended)
    (h : main w (.filterProgram { a with audioTags := none, videoTags := none }) = .ok e') :
    (∃ e, main w (.filterProgram a) = .ok e) ∨ ∃ r, main w (.filterProgram a) = .error (.refused r) := by
  cases hA : Options.loadProgramFilter a with
  | error r =>
    right
    refine ⟨r, ?_⟩
    show ((Options.loadProgramFilter a).mapError Stop.refused >>= fun o => Main.filterProgram w o) = _
    rw [hA]
    rfl
  | ok A =>
    left
    obtain ⟨B, hB, h⟩ := bind_ok_iff.1 h
    rw [mapError_ok_iff, load_noTags hA] at hB
    cases hB
    obtain ⟨e, h1⟩ := (Mirakc.Tags.filterProgram_tags hc hr hw A).2 e' h
    exact ⟨e, bind_ok_iff.2 ⟨A, mapError_ok_iff.2 hA, h1⟩⟩

/-- A tag that the video of the example does not have. -/
example : Faithful C142ex.world.codec ∧ Reads C142ex.world C142ex.ps ∧ (∀ x ∈ C142ex.world.write, 0 ≤ x) ∧
    (∃ e, main C142ex.world (.filterProgram { C95ex.args with videoTags := some [['1']] }) = .ok e ∧
      decide (e.bytes.length = 188 * 4) = true) ∧
    ∃ e, main C142ex.world (.filterProgram { C95ex.args with audioTags := none, videoTags := none }) = .ok e ∧
      decide (e.bytes.length = 188 * 5) = true :=
  ⟨C68ex.faithful, C142ex.reads, C95ex.writes, C95ex.check (by decide +kernel), C95ex.check (by decide +kernel)⟩

end Mirakc.Props
