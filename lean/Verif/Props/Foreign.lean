import Verif.Spec.Foreign
import Verif.Proof.Foreign
import Verif.Props.MainFilters
import Verif.Props.MainAborts
/-
C125: packets that are not for the service do not matter.
-/
namespace Mirakc.Props
open Mirakc.Main Mirakc.Spec.Main Mirakc.Spec.Pipeline Mirakc.Spec.ServiceFilter

/-- **C125**.  filter-service, filter-program and record-service for a service: a packet that is not
to be forwarded after the tables received before it, and that completes no table on its own PID or
is not a PAT, CAT or null packet, can be removed from the input: everything the command does stays
the same. -/
theorem C125_foreign (w : World) (a c : List (List UInt8)) (b : List UInt8) (hr : Reads w (a ++ b :: c))
    (op : Bool) (rd : List (Option (List UInt8))) (hr' : Reads (without w a.length op rd) (a ++ c))
    (sid : Nat) (hs : sid < 65536) (cmd : Cmd) (hc : Serves sid cmd)
    (hf : ∀ f items, ServiceFilter.run { sid := sid } (ServiceFilter.init { sid := sid })
        (seen (arrived w.codec w.tables) 0 a) = .ok (f, items) → (∀ it ∈ items, it.act ≠ .stop) →
      ¬ Forward sid (received items) (w.codec.packet b).pid)
    (ht : (∀ t ∈ w.tables a.length, t.sourcePid ≠ (w.codec.packet b).pid) ∨
      ((w.codec.packet b).pid ≠ 0 ∧ (w.codec.packet b).pid ≠ 1 ∧ (w.codec.packet b).pid ≠ 0x1FFF)) :
    main w cmd = main (without w a.length op rd) cmd := by
  have hu : Options.toUint16 (sid : Int) = sid := by
    unfold Options.toUint16; omega
  cases cmd with
  | filterService s =>
    cases hc
    simp only [main, Options.loadServiceFilter, hu, filterService, Pipeline.filterService]
    have h1 := feed_around hr (Pipeline.input w.codec w.tables)
      (ServiceFilter.sink { sid := sid } (Pipeline.via (fun _ => Pipeline.outBytes w.codec) StdoutSink.sink))
      (ServiceFilter.init { sid := sid }, 0, StdoutSink.init w.write)
      (fun r => Except.ok (ε := Stop) { code := r.1, bytes := r.2.2.2.out : Ended })
    have h2 := feed_around hr' (Pipeline.input w.codec (without w a.length op rd).tables)
      (ServiceFilter.sink { sid := sid } (Pipeline.via (fun _ => Pipeline.outBytes w.codec) StdoutSink.sink))
      (ServiceFilter.init { sid := sid }, 0, StdoutSink.init w.write)
      (fun r => Except.ok (ε := Stop) { code := r.1, bytes := r.2.2.2.out : Ended })
    rw [around_skip hf ht _ _ op rd] at h1
    exact h1.trans h2.symm
  | filterProgram ar =>
    have hc : ar.sid = sid := hc
    simp only [main]
    cases ho : Options.loadProgramFilter ar with
    | error e => rfl
    | ok o =>
      have hos : o.sid = sid := by
        unfold Options.loadProgramFilter at ho
        obtain ⟨_, _, ho⟩ := bind_ok_iff.1 ho
        obtain ⟨_, _, ho⟩ := bind_ok_iff.1 ho
        obtain ⟨_, _, ho⟩ := bind_ok_iff.1 ho
        obtain ⟨_, _, ho⟩ := bind_ok_iff.1 ho
        cases ho
        show Options.toUint16 ar.sid = sid
        rw [hc, hu]
      show filterProgram w o = filterProgram (without w a.length op rd) o
      unfold filterProgram Pipeline.filterProgram
      rw [hos]
      have h1 := feed_around hr (Pipeline.input w.codec w.tables)
        (ServiceFilter.sink { sid := sid } (Pipeline.via (Pipeline.between w.codec w.tables2)
          (ProgramFilter.sink w.extra o (Pipeline.via (fun _ => Pipeline.programBytes w.codec) StdoutSink.sink))))
        (ServiceFilter.init { sid := sid }, 0, ProgramFilter.init o, 0, StdoutSink.init w.write)
        (fun r => Except.ok (ε := Stop) { code := r.1, bytes := r.2.2.2.2.2.out : Ended })
      have h2 := feed_around hr' (Pipeline.input w.codec (without w a.length op rd).tables)
        (ServiceFilter.sink { sid := sid } (Pipeline.via (Pipeline.between w.codec w.tables2)
          (ProgramFilter.sink w.extra o (Pipeline.via (fun _ => Pipeline.programBytes w.codec) StdoutSink.sink))))
        (ServiceFilter.init { sid := sid }, 0, ProgramFilter.init o, 0, StdoutSink.init w.write)
        (fun r => Except.ok (ε := Stop) { code := r.1, bytes := r.2.2.2.2.2.out : Ended })
      rw [around_skip hf ht _ _ op rd] at h1
      exact h1.trans h2.symm
  | recordService s cs nc sp =>
    have hc : s = sid := hc
    simp only [main]
    cases ho : Options.loadRecorder s cs nc sp with
    | error e => rfl
    | ok o =>
      have hos : o.sid = sid := by
        subst hc
        unfold Options.loadRecorder at ho
        dsimp only at ho
        repeat' split at ho
        all_goals cases ho
        all_goals exact hu
      show recordService w o = recordService (without w a.length op rd) o
      unfold recordService Pipeline.recordService
      rw [hos]
      have e1 : (without w a.length op rd).file = w.file := rfl
      rw [e1]
      cases ServiceRecorder.init o w.file with
      | error e => rfl
      | ok h0 =>
        have h1 := feed_around hr (Pipeline.input w.codec w.tables)
          (ServiceFilter.sink { sid := sid } (Pipeline.via (Pipeline.betweenRec w.codec w.tables2 w.times)
            (ServiceRecorder.sink o)))
          (ServiceFilter.init { sid := sid }, 0, h0)
          (fun r => Except.ok (ε := Stop)
            { code := r.1, docs := messages r.2.2.2.trace, ops := operations r.2.2.2.trace : Ended })
        have h2 := feed_around hr' (Pipeline.input w.codec (without w a.length op rd).tables)
          (ServiceFilter.sink { sid := sid } (Pipeline.via (Pipeline.betweenRec w.codec w.tables2 w.times)
            (ServiceRecorder.sink o)))
          (ServiceFilter.init { sid := sid }, 0, h0)
          (fun r => Except.ok (ε := Stop)
            { code := r.1, docs := messages r.2.2.2.trace, ops := operations r.2.2.2.trace : Ended })
        rw [around_skip hf ht _ _ op rd] at h1
        exact h1.trans h2.symm
  | _ => exact hc.elim

namespace C125ex

/-- The stream of C68 up to the packet of another service. -/
def a : List (List UInt8) := C68ex.ps.take 4
/-- The packet of the other service. -/
def b : List UInt8 := C68ex.raw 0x211 0 4
/-- The rest. -/
def c : List (List UInt8) := C68ex.ps.drop 5
/-- Without it, read at once. -/
def world : World := without C95ex.world a.length C95ex.world.opened [some (a ++ c).flatten]
theorem reads : Reads C95ex.world (a ++ b :: c) := by
  have : a ++ b :: c = C68ex.ps := rfl
  rw [this]; exact C95ex.reads
theorem reads' : Reads world (a ++ c) := by
  refine ⟨fun r hr => ?_, ?_⟩
  · have : ∀ r ∈ world.read, (r.getD []).length ≤ 16384 := by decide +kernel
    exact this _ hr
  · have : contents world = (a ++ c).flatten := by decide +kernel
    rw [this]
    exact Mirakc.Pipeline.packets_flatten (by decide +kernel)
theorem foreign : ∀ f items, ServiceFilter.run { sid := 1 } (ServiceFilter.init { sid := 1 })
    (seen (arrived C95ex.world.codec C95ex.world.tables) 0 a) = .ok (f, items) →
    ¬ Forward 1 (received items) (C95ex.world.codec.packet b).pid := by
  intro f items h hf
  have key : (match ServiceFilter.run { sid := 1 } (ServiceFilter.init { sid := 1 })
      (seen (arrived C95ex.world.codec C95ex.world.tables) 0 a) with
    | .ok (f, _) => decide (f.error = false) && ServiceFilter.checkFilterForDrop f (C95ex.world.codec.packet b).pid
    | _ => false) = true := by decide +kernel
  rw [h] at key
  simp only [Bool.and_eq_true, decide_eq_true_eq] at key
  have hI := (ServiceFilter.run_spec _ _ _ [] items (ServiceFilter.inv_init _) h).1
  rw [(ServiceFilter.checkFilter_spec hI key.1 _).2 hf] at key
  exact absurd key.2 (by simp)

end C125ex

/-- The fifth packet of the stream of C68 is on PID 0x211, which belongs to another service: the
three commands do the same without it. -/
example : Reads C95ex.world (C125ex.a ++ C125ex.b :: C125ex.c) ∧ Reads C125ex.world (C125ex.a ++ C125ex.c) ∧
    (C95ex.world.codec.packet C125ex.b).pid = 0x211 ∧
    (∀ f items, ServiceFilter.run { sid := 1 } (ServiceFilter.init { sid := 1 })
        (seen (arrived C95ex.world.codec C95ex.world.tables) 0 C125ex.a) = .ok (f, items) →
      ¬ Forward 1 (received items) (C95ex.world.codec.packet C125ex.b).pid) ∧
    ∀ cmd ∈ [Cmd.filterService (some 1), .filterProgram C95ex.args], Serves 1 cmd ∧
      ∃ e, main C125ex.world cmd = .ok e ∧ main C95ex.world cmd = .ok e ∧ e.bytes ≠ [] := by
  refine ⟨C125ex.reads, C125ex.reads', by decide +kernel, C125ex.foreign, fun cmd hc => ?_⟩
  have hs : Serves 1 cmd := by
    simp only [List.mem_cons, List.not_mem_nil, or_false] at hc
    rcases hc with rfl | rfl <;> rfl
  refine ⟨hs, ?_⟩
  have key : ∀ cmd ∈ [Cmd.filterService (some 1), .filterProgram C95ex.args],
      (match main C95ex.world cmd with | .ok e => decide (e.bytes ≠ []) | .error _ => false) = true := by decide +kernel
  obtain ⟨e, h1, h2⟩ := C95ex.check (r := main C95ex.world cmd) (P := fun e => decide (e.bytes ≠ [])) (key cmd hc)
  refine ⟨e, ?_, h1, of_decide_eq_true h2⟩
  rw [← h1]
  exact (C125_foreign C95ex.world C125ex.a C125ex.c C125ex.b C125ex.reads _ _ C125ex.reads' 1 (by decide) cmd hs
    (fun f items h _ => C125ex.foreign f items h) (.inr (by decide +kernel))).symm

end Mirakc.Props
