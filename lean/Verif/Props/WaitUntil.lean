import Verif.Proof.WaitUntil
import Verif.Props.MainFilters
/-
Property C138: what `--wait-until` changes.
-/
namespace Mirakc.Props
open Mirakc.Main Mirakc.Spec.Main Mirakc.Spec.Pipeline

/-- **C138**, another time.  If filter-program ends with `--wait-until` and a time, and not with the exit code 222, it does
exactly the same with a later time. -/
theorem C138_later (w : World) (ps : List (List UInt8)) (hr : Reads w ps) (a : Options.ProgramArgs) (t t' : Int)
    (ht : t ≤ t') (hmax : t' + 32400000 < 2 ^ 63) (e : Ended)
    (h : main w (.filterProgram { a with waitUntil := some t }) = .ok e) (hc : e.code ≠ 222) :
    main w (.filterProgram { a with waitUntil := some t' }) = .ok e := by
  obtain ⟨o, ho, h⟩ := bind_ok_iff.1 h
  rw [mapError_ok_iff] at ho
  obtain ⟨c, h1, ho⟩ := bind_ok_iff.1 ho
  obtain ⟨x, h2, ho⟩ := bind_ok_iff.1 ho
  obtain ⟨y, h3, ho⟩ := bind_ok_iff.1 ho
  obtain ⟨z, h4, ho⟩ := bind_ok_iff.1 ho
  obtain ⟨u, h5, h4⟩ := bind_ok_iff.1 h4
  have h6 : Options.toJst t' = .ok (t' + 32400000) ∧ u = t + 32400000 := by
    unfold Options.toJst unixToJst at h5 ⊢
    simp only [show ∀ x : Int, jstTzOffset + x = x + 32400000 from fun x => Int.add_comm _ _] at h5 ⊢
    split at h5
    · next hh =>
      cases h5
      simp only [Bool.and_eq_true, decide_eq_true_eq] at hh
      rw [if_pos (by simp; omega)]
      exact ⟨rfl, rfl⟩
    · cases h5
  obtain ⟨h6, rfl⟩ := h6
  cases h4
  have ho' : Options.loadProgramFilter { a with waitUntil := some t' } = .ok (WaitUntil.until_ (some (t' + 32400000)) o) := by
    cases ho
    exact bind_ok_iff.2 ⟨c, h1, bind_ok_iff.2 ⟨x, h2, bind_ok_iff.2 ⟨y, h3, bind_ok_iff.2 ⟨_, bind_ok_iff.2 ⟨_, h6, rfl⟩, rfl⟩⟩⟩⟩
  have hA : WaitUntil.until_ (some (t + 32400000)) o = o := by cases ho; rfl
  refine bind_ok_iff.2 ⟨_, mapError_ok_iff.2 ho', ?_⟩
  refine WaitUntil.filterProgram_lenient hr (A := o) (B := WaitUntil.until_ (some (t' + 32400000)) o) rfl rfl rfl (fun n x y _ => ?_) h hc
  have := WaitUntil.lenient_later (t := t + 32400000) (t' := t' + 32400000) (by omega) o y
  rwa [hA] at this

/-- **C138**, none.  If filter-program ends without `--wait-until`, and not with the exit code 222, it does exactly the same
with a time that no TOT of the stream exceeds. -/
theorem C138_without (w : World) (ps : List (List UInt8)) (hr : Reads w ps) (a : Options.ProgramArgs) (t : Int)
    (hmin : -2 ^ 63 ≤ t + 32400000) (hmax : t + 32400000 < 2 ^ 63)
    (htot : ∀ n x, ∀ y ∈ w.tables2 n x, ∀ time, y.body = .tot time → y.valid = true → time ≤ t + 32400000) (e : Ended)
    (h : main w (.filterProgram { a with waitUntil := none }) = .ok e) (hc : e.code ≠ 222) :
    main w (.filterProgram { a with waitUntil := some t }) = .ok e := by
  obtain ⟨o, ho, h⟩ := bind_ok_iff.1 h
  rw [mapError_ok_iff] at ho
  obtain ⟨c, h1, ho⟩ := bind_ok_iff.1 ho
  obtain ⟨x, h2, ho⟩ := bind_ok_iff.1 ho
  obtain ⟨y, h3, ho⟩ := bind_ok_iff.1 ho
  obtain ⟨z, h4, ho⟩ := bind_ok_iff.1 ho
  cases h4
  have h6 : Options.toJst t = .ok (t + 32400000) := by
    unfold Options.toJst unixToJst
    simp only [show ∀ x : Int, jstTzOffset + x = x + 32400000 from fun x => Int.add_comm _ _]
    rw [if_pos (by simp; omega)]
  have ho' : Options.loadProgramFilter { a with waitUntil := some t } = .ok (WaitUntil.until_ (some (t + 32400000)) o) := by
    cases ho
    exact bind_ok_iff.2 ⟨c, h1, bind_ok_iff.2 ⟨x, h2, bind_ok_iff.2 ⟨y, h3, bind_ok_iff.2 ⟨_, bind_ok_iff.2 ⟨_, h6, rfl⟩, rfl⟩⟩⟩⟩
  have hA : WaitUntil.until_ none o = o := by cases ho; rfl
  refine bind_ok_iff.2 ⟨_, mapError_ok_iff.2 ho', ?_⟩
  refine WaitUntil.filterProgram_lenient hr (A := o) (B := WaitUntil.until_ (some (t + 32400000)) o) rfl rfl rfl (fun n x y hy => ?_) h hc
  have := WaitUntil.lenient_without (t' := t + 32400000) o y (htot n x y hy)
  rwa [hA] at this

namespace C138ex

/-- A stream with a TOT before the programme. -/
def ps : List (List UInt8) := C68ex.ps.take 2 ++ [C68ex.raw 0x14 0 7] ++ C68ex.ps.drop 2
/-- The tables completed by its packets. -/
def tabs : Nat → List Table
  | 0 => [C68ex.pat]
  | 1 => [C68ex.pmt]
  | 2 => [{ sourcePid := 0x14, body := .tot 50 }]
  | 3 => [C26ex.eit]
  | _ => []
/-- The tables found behind the service filter. -/
def tabs' : Nat → ServiceFilter.Out → List Table
  | n, .orig p => if p.pid = 0x14 then [{ sourcePid := 0x14, body := .tot 50 }] else C68ex.tabs' n (.orig p)
  | n, x => C68ex.tabs' n x
def world : World :=
  { C95ex.world with tables := tabs, tables2 := tabs', read := ps.map some }
theorem reads : Reads world ps := by
  refine ⟨fun r hr => ?_, ?_⟩
  · have : ∀ r ∈ world.read, (r.getD []).length ≤ 16384 := by decide +kernel
    exact this _ hr
  · have : contents world = ps.flatten := by decide +kernel
    rw [this]
    exact Mirakc.Pipeline.packets_flatten (by decide +kernel)
theorem tots : ∀ n x, ∀ y ∈ world.tables2 n x, ∀ time, y.body = .tot time → y.valid = true → time ≤ -32399950 + 32400000 := by
  intro n x y hy time hb _
  change y ∈ tabs' n x at hy
  unfold tabs' at hy
  split at hy
  · split at hy
    · simp only [List.mem_singleton] at hy
      subst hy
      cases hb
      decide
    · simp only [C68ex.tabs'] at hy
      repeat' split at hy
      all_goals first | (simp only [List.mem_singleton] at hy; subst hy; cases hb) | cases hy
  · simp only [C68ex.tabs'] at hy
    repeat' split at hy
    all_goals first | (simp only [List.mem_singleton] at hy; subst hy; cases hb) | cases hy

end C138ex

/-- The TOT says 50 ms after the beginning of 1970 in Japan: a programme is written with the time limit of the TOT and
without a limit; with an earlier limit nothing is written and the exit code is 222. -/
example : Reads C138ex.world C138ex.ps ∧
    (∃ e, main C138ex.world (.filterProgram { C95ex.args with waitUntil := some (-32399950) }) = .ok e ∧
      (decide (e.code = 0 ∧ e.bytes.length > 188)) = true) ∧
    (∃ e, main C138ex.world (.filterProgram { C95ex.args with waitUntil := none }) = .ok e ∧
      (decide (e.code = 0 ∧ e.bytes.length > 188)) = true) ∧
    (∃ e, main C138ex.world (.filterProgram { C95ex.args with waitUntil := some (-32399951) }) = .ok e ∧
      (decide (e.code = 222 ∧ e.bytes = [])) = true) :=
  ⟨C138ex.reads, C95ex.check (by decide +kernel), C95ex.check (by decide +kernel), C95ex.check (by decide +kernel)⟩

end Mirakc.Props
