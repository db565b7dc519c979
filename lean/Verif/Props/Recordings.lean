import Verif.Props.Joined
import Verif.Props.AgreeExample
/-
Property C151: recordings of the same broadcast started at different times.
-/
namespace Mirakc.Props
open Mirakc.Main Mirakc.Spec Mirakc.Spec.Main Mirakc.Spec.Pipeline Mirakc.Spec.Joined
open Mirakc.Spec.ServiceFilter (usablePat validCat)

/-- **C151.**  Of a broadcast whose tables do not change, let one record-service read the packets `qs`, which bring the
tables of the service, and then `ps`, and another, started later, only `ps`; the sizes of their ring files, the positions
where they begin and which tables the demultiplexers deliver with which packets may differ.  Then the data they write to
their files, all writes one after the other, is that of one and the same stream from some packet on, as far as complete
blocks of 8192 bytes go; less if a file operation failed.  That is to say, of each packet of `ps` they have the same,
except that in the later one packets may be missing that come before it has received the tables of the service, and that the
PAT packets are counted differently.  Unless a file operation failed they end with 0. -/
theorem C151_recordings (w w' : World) (hc : Faithful w.codec) (hcc : w'.codec = w.codec) (qs ps : List (List UInt8))
    (hr : Reads w (qs ++ ps)) (hr' : Reads w' ps) (sid : Nat) (hs : sid < 65536) (T : Table → Prop) (hS : Steady sid T)
    (hT : ∀ n, ∀ t ∈ w.tables n, T t) (hT' : ∀ n, ∀ t ∈ w'.tables n, T t)
    (hK : Known w.codec w.tables sid (∃ t, T t ∧ validCat t ≠ none) qs)
    (chunk num : Int) (start : Option Nat) (hk : -2 ^ 63 ≤ chunk ∧ chunk < 2 ^ 63) (hn : -2 ^ 63 ≤ num ∧ num < 2 ^ 63)
    (chunk' num' : Int) (start' : Option Nat) (hk' : -2 ^ 63 ≤ chunk' ∧ chunk' < 2 ^ 63)
    (hn' : -2 ^ 63 ≤ num' ∧ num' < 2 ^ 63) (e e' : Ended) (h : main w (.recordService sid chunk num start) = .ok e)
    (h' : main w' (.recordService sid chunk' num' start') = .ok e') :
    ∃ (before : List UInt8) (xs ys : List (List UInt8)) (n m : Nat),
      Joined w.codec (fun n => Known w.codec w'.tables sid (∃ t, T t ∧ validCat t ≠ none) (ps.take (n + 1))) 0 ps xs ys ∧
      (188 * n ≤ (before ++ xs.flatten).length ∧ written e.ops <+: (before ++ xs.flatten).drop (188 * n) ∧
        (.failed ∉ e.ops → e.code = 0 ∧ written e.ops = ((before ++ xs.flatten).drop (188 * n)).take
          (((before ++ xs.flatten).length - 188 * n) / 8192 * 8192))) ∧
      (188 * m ≤ ys.flatten.length ∧ written e'.ops <+: ys.flatten.drop (188 * m) ∧
        (.failed ∉ e'.ops → e'.code = 0 ∧ written e'.ops = (ys.flatten.drop (188 * m)).take
          ((ys.flatten.length - 188 * m) / 8192 * 8192))) := by
  -- what filter-service would write to a standard output that takes everything
  have g : main { w with write := [] } (.recordService sid chunk num start) = .ok e := h
  have g' : main { w' with write := [] } (.recordService sid chunk' num' start') = .ok e' := h'
  obtain ⟨f, f', before, xs, ys, a1, a2, a3, a4, a5, a6, a7, _⟩ := C147_joined { w with write := [] } { w' with write := [] }
    hc hcc qs ps hr hr' (by simp) (by simp) sid hs T hS hT hT' hK
  obtain ⟨⟨n, n1, n2, n3⟩, n4⟩ := C136_record_service { w with write := [] } hc _ hr (by simp) sid hs chunk num start hk hn
    f e a1 g
  obtain ⟨⟨m, m1, m2, m3⟩, m4⟩ := C136_record_service { w' with write := [] } (by rw [show ({ w' with write := [] } : World).codec = w.codec from hcc]; exact hc) _ hr' (by simp) sid hs
    chunk' num' start' hk' hn' f' e' a2 g'
  rw [a5] at n1 n2 n3
  rw [a6] at m1 m2 m3
  exact ⟨before, xs, ys, n, m, a7, ⟨by omega, n2, fun hf => ⟨(n4 hf).trans a3, n3 hf⟩⟩,
    ⟨by omega, m2, fun hf => ⟨(m4 hf).trans a4, m3 hf⟩⟩⟩

namespace C151ex
open C68ex (raw pat pmt)
open C147ex (T)

/-- The packets that only the first to start reads. -/
def qs : List (List UInt8) := [raw 0 0 1, raw 0x100 0 2, raw 0x111 0 5]
/-- The world of the first; that of the other is `C136ex.world`. -/
def world : World := { C136ex.world with read := (qs ++ C136ex.ps).map some }

theorem reads : Reads world (qs ++ C136ex.ps) := by
  refine ⟨fun r hr => ?_, ?_⟩
  · have : ∀ r ∈ world.read, (r.getD []).length ≤ 16384 := by decide +kernel
    exact this _ hr
  · have hne : ∀ l : List (List UInt8), (∀ b ∈ l, b ≠ []) → upToEnd (l.map some) = l.flatten := by
      intro l h
      induction l with
      | nil => rfl
      | cons r l ih =>
        cases r with
        | nil => exact absurd rfl (h [] (by simp))
        | cons x r => simp only [List.map_cons, upToEnd, ih (fun b hb => h b (by simp [hb])), List.flatten_cons]
    have : contents world = (qs ++ C136ex.ps).flatten := hne (qs ++ C136ex.ps) (by decide +kernel)
    rw [this]
    exact Mirakc.Pipeline.packets_flatten (by decide +kernel)

theorem tabs_T : ∀ n, ∀ t ∈ C136ex.tabs n, T t := by
  intro n t ht
  unfold C136ex.tabs at ht
  split at ht
  · exact .inl (by simpa using ht)
  · exact .inr (by simpa using ht)
  · cases ht

theorem known : Known C68ex.codec C136ex.tabs 1 (∃ t, T t ∧ validCat t ≠ none) qs := by
  refine ⟨⟨0, 1, pat, pmt, _, _, by decide, ⟨by simp [C136ex.tabs], _, rfl, ?_⟩, rfl, ⟨by simp [C136ex.tabs], _, rfl, ?_⟩,
    rfl, ?_⟩, fun h => absurd h C147ex.no_cat⟩
  · decide +kernel
  · decide +kernel
  · decide

end C151ex

open C151ex in
/-- Non-trivial case for C151: two recordings with different ring files, each with a complete block. -/
example : Faithful C68ex.codec ∧ Reads world (qs ++ C136ex.ps) ∧ Reads C136ex.world C136ex.ps ∧ Steady 1 C147ex.T ∧
    (∀ n, ∀ t ∈ C136ex.tabs n, C147ex.T t) ∧
    Known C68ex.codec C136ex.tabs 1 (∃ t, C147ex.T t ∧ validCat t ≠ none) qs ∧
    (∃ e, main world (.recordService 1 8192 3 none) = .ok e ∧
      decide (e.code = 0 ∧ (written e.ops).length = 8192) = true) ∧
    ∃ e, main C136ex.world (.recordService 1 8192 2 (some 8192)) = .ok e ∧
      decide (e.code = 0 ∧ (written e.ops).length = 8192 ∧ e.docs.length = 8) = true :=
  ⟨C68ex.faithful, reads, C136ex.reads, C147ex.steady, tabs_T, known, C95ex.check (by decide +kernel),
    C136ex.recorded⟩

end Mirakc.Props
