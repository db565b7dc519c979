import Verif.Proof.Joined
import Verif.Props.MainFilters
/-
Property C147: filter-service started later on the same broadcast.
-/
namespace Mirakc.Props
open Mirakc.Main Mirakc.Spec Mirakc.Spec.Main Mirakc.Spec.Pipeline Mirakc.Spec.Joined
open Mirakc.Spec.ServiceFilter (sent received Missing usablePat validCat)

/-- **C147.**  Of a broadcast whose tables do not change, let `w` read the packets `qs` and then `ps`, and `w'` only
`ps`; which tables the demultiplexers deliver with which packets may differ.  If no write fails and `qs` has brought the
tables of the service, then filter-service ends with 0 in both cases.  In `w` it writes what it writes for `qs` alone,
and then for the packets of `ps` the same as in `w'`, except that in `w'` packets are missing that come before the
tables of the service have been received there, and that the PAT packets are counted differently. -/
theorem C147_joined (w w' : World) (hc : Faithful w.codec) (hcc : w'.codec = w.codec) (qs ps : List (List UInt8))
    (hr : Reads w (qs ++ ps)) (hr' : Reads w' ps) (hw : ∀ x ∈ w.write, 0 ≤ x) (hw' : ∀ x ∈ w'.write, 0 ≤ x)
    (sid : Nat) (hs : sid < 65536) (T : Table → Prop) (hS : Steady sid T) (hT : ∀ n, ∀ t ∈ w.tables n, T t)
    (hT' : ∀ n, ∀ t ∈ w'.tables n, T t)
    (hK : Known w.codec w.tables sid (∃ t, T t ∧ validCat t ≠ none) qs) :
    ∃ e e' before xs ys, main w (.filterService (some sid)) = .ok e ∧ main w' (.filterService (some sid)) = .ok e' ∧
      e.code = 0 ∧ e'.code = 0 ∧ e.bytes = before ++ xs.flatten ∧ e'.bytes = ys.flatten ∧
      Joined w.codec (fun n => Known w.codec w'.tables sid (∃ t, T t ∧ validCat t ≠ none) (ps.take (n + 1))) 0 ps xs ys ∧
      ∀ w0 : World, w0.codec = w.codec → w0.tables = w.tables → Reads w0 qs → (∀ x ∈ w0.write, 0 ≤ x) →
        ∃ e0, main w0 (.filterService (some sid)) = .ok e0 ∧ e0.code = 0 ∧ e0.bytes = before := by
  have hc' : Faithful w'.codec := by rw [hcc]; exact hc
  have ok : ∀ (c : Mirakc.Pipeline.Codec) (tabs : Nat → List Table) (l : List (List UInt8)), (∀ n, ∀ t ∈ tabs n, T t) →
      (∀ i ∈ seen (arrived c tabs) 0 l, ∀ t ∈ i.tables, T t) := by
    intro c tabs l hT i hi t ht
    obtain ⟨k, hk, e⟩ := List.getElem_of_mem hi
    rw [Mirakc.Pipeline.seen_length] at hk
    have := Mirakc.Joined.seen_get (arrived c tabs) _ 0 k _ (List.getElem?_eq_getElem hk)
    rw [List.getElem?_eq_getElem (by rw [Mirakc.Pipeline.seen_length]; exact hk), e] at this
    cases this
    exact hT _ t ht
  have good : ∀ (c : Mirakc.Pipeline.Codec) (tabs : Nat → List Table) (l : List (List UInt8)), (∀ n, ∀ t ∈ tabs n, T t) →
      ∃ f items, ServiceFilter.run { sid := sid } (ServiceFilter.init { sid := sid }) (seen (arrived c tabs) 0 l) =
        .ok (f, items) ∧ items.length = l.length ∧ ¬ ∃ t ∈ received items, Missing sid t := by
    intro c tabs l hT
    obtain ⟨⟨f, items⟩, h⟩ := (C25_no_abort_partial { sid := sid } (seen (arrived c tabs) 0 l)
      (fun i hi t ht => hS.conforming t (ok c tabs l hT i hi t ht))).1
    refine ⟨f, items, h, ?_, ?_⟩
    · rw [Mirakc.Joined.full (o := { sid := sid }) hS rfl (ok c tabs l hT) h, Mirakc.Pipeline.seen_length]
    · rintro ⟨t, ht, hm⟩
      exact hS.listed t (Mirakc.Joined.received_of (ok c tabs l hT) h t ht) hm
  obtain ⟨f, items, h, hl, hn⟩ := good w.codec w.tables (qs ++ ps) hT
  obtain ⟨g, items', h', hl', hn'⟩ := good w'.codec w'.tables ps hT'
  obtain ⟨code, m1, _, _, m4⟩ := (C95_filter_service w hc (qs ++ ps) hr hw sid hs).2 f items h
  obtain ⟨code', m1', _, _, m4'⟩ := (C95_filter_service w' hc' ps hr' hw' sid hs).2 g items' h'
  rw [hcc] at h'
  obtain ⟨_, _, hj⟩ := Mirakc.Joined.runs hc hS hT hT' qs ps (Mirakc.Pipeline.packets_188 hr'.2) f g items items' h h' hK
  refine ⟨_, _, ((sent (items.take qs.length)).map (serviceBytes w.codec)).flatten, _, _, m1, m1', m4 hn, m4' hn',
    ?_, by rw [hcc], hj, ?_⟩
  · show ((sent items).map (serviceBytes w.codec)).flatten = _
    rw [← List.flatten_append, ← List.map_append]
    congr 2
    rw [sent, sent, sent, ← List.filterMap_append, List.take_append_drop]
  · intro w0 c0 t0 hr0 hw0
    obtain ⟨f0, items0, h0, hl0, hn0⟩ := good w.codec w.tables qs hT
    have h0' := h0
    rw [← c0, ← t0] at h0'
    obtain ⟨code0, k1, _, _, k4⟩ := (C95_filter_service w0 (by rw [c0]; exact hc) qs hr0 hw0 sid hs).2 f0 items0 h0'
    refine ⟨_, k1, k4 hn0, ?_⟩
    have hp : items0 <+: items := by
      rw [Mirakc.Pipeline.seen_append] at h
      refine Mirakc.Agree.sf_prefix _ _ _ _ _ _ _ h0 ?_ h
      rw [hl0, Mirakc.Pipeline.seen_length]
    rw [← hl0, ← List.prefix_iff_eq_take.1 hp, c0]

namespace C147ex
open C68ex (raw clk pat pmt)

/-- The packets before. -/
def qs : List (List UInt8) := [raw 0 0 1, raw 0x100 0 2, raw 0x111 0 5]
/-- The packets from the moment on when the later one starts. -/
def ps : List (List UInt8) :=
  [raw 0x111 1 6, raw 0 1 1, clk 0x1ff 900100, raw 0x100 1 2, raw 0x111 2 7, raw 0 2 1, raw 0x211 0 4]
/-- The first to start gets the tables of the first packets. -/
def tabs : Nat → List Table
  | 0 => [pat]
  | 1 => [pmt]
  | _ => []
/-- The other those repeated later. -/
def tabs' : Nat → List Table
  | 1 => [pat]
  | 3 => [pmt]
  | _ => []
/-- One world for both packets. -/
def world (t : Nat → List Table) (l : List (List UInt8)) : World :=
  { C95ex.world with tables := t, read := l.map some }

theorem reads {t : Nat → List Table} {l : List (List UInt8)} (h : ∀ b ∈ l, b.length = 188 ∧ b[0]? = some 0x47)
    (hu : Mirakc.Spec.Main.upToEnd (l.map some) = l.flatten) : Reads (world t l) l := by
  refine ⟨fun r hr => ?_, ?_⟩
  · obtain ⟨b, hb, e⟩ := List.mem_map.1 hr
    cases e
    rw [(h _ hb).1]; decide
  · have : contents (world t l) = l.flatten := hu
    rw [this]
    exact Mirakc.Pipeline.packets_flatten h

/-- The broadcast has this PAT and this PMT. -/
def T (t : Table) : Prop := t = pat ∨ t = pmt

theorem steady : Steady 1 T where
  conforming t ht := by
    rcases ht with rfl | rfl
    · refine ⟨?_, by simp [Mirakc.Spec.ServiceFilter.validCat, pat],
        by simp [Mirakc.Spec.ServiceFilter.validPmt, pat], by simp [Mirakc.Spec.ServiceFilter.validTot, pat]⟩
      intro p hp pid hm
      simp [usablePat, pat] at hp
      subst hp
      simp at hm
      subst hm
      decide
    · refine ⟨by simp [usablePat, pmt], by simp [Mirakc.Spec.ServiceFilter.validCat, pmt], ?_,
        by simp [Mirakc.Spec.ServiceFilter.validTot, pmt]⟩
      intro p hp pid hm
      simp [Mirakc.Spec.ServiceFilter.validPmt, pmt] at hp
      subst hp
      simp [Mirakc.Spec.ServiceFilter.CaPid] at hm
      omega
  pat t u p q ht hu hp hq := by
    rcases ht with rfl | rfl <;> rcases hu with rfl | rfl
    · rw [hp] at hq; cases hq; rfl
    · simp [usablePat, pmt] at hq
    · simp [usablePat, pmt] at hp
    · simp [usablePat, pmt] at hp
  cat t u p q ht hu hp hq := by
    rcases ht with rfl | rfl
    · simp [Mirakc.Spec.ServiceFilter.validCat, pat] at hp
    · simp [Mirakc.Spec.ServiceFilter.validCat, pmt] at hp
  pmt t u p q ht hu hp hq := by
    rcases ht with rfl | rfl <;> rcases hu with rfl | rfl
    · simp [Mirakc.Spec.ServiceFilter.validPmt, pat] at hp
    · simp [Mirakc.Spec.ServiceFilter.validPmt, pat] at hp
    · simp [Mirakc.Spec.ServiceFilter.validPmt, pat] at hq
    · rw [hp] at hq; cases hq; rfl
  listed t ht hm := by
    obtain ⟨p, hp, hm⟩ := hm
    rcases ht with rfl | rfl
    · simp [usablePat, pat] at hp
      subst hp
      simp at hm
    · simp [usablePat, pmt] at hp

theorem no_cat : ¬ ∃ t, T t ∧ validCat t ≠ none := by
  rintro ⟨t, rfl | rfl, h⟩
  · simp [validCat, pat] at h
  · simp [validCat, pmt] at h

theorem tabs_T : (∀ n, ∀ t ∈ tabs n, T t) ∧ (∀ n, ∀ t ∈ tabs' n, T t) := by
  constructor
  · intro n t ht
    unfold tabs at ht
    split at ht
    · exact .inl (by simpa using ht)
    · exact .inr (by simpa using ht)
    · cases ht
  · intro n t ht
    unfold tabs' at ht
    split at ht
    · exact .inl (by simpa using ht)
    · exact .inr (by simpa using ht)
    · cases ht

theorem known : Known C68ex.codec tabs 1 (∃ t, T t ∧ validCat t ≠ none) qs := by
  refine ⟨⟨0, 1, pat, pmt, _, _, by decide, ⟨by simp [tabs], _, rfl, ?_⟩, rfl, ⟨by simp [tabs], _, rfl, ?_⟩, rfl, ?_⟩,
    fun h => absurd h no_cat⟩
  · decide +kernel
  · decide +kernel
  · decide

end C147ex

open C147ex in
example : Faithful C68ex.codec ∧ Reads (world tabs (qs ++ ps)) (qs ++ ps) ∧ Reads (world tabs' ps) ps ∧
    Steady 1 T ∧ Known C68ex.codec tabs 1 (∃ t, T t ∧ validCat t ≠ none) qs ∧
    (∃ e, main (world tabs (qs ++ ps)) (.filterService (some 1)) = .ok e ∧ e.bytes.length = 188 * 9) ∧
    ∃ e, main (world tabs' ps) (.filterService (some 1)) = .ok e ∧ e.bytes.length = 188 * 4 := by
  refine ⟨C68ex.faithful, reads (by decide +kernel) (by decide +kernel), reads (by decide +kernel) (by decide +kernel),
    steady, known, ?_, ?_⟩
  · obtain ⟨e, h1, h2⟩ := C95ex.check (r := main (world tabs (qs ++ ps)) (.filterService (some 1)))
      (P := fun e => e.bytes.length = 188 * 9) (by decide +kernel)
    exact ⟨e, h1, of_decide_eq_true h2⟩
  · obtain ⟨e, h1, h2⟩ := C95ex.check (r := main (world tabs' ps) (.filterService (some 1)))
      (P := fun e => e.bytes.length = 188 * 4) (by decide +kernel)
    exact ⟨e, h1, of_decide_eq_true h2⟩

end Mirakc.Props
