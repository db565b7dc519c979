import Verif.Props.MainFilters
import Verif.Props.PesTables
import Verif.Props.LogoCollector
/-
Property C99: print-pes and collect-logos from the command line.
-/
namespace Mirakc.Props
open Mirakc.Pipeline (via input)
open Mirakc.Main Mirakc.Spec Mirakc.Spec.Main Mirakc.Spec.Pipeline

namespace C99ex

/-- The stream of C90 with logos. -/
def world : World := { C90ex.world with
  base64 := C63ex.base64
  logos := fun n => (C63ex.input[n]?).getD { logos := [], result := true } }

theorem reads : Reads world C90ex.ps := C90ex.reads

end C99ex

open Mirakc.Spec.PesPrinter in
/-- **C99**, print-pes.  It ends with 0, and what it prints is, packet by packet, the stamps
and then the tables looked at; until the latest PAT lists no services, otherwise for the whole
input. -/
theorem C99_print_pes (w : World) (ps : List (List UInt8)) (hr : Reads w ps) (e : Ended)
    (h : main w .printPes = .ok e) :
    e.code = 0 ∧ e.bytes = [] ∧ ∃ items : List (Line Input PesPrinter.Did),
      e.docs = (items.flatMap (·.did.lines)).map .line ∧
      items.map (·.input) <+: seen (arrived w.codec w.tables) 0 ps ∧
      (∀ a x b, items = a ++ x :: b →
        Looked x.input.packet.pid (looked a) (received [x.input]) x.did.tables ∧
        shown x.did.lines = stamps (log a) x.input.packet ∧
        ∃ stamped, x.did.lines = stamped ++ texts (looked a) x.did.tables ∧
          ∀ ln ∈ stamped, ln.pcr.isSome = true) ∧
      (∀ a b, items = a ++ b → b ≠ [] → ¬ Deserted (looked a)) ∧
      (¬ Deserted (looked items) → items.map (·.input) = seen (arrived w.codec w.tables) 0 ps) := by
  simp only [main, printPes, bind_ok_iff] at h
  obtain ⟨⟨code, n, y⟩, h3, h4⟩ := h
  cases h4
  have hran : Printed (seen (input w.codec w.tables) 0 ps) code y := ran_of_feed hr h3
  obtain ⟨k1, k2⟩ := (C81_stamps_partial _).2 _ _ hran
  obtain ⟨j1, j2, j3, j4⟩ := C98_watched _ _ _ hran
  refine ⟨k1, rfl, y.items, rfl, j2, fun a x b e => ?_, j3, j4⟩
  obtain ⟨ls, i1, i2⟩ := C97_lines _ _ _ hran a x b e
  exact ⟨j1 a x b e, k2 a x b e, ls, i1, fun ln hl => (i2 ln hl).1⟩

/-- Non-trivial case for C99: the tables of a stream. -/
example : ∃ w ps e, Reads w ps ∧ main w .printPes = .ok e ∧ 5 ≤ e.docs.length := by
  obtain ⟨e, h1, h2⟩ := C95ex.check (r := main C99ex.world .printPes)
    (P := fun e => 5 ≤ e.docs.length) (by decide +kernel)
  exact ⟨C99ex.world, _, e, C99ex.reads, h1, of_decide_eq_true h2⟩

private theorem seen_range {P Q : Type} (g : Nat → P) : ∀ (qs : List Q) (n : Nat),
    seen (fun n _ => g n) n qs = (List.range' n qs.length).map g := by
  intro qs
  induction qs with
  | nil => intro n; rfl
  | cons q qs ih => intro n; simp [seen, ih, List.range'_succ]

open Mirakc.Spec.Logo in
/-- **C99**, collect-logos.  It ends with 0, and prints a document for every logo that is not
transparent, in the order of the packets, up to the first packet that ends the collection; each
shows the logo with its palette. -/
theorem C99_collect_logos : ∃ plte trns : Chunk, Palette plte trns ∧
    ∀ (w : World) (ps : List (List UInt8)) (_ : Reads w ps) (e : Ended) (_ : main w .collectLogos = .ok e),
      e.code = 0 ∧ e.bytes = [] ∧ ∃ n ≤ ps.length,
        e.docs = (((List.range n).flatMap fun k => (w.logos k).logos).filter
          (fun l => decide (93 < l.data.length))).map (fun l => .logo (doc w.base64 plte trns l)) ∧
        (∀ k, k + 1 < n → (w.logos k).result = true) ∧
        ((n = ps.length ∧ ∀ k < n, (w.logos k).result = true) ∨
          ∃ k, n = k + 1 ∧ (w.logos k).result = false) := by
  obtain ⟨plte, trns, hp, _, hl⟩ := C64_logos
  refine ⟨plte, trns, hp, fun w ps hr e h => ?_⟩
  simp only [main, collectLogos, bind_ok_iff] at h
  obtain ⟨⟨code, n, y⟩, h3, h4⟩ := h
  cases h4
  have hran := ran_of_feed hr h3
  obtain ⟨k1, k2, k3⟩ := (hl w.base64 _).2 _ _ hran
  rw [seen_range, ← List.range_eq_range'] at k3
  have hd : ∀ m, y.items.map (·.input) = (List.range m).map w.logos →
      (y.items.flatMap (·.did)).map Main.Doc.logo = (((List.range m).flatMap fun k => (w.logos k).logos).filter
          (fun l => decide (93 < l.data.length))).map (fun l => .logo (doc w.base64 plte trns l)) := by
    intro m hm
    have e1 : y.items.flatMap (·.did) = (((y.items.map (·.input)).flatMap (·.logos)).filter
        (fun l => decide (93 < l.data.length))).map (doc w.base64 plte trns) := by
      have : ∀ l : List (Line LogoCollector.LogoInput (List LogoCollector.Doc)), (∀ x ∈ l, x.did =
          (x.input.logos.filter (fun l => decide (93 < l.data.length))).map (doc w.base64 plte trns)) →
          l.flatMap (·.did) = (((l.map (·.input)).flatMap (·.logos)).filter
            (fun l => decide (93 < l.data.length))).map (doc w.base64 plte trns) := by
        intro l
        induction l with
        | nil => intro _; rfl
        | cons x l ih =>
          intro hx
          simp only [List.flatMap_cons, List.map_cons, List.filter_append, List.map_append]
          rw [ih fun z hz => hx z (by simp [hz]), hx x (by simp)]
      exact this _ k2
    rw [e1, hm, List.map_map, List.flatMap_map]
    rfl
  refine ⟨k1, rfl, ?_⟩
  rcases k3 with ⟨k3, k4⟩ | ⟨before, i, after, k3, k4, k5, k6⟩
  · refine ⟨ps.length, Nat.le_refl _, hd _ k3, fun k hk => ?_, .inl ⟨rfl, fun k hk => ?_⟩⟩
    · exact k4 _ (List.mem_map.2 ⟨k, List.mem_range.2 (by omega), rfl⟩)
    · exact k4 _ (List.mem_map.2 ⟨k, List.mem_range.2 hk, rfl⟩)
  · have hlen : before.length + 1 ≤ ps.length := by
      have := congrArg List.length k3
      simp only [List.length_map, List.length_range, List.length_append, List.length_cons] at this
      omega
    have htake : before ++ [i] = (List.range (before.length + 1)).map w.logos := by
      have := congrArg (List.take (before.length + 1)) k3
      rw [← List.map_take, List.take_range, Nat.min_eq_left hlen] at this
      rw [this, show before ++ i :: after = (before ++ [i]) ++ after by simp, List.take_left' (by simp)]
    have hget : ∀ k, k < before.length + 1 → (before ++ [i])[k]? = some (w.logos k) := by
      intro k hk
      rw [htake]; simp [hk]
    refine ⟨before.length + 1, hlen, hd _ (k4.trans htake), fun k hk => ?_, .inr ⟨before.length, rfl, ?_⟩⟩
    · have := hget k (by omega)
      rw [List.getElem?_append_left (by omega)] at this
      exact k5 _ (List.mem_of_getElem? this)
    · have := hget before.length (by omega)
      simp only [List.getElem?_append_right (Nat.le_refl _), Nat.sub_self, List.getElem?_cons_zero,
        Option.some.injEq] at this
      rw [← this]; exact k6

/-- Non-trivial case for C99: a logo. -/
example : ∃ w ps e, Reads w ps ∧ main w .collectLogos = .ok e ∧ e.docs.length = 1 := by
  obtain ⟨e, h1, h2⟩ := C95ex.check (r := main C99ex.world .collectLogos)
    (P := fun e => e.docs.length = 1) (by decide +kernel)
  exact ⟨C99ex.world, _, e, C99ex.reads, h1, of_decide_eq_true h2⟩

end Mirakc.Props
