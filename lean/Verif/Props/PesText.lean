import Verif.Proof.PesText
import Verif.Props.MainPrints
/-
Property C122: the output of print-pes can be read.
-/
namespace Mirakc.Props
open Mirakc.Main Mirakc.Spec.PesText
open Mirakc.Pipeline (via input)
open Mirakc.Spec Mirakc.Spec.Main Mirakc.Spec.Pipeline
open Mirakc.Spec.EventsJson (Pairwise₂)

/-- **C122.**  A reader that expects what the help text of print-pes says - lines of the form
`[DATETIME]|[CLOCK]|<MESSAGE>`, with the separators in columns 24 and 39 - can read the whole
output.  It finds exactly the lines of the other properties: the same times, clocks and
messages, with their ids, versions, stream types and names, and nothing else. -/
theorem C122_text (w : World) (ps : List (List UInt8)) (hr : Reads w ps) (e : Ended)
    (h : main w .printPes = .ok e) (time : Int → List Char)
    (hf : TimeText time) :
    ∃ ls rs, e.docs = ls.map .line ∧ PesText.read (PesPrinter.written time e) = some rs ∧ Pairwise₂ (Shows time) ls rs := by
  simp only [main, printPes, bind_ok_iff] at h
  obtain ⟨⟨code, n, y⟩, h3, h4⟩ := h
  cases h4
  have hran : Spec.PesPrinter.Printed (seen (input w.codec w.tables) 0 ps) code y := ran_of_feed hr h3
  obtain ⟨s, h1, _⟩ := Ran.reach hran
  obtain ⟨rs, k1, k2⟩ := PesPrinter.read_text hf _ (PesPrinter.lines_inRange h1)
  refine ⟨_, rs, rfl, ?_, k2⟩
  rw [← k1]
  simp [PesPrinter.written, List.flatMap_map]

/-- Two lines with the same text show the same. -/
theorem C122_distinct (time : Int → List Char) (hf : TimeText time) (a b : PesPrinter.PLine)
    (ha : ∀ p, a.pcr = some p → 0 ≤ p ∧ p < 2 ^ 33 * 300) (hb : ∀ p, b.pcr = some p → 0 ≤ p ∧ p < 2 ^ 33 * 300)
    (h : a.text time = b.text time) :
    a.time.map time = b.time.map time ∧ a.pcr = b.pcr ∧ whatOf time a.label a.msg = whatOf time b.label b.msg := by
  rw [PesPrinter.line_parts, PesPrinter.line_parts] at h
  have h := (List.append_inj' h rfl).1
  obtain ⟨ra, h1, h2, h3, h4⟩ := PesPrinter.row_text hf a fun p hp => (isValidPcr_iff p).2 (by have := ha p hp; omega)
  obtain ⟨rb, k1, k2, k3, k4⟩ := PesPrinter.row_text hf b fun p hp => (isValidPcr_iff p).2 (by have := hb p hp; omega)
  rw [h, k1] at h1
  cases h1
  refine ⟨h2.symm.trans k2, ?_, h3.symm.trans k3⟩
  revert h4 k4
  cases a.pcr <;> cases b.pcr <;> cases ra.clock <;> simp
  intro h5 _ h6 _
  rw [h5, h6]

namespace C122ex

/-- The beginning of the text of a time. -/
def start : List Char := "2020/06/02 22:29:03.".toList
/-- Texts of times within a second. -/
def time (t : Int) : List Char := start ++ fmtPadded 3 (t.toNat % 1000)

theorem timeText : TimeText time := by
  intro t
  have hl : (fmtPadded 3 (t.toNat % 1000)).length = 3 := by
    rw [fmtPadded_eq 3 _ (by decide) (Nat.mod_lt _ (by decide)), fixedDigits_length]
  have hn : '\n' ∉ fmtPadded 3 (t.toNat % 1000) :=
    PesPrinter.digits_newline (by decide) (PesPrinter.fmtPadded_digits _ _)
  have h1 : '\n' ∉ start := by decide +kernel
  have h2 : start.length = 20 := by decide +kernel
  have h3 : start.all (· == ' ') = false := by decide +kernel
  unfold time
  generalize start = a at h1 h2 h3 ⊢
  generalize fmtPadded 3 (t.toNat % 1000) = b at hl hn ⊢
  refine ⟨?_, ?_, ?_⟩
  · rw [List.length_append, hl, h2]
  · exact PesPrinter.append_newline h1 hn
  · rw [blank, List.all_append, h3, Bool.false_and]

end C122ex

/-- Non-trivial case for C122: several lines of a stream are read. -/
example : ∃ w ps e time, Reads w ps ∧ main w .printPes = .ok e ∧ TimeText time ∧
    ∃ rs, PesText.read (PesPrinter.written time e) = some rs ∧ 5 ≤ rs.length := by
  obtain ⟨e, h1, h2⟩ := C95ex.check (r := main C99ex.world .printPes)
    (P := fun e => 5 ≤ e.docs.length) (by decide +kernel)
  have h2 := of_decide_eq_true h2
  obtain ⟨ls, rs, k1, k2, k3⟩ := C122_text _ _ C99ex.reads e h1 _ C122ex.timeText
  refine ⟨C99ex.world, _, e, _, C99ex.reads, h1, C122ex.timeText, rs, k2, ?_⟩
  have : ∀ {ls : List PesPrinter.PLine} {rs}, Pairwise₂ (Shows C122ex.time) ls rs → rs.length = ls.length := by
    intro ls rs h
    induction h with
    | nil => rfl
    | cons _ _ ih => simp [ih]
  rw [this k3]
  rw [k1, List.length_map] at h2
  exact h2

/-- The lines of the help text (where the PID of the PAT is left out), and one with an event. -/
example :
    ({ msg := .pat 7 0 } : PesPrinter.PLine).text C122ex.time =
      "                       |              |PAT: V#7 PID#0000\n".toList ∧
    ({ msg := .pmt 0x400 0x1FF 9 } : PesPrinter.PLine).text C122ex.time =
      "                       |              |PMT: SID#0400 PCR#01FF V#9\n".toList ∧
    ({ msg := .stream 0x110 .audio 0x0F } : PesPrinter.PLine).text C122ex.time =
      "                       |              |  PES#0110 => Audio#0F\n".toList ∧
    ({ time := some 60, pcr := some (3172585068 * 300 + 178), msg := .pcr 0x1FF } : PesPrinter.PLine).text C122ex.time =
      "2020/06/02 22:29:03.060|3172585068+178|PCR#01FF\n".toList ∧
    ({ msg := .event 1 0xABCD 0 999 (-5) } : PesPrinter.PLine).text C122ex.time =
      ("                       |              |  Event[1]: EID#ABCD 2020/06/02 22:29:03.000 - " ++
        "2020/06/02 22:29:03.999 (-5m)\n").toList := by
  decide +kernel

end Mirakc.Props
