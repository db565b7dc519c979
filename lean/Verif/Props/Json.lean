import Verif.Proof.Json
/-
Property C101: documents are printed one per line.
-/
namespace Mirakc.Props
open Mirakc.Json Mirakc.Spec.Json

/-- **C101**.  Whatever documents are printed, a consumer that reads the output line by line
and every line as JSON gets exactly these documents in this order. -/
theorem C101_lines (docs : List Json) : documents (jsonl docs) = docs.map some :=
  documents_jsonl docs

/-- **C101**, encoding.  If all strings are UTF-8, the output is. -/
theorem C101_utf8 (docs : List Json) (h : ∀ d ∈ docs, Text d) : Utf8 (jsonl docs) :=
  utf8_jsonl docs h

/-- Non-trivial case for C101: two documents, one with a string of two lines with a quote, an
escape, and characters of two and three bytes. -/
example : ∃ docs : List Json, docs.length = 2 ∧ (∀ d ∈ docs, Text d) ∧
    (∃ k s j, docs.head? = some (.obj [(k, .str s), j]) ∧ 0x0A ∈ s ∧ 0x22 ∈ s ∧ 0x5C ∈ s ∧ 0xE3 ∈ s) ∧
    (jsonl docs).length = 36 := by
  refine ⟨[.obj [(ascii "a", .str [0x0A, 0x22, 0x5C, 0x01, 0xC3, 0xA9, 0xE3, 0x81, 0x82]),
    (ascii "b", .arr [])], .num (-7)], rfl, ?_, ⟨_, _, _, rfl, by decide⟩, by decide +kernel⟩
  intro d hd
  simp only [List.mem_cons, List.not_mem_nil, or_false] at hd
  rcases hd with rfl | rfl
  · refine ⟨utf8_ascii _ (by decide), ?_, utf8_ascii _ (by decide), trivial, trivial⟩
    exact .one (by decide) (.one (by decide) (.one (by decide) (.one (by decide)
      (.two (by decide) (by decide) ⟨by decide, by decide⟩ (.three (by decide) (by decide)
        ⟨by decide, by decide⟩ ⟨by decide, by decide⟩ (by decide) (by decide) .nil)))))
  · trivial

end Mirakc.Props
