import Verif.Proof.TimeLimit
import Verif.Props.MainEits
/-
C140: what --time-limit changes.
-/
namespace Mirakc.Props
open Mirakc.Main Mirakc.Spec.Main

namespace C140ex
open C68ex (raw)

/-- A section, two TOTs ten seconds apart, another section. -/
def ps : List (List UInt8) := [raw 0x12 0 1, raw 0x14 0 2, raw 0x14 1 3, raw 0x12 1 4]
/-- What its packets complete; there are more tables than those received. -/
def sections : Nat → List SectionEvent
  | 0 => [.sect (C43ex.sec 101 0x50 1 0 0 0 0x51)]
  | 1 => [.table { sourcePid := 0x14, body := .tot 36000000 }]
  | 2 => [.table { sourcePid := 0x14, body := .tot 36010000 }]
  | 3 => [.sect (C43ex.sec 102 0x50 1 0 0 0 0x51)]
  | _ => []
def world : World := { C90ex.world with sections := sections, read := [some ps.flatten] }
theorem reads : Reads world ps := by
  refine ⟨fun r hr => ?_, ?_⟩
  · have : ∀ r ∈ world.read, (r.getD []).length ≤ 16384 := by decide +kernel
    exact this _ hr
  · have : contents world = ps.flatten := by decide +kernel
    rw [this]
    exact Mirakc.Pipeline.packets_flatten (by decide +kernel)

end C140ex

/-- **C140**.  If collect-eits ends regularly with some time limit, it does so with a shorter one,
with the same exit code, and what it prints then is the beginning of what it prints with the
longer one.  Without the option the limit is 30 seconds. -/
theorem C140_shorter (w : World) (ps : List (List UInt8)) (hr : Reads w ps)
    (sids xsids : Option (List (List Char))) (t t' : Option Int) (streaming onlyActual onlyOthers : Bool)
    (ht : t.getD 30000 ≤ t'.getD 30000) (e' : Ended)
    (h' : main w (.collectEits sids xsids t' streaming onlyActual onlyOthers) = .ok e') :
    ∃ e, main w (.collectEits sids xsids t streaming onlyActual onlyOthers) = .ok e ∧
      e.code = e'.code ∧ e.docs <+: e'.docs := by
  obtain ⟨o', h1, h2⟩ := bind_ok_iff.1 h'
  obtain ⟨a, k1, h1⟩ := bind_ok_iff.1 h1
  obtain ⟨b, k2, h1⟩ := bind_ok_iff.1 h1
  cases h1
  obtain ⟨e, h3, h4⟩ := eits_earlier hr
    { sids := a.map UInt16.ofNat, xsids := b.map UInt16.ofNat, streaming := streaming, collectActual := !onlyOthers,
      collectOthers := !onlyActual } ht h2
  refine ⟨e, ?_, h4⟩
  simp only [main, loadEits, k1, k2]
  exact h3

/-- Non-trivial case for C140: with the shorter limit one of the two documents is printed. -/
example : ∃ w ps t e e', Reads w ps ∧ Option.getD (some t) 30000 ≤ Option.getD (none : Option Int) 30000 ∧
    main w (.collectEits none none none false false false) = .ok e' ∧
    main w (.collectEits none none (some t) false false false) = .ok e ∧ e'.docs.length = 2 ∧ e.docs.length = 1 := by
  obtain ⟨e', h1, h2⟩ := C95ex.check
    (r := main C140ex.world (.collectEits none none none false false false))
    (P := fun e => e.docs.length = 2) (by decide +kernel)
  obtain ⟨e, h3, h4⟩ := C95ex.check
    (r := main C140ex.world (.collectEits none none (some 10000) false false false))
    (P := fun e => e.docs.length = 1) (by decide +kernel)
  exact ⟨C140ex.world, _, 10000, e, e', C140ex.reads, by decide, h1, h3, of_decide_eq_true h2, of_decide_eq_true h4⟩

end Mirakc.Props
