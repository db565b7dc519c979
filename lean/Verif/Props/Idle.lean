import Verif.Spec.Idle
import Verif.Proof.Idle
import Verif.Props.Main
/-
C127: packets without content do not matter to the commands that print documents.
-/
namespace Mirakc.Props
open Mirakc.Main Mirakc.Spec.Main Mirakc.Spec.Pipeline

/-- **C127**.  A packet without content for the command can be removed from the input:
everything the command does stays the same.  Commands that may stop at the first packet need one before it. -/
theorem C127_idle_packets_partial (w : World) (a c : List (List UInt8)) (b : List UInt8) (hr : Reads w (a ++ b :: c))
    (op : Bool) (rd : List (Option (List UInt8))) (hr' : Reads (lacking w a.length op rd) (a ++ c))
    (cmd : Cmd) (hi : Idle w a.length b cmd) (ha : a ≠ [] ∨ ¬ Hasty cmd) :
    main w cmd = main (lacking w a.length op rd) cmd := by
  cases cmd with
  | scanServices sids xsids =>
    simp only [main]
    cases sidSet sids with
    | error e => rfl
    | ok x =>
      cases sidSet xsids with
      | error e => rfl
      | ok y => exact scan_idle hr hr' _ hi
  | syncClocks sids xsids =>
    simp only [main]
    cases sidSet sids with
    | error e => rfl
    | ok x =>
      cases sidSet xsids with
      | error e => rfl
      | ok y => exact sync_idle hr hr' _ hi
  | collectEits sids xsids limit st oa oo =>
    simp only [main]
    cases ho : loadEits sids xsids limit st oa oo with
    | error e => rfl
    | ok o =>
      refine eits_idle hr hr' o hi ?_
      obtain ⟨_, _, ho⟩ := bind_ok_iff.1 ho
      obtain ⟨_, _, ho⟩ := bind_ok_iff.1 ho
      cases ho
      cases st with
      | true => exact .inl rfl
      | false =>
        refine .inr (ha.symm.imp (fun h => ?_) id)
        show 0 < limit.getD 30000
        have : ¬ limit.getD 30000 ≤ 0 := fun hl => h ⟨rfl, hl⟩
        omega
  | collectEitpf sids st pr fo =>
    simp only [main]
    cases ho : loadEitpf sids st pr fo with
    | error e => rfl
    | ok o =>
      refine eitpf_idle hr hr' o hi ?_
      obtain ⟨x, hx, ho⟩ := bind_ok_iff.1 ho
      cases ho
      cases st with
      | true => exact .inl rfl
      | false =>
        refine .inr (ha.symm.imp (fun h => ⟨?_, fun hn => ?_⟩) id)
        · cases pr <;> cases fo <;> first | rfl | exact absurd ⟨rfl, .inr (.inr ⟨rfl, rfl⟩)⟩ h
        · by_cases hN : Numbers sids
          · have h0 := (sidSet_spec hN hx).2.1.1 (List.map_eq_nil_iff.1 hn)
            exact h ⟨rfl, .inl (by rcases h0 with rfl | rfl <;> rfl)⟩
          · exact h ⟨rfl, .inr (.inl hN)⟩
  | collectLogos => exact logos_idle hr hr' hi
  | filterProgramMetadata sid => exact metadata_idle hr hr' _ hi
  | trackAirtime sid eid => exact airtime_idle hr hr' _ hi
  | printPes => exact pes_idle hr hr' hi.1 hi.2.1 hi.2.2.1 hi.2.2.2
  | filterService _ => exact hi.elim
  | filterProgram _ => exact hi.elim
  | recordService _ _ _ _ => exact hi.elim
  | seekStart _ _ _ => exact hi.elim

namespace C127ex
/-- The stream of C90 with a null packet, number 7. -/
def a : List (List UInt8) := C90ex.ps.take 7
def c : List (List UInt8) := C90ex.ps.drop 7
def b : List UInt8 := C68ex.raw 0x1fff 0 0
/-- What was number 7 is number 8. -/
def later {α : Type} (f : Nat → α) (z : α) : Nat → α
  | k => if k < 7 then f k else if k = 7 then z else f (k - 1)
def world : World :=
  { C90ex.world with read := [some (a ++ b :: c).flatten], tables := later C90ex.tables [], sections := later C90ex.sections [] }
theorem reads : Reads world (a ++ b :: c) := by
  refine ⟨?_, (by decide +kernel : contents world = (a ++ b :: c).flatten) ▸
    Mirakc.Pipeline.packets_flatten (by decide +kernel)⟩
  intro r hr
  have : ∀ r ∈ world.read, (r.getD []).length ≤ 16384 := by decide +kernel
  exact this _ hr
theorem reads' : Reads (lacking world 7 true [some (a ++ c).flatten]) (a ++ c) := by
  have e : contents (lacking world 7 true [some (a ++ c).flatten]) = (a ++ c).flatten := by decide +kernel
  refine ⟨?_, by rw [e]; exact Mirakc.Pipeline.packets_flatten (by decide +kernel)⟩
  intro r hr
  have : ∀ r ∈ (lacking world 7 true [some (a ++ c).flatten]).read, (r.getD []).length ≤ 16384 := by decide +kernel
  exact this _ hr
theorem ended {r : Except Stop Ended}
    (h : (match r with | .ok e => decide (e.docs ≠ []) | .error _ => false) = true) : ∃ e, r = .ok e ∧ e.docs ≠ [] := by
  cases r with
  | error f => cases h
  | ok e => exact ⟨e, rfl, of_decide_eq_true h⟩
end C127ex

/-- sync-clocks, scan-services, collect-eitpf --sids=101 and filter-program-metadata print the same with and without
the null packet. -/
example : Reads C127ex.world (C127ex.a ++ C127ex.b :: C127ex.c) ∧
    Reads (lacking C127ex.world C127ex.a.length true [some (C127ex.a ++ C127ex.c).flatten]) (C127ex.a ++ C127ex.c) ∧
    (∀ cmd ∈ [.scanServices none none, .syncClocks (some [['1']]) none, .filterProgramMetadata none,
        .collectEitpf (some [['1', '0', '1']]) false false false, .printPes],
      Idle C127ex.world C127ex.a.length C127ex.b cmd ∧ ∃ e, main C127ex.world cmd = .ok e ∧ e.docs ≠ []) := by
  refine ⟨C127ex.reads, C127ex.reads', ?_⟩
  have hp : (C127ex.world.codec.packet C127ex.b).pid = 0x1FFF ∧ (C127ex.world.codec.packet C127ex.b).pcr = none ∧
      (C127ex.world.codec.packet C127ex.b).pts = none ∧ (C127ex.world.codec.packet C127ex.b).dts = none := by
    decide +kernel
  have ht : C127ex.world.tables C127ex.a.length = [] := by decide +kernel
  have hn : ∀ t ∈ C127ex.world.tables C127ex.a.length, t.sourcePid ≠ (C127ex.world.codec.packet C127ex.b).pid := by
    rw [ht]; intro t h; cases h
  intro cmd hc
  have key : ∀ cmd ∈ [Cmd.scanServices none none, .syncClocks (some [['1']]) none, .filterProgramMetadata none,
        .collectEitpf (some [['1', '0', '1']]) false false false, .printPes],
      (match main C127ex.world cmd with | .ok e => decide (e.docs ≠ []) | .error _ => false) = true := by decide +kernel
  have hd := C127ex.ended (key cmd hc)
  simp only [List.mem_cons, List.not_mem_nil, or_false] at hc
  rcases hc with rfl | rfl | rfl | rfl | rfl
  · exact ⟨hn, hd⟩
  · exact ⟨.inl hp.1, hd⟩
  · exact ⟨.inr hn, hd⟩
  · exact ⟨.inl (by rw [hp.1]; decide), hd⟩
  · exact ⟨⟨hn, hp.2⟩, hd⟩

namespace C127ex
/-- An EIT p/f section after a null packet. -/
def first : World :=
  { C90ex.world with
    read := [some (b ++ C68ex.raw 0x12 0 6)], tables := fun _ => []
    sections := fun k => if k = 1 then [.sect (C50ex.sec 4 1 101 1 0)] else [] }
def second : World := lacking first 0 true [some (C68ex.raw 0x12 0 6)]
theorem reads_first : Reads first ([] ++ b :: [C68ex.raw 0x12 0 6]) := by
  refine ⟨?_, (by decide +kernel : contents first = ([] ++ b :: [C68ex.raw 0x12 0 6]).flatten) ▸
    Mirakc.Pipeline.packets_flatten (by decide +kernel)⟩
  intro r hr
  have : ∀ r ∈ first.read, (r.getD []).length ≤ 16384 := by decide +kernel
  exact this _ hr
theorem reads_second : Reads second ([] ++ [C68ex.raw 0x12 0 6]) := by
  refine ⟨?_, (by decide +kernel : contents second = ([] ++ [C68ex.raw 0x12 0 6]).flatten) ▸
    Mirakc.Pipeline.packets_flatten (by decide +kernel)⟩
  intro r hr
  have : ∀ r ∈ second.read, (r.getD []).length ≤ 16384 := by decide +kernel
  exact this _ hr
end C127ex

/-- **C127**, the condition is needed: collect-eitpf without options prints the section of the
present event, but prints nothing if a null packet comes first. -/
theorem C127_first_packet : ∃ (w : World) (b : List UInt8) (c : List (List UInt8)) (op : Bool)
    (rd : List (Option (List UInt8))) (e e' : Ended), Reads w ([] ++ b :: c) ∧ Reads (lacking w 0 op rd) ([] ++ c) ∧
      Idle w 0 b (.collectEitpf none false false false) ∧ (w.codec.packet b).pid = 0x1FFF ∧
      main w (.collectEitpf none false false false) = .ok e ∧
      main (lacking w 0 op rd) (.collectEitpf none false false false) = .ok e' ∧
      e.code = 0 ∧ e.docs = [] ∧ e'.docs.length = 1 := by
  have hp : (C127ex.first.codec.packet C127ex.b).pid = 0x1FFF := by decide +kernel
  exact ⟨C127ex.first, C127ex.b, _, _, _, { code := 0 }, { code := 0, docs := [.eit ⟨4, 1, 101, 0x4E, 0, 1, 1, 1, []⟩] },
    C127ex.reads_first, C127ex.reads_second, .inl (by rw [hp]; decide), hp,
    C90ex.eval (by decide +kernel), C90ex.eval (by decide +kernel), rfl, rfl, rfl⟩

end Mirakc.Props
