import Verif.Proof.OptionSets
import Verif.Props.MainFilters
/-
C124: the lists of the options are sets.
-/
namespace Mirakc.Props
open Mirakc.Main Mirakc.Spec.Main

private theorem obind {ε α β : Type} (a : α) (f : α → Except ε β) : (Except.ok a >>= f) = f a := rfl
private theorem ebind {ε α β : Type} (e : ε) (f : α → Except ε β) : (Except.error e >>= f) = .error e := rfl

/-- C124, the commands with --sids and --xsids: which services are selected is all that matters. -/
theorem C124_selection (w : World) (a b a' b' : Option (List (List Char))) (ha : Numbers a) (hb : Numbers b)
    (ha' : Numbers a') (hb' : Numbers b') (h : ∀ sid, Asked a b sid ↔ Asked a' b' sid) :
    main w (.scanServices a b) = main w (.scanServices a' b') ∧
    main w (.syncClocks a b) = main w (.syncClocks a' b') ∧
    ∀ timeLimit streaming onlyActual onlyOthers,
      main w (.collectEits a b timeLimit streaming onlyActual onlyOthers) =
      main w (.collectEits a' b' timeLimit streaming onlyActual onlyOthers) := by
  obtain ⟨x, hx⟩ := sidSet_ok ha
  obtain ⟨y, hy⟩ := sidSet_ok hb
  obtain ⟨x', hx'⟩ := sidSet_ok ha'
  obtain ⟨y', hy'⟩ := sidSet_ok hb'
  have key : ∀ n, ((x = [] ∨ n ∈ x) ∧ n ∉ y) ↔ ((x' = [] ∨ n ∈ x') ∧ n ∉ y') := by
    intro n
    rw [asked_iff ha hb hx hy, asked_iff ha' hb' hx' hy', h]
  have hc := chosen_congr key
  refine ⟨?_, ?_, fun timeLimit streaming onlyActual onlyOthers => ?_⟩
  · simp only [main, hx, hy, hx', hy', obind, Main.scanServices]
    rw [scan_congr (o := { sids := x, xsids := y }) (o' := { sids := x', xsids := y' }) hc]
  · simp only [main, hx, hy, hx', hy', obind, Main.syncClocks]
    rw [sync_congr (o := { sids := x, xsids := y }) (o' := { sids := x', xsids := y' }) hc]
  · obtain ⟨_, _, l1⟩ := sidSet_spec ha hx
    obtain ⟨_, _, l2⟩ := sidSet_spec hb hy
    obtain ⟨_, _, l3⟩ := sidSet_spec ha' hx'
    obtain ⟨_, _, l4⟩ := sidSet_spec hb' hy'
    have hc' : ∀ z : UInt16, chosen (x.map UInt16.ofNat) (y.map UInt16.ofNat) z =
        chosen (x'.map UInt16.ofNat) (y'.map UInt16.ofNat) z := by
      refine chosen_congr fun z => ?_
      rw [mem_ofNat l1, mem_ofNat l2, mem_ofNat l3, mem_ofNat l4, List.map_eq_nil_iff, List.map_eq_nil_iff]
      exact key z.toNat
    simp only [main, loadEits, hx, hy, hx', hy', obind, Main.collectEits]
    obtain ⟨k1, k2⟩ := eits_congr
      (o := { sids := x.map UInt16.ofNat, xsids := y.map UInt16.ofNat, timeLimit := timeLimit.getD 30000
              streaming := streaming, collectActual := !onlyOthers, collectOthers := !onlyActual })
      (o' := { sids := x'.map UInt16.ofNat, xsids := y'.map UInt16.ofNat, timeLimit := timeLimit.getD 30000
               streaming := streaming, collectActual := !onlyOthers, collectOthers := !onlyActual })
      hc' rfl rfl rfl rfl
    rw [k1, k2]

/-- C124, collect-eitpf: order, repetition and notation of the ids given do not matter. -/
theorem C124_eitpf (w : World) (a a' : Option (List (List Char))) (ha : Numbers a) (ha' : Numbers a')
    (h : SameNames a a') (streaming present following : Bool) :
    main w (.collectEitpf a streaming present following) =
    main w (.collectEitpf a' streaming present following) := by
  obtain ⟨x, hx⟩ := sidSet_ok ha
  obtain ⟨x', hx'⟩ := sidSet_ok ha'
  obtain ⟨k1, _, l1⟩ := sidSet_spec ha hx
  obtain ⟨k2, _, l2⟩ := sidSet_spec ha' hx'
  simp only [main, loadEitpf, hx, hx', obind, Main.collectEitpf]
  rw [eitpf_congr
      (o := { sids := x.map UInt16.ofNat, streaming := streaming, following := !present, present := !following })
      (o' := { sids := x'.map UInt16.ofNat, streaming := streaming, following := !present, present := !following })
      (fun z => by
        dsimp only
        rw [mem_ofNat l1, mem_ofNat l2, k1, k2, h]) rfl rfl rfl]

/-- C124, filter-program: the same for the component tags. -/
theorem C124_tags (w : World) (p : Options.ProgramArgs) (a v : Option (List (List Char)))
    (h1 : Tags p.audioTags) (h2 : Tags p.videoTags) (h3 : Tags a) (h4 : Tags v)
    (ha : SameNames p.audioTags a) (hv : SameNames p.videoTags v) :
    main w (.filterProgram p) = main w (.filterProgram { p with audioTags := a, videoTags := v }) := by
  obtain ⟨x, hx, kx⟩ := tags_ok h1
  obtain ⟨y, hy, ky⟩ := tags_ok h2
  obtain ⟨x', hx', kx'⟩ := tags_ok h3
  obtain ⟨y', hy', ky'⟩ := tags_ok h4
  simp only [main, Options.loadProgramFilter, hx, hy, hx', hy']
  cases Options.toJst p.clockTime with
  | error e => rfl
  | ok ct =>
    simp only [obind]
    cases Options.loadWaitUntil p.waitUntil with
    | error e => rfl
    | ok wu =>
      simp only [obind, Except.mapError, Main.filterProgram, Pipeline.filterProgram]
      rw [← program_congr w.extra {
          sid := Options.toUint16 p.sid, eid := Options.toUint16 p.eid,
          clockPid := Options.toUint16 p.clockPid, clockPcr := p.clockPcr, clockTime := ct, audioTags := x,
          videoTags := y, startMargin := p.startMargin.getD 0, endMargin := p.endMargin.getD 0, waitUntil := wu,
          preStreaming := p.preStreaming }
        (at' := x') (vt' := y')
        (fun z => by rw [kx, kx', ha]) (fun z => by rw [ky, ky', hv])]
      rfl

namespace C124ex

private theorem decimals {l : List (List Char)} {n : Nat}
    (h : ∀ s ∈ l, s ≠ [] ∧ (∀ c ∈ s, 48 ≤ c.toNat ∧ c.toNat ≤ 57) ∧ Spec.Options.decimal s < n) :
    ∀ s ∈ l, ∃ v, Spec.Options.Denotes s v ∧ 0 ≤ v ∧ v < (n : Int) := by
  intro s hs
  obtain ⟨h1, h2, h3⟩ := h s hs
  exact ⟨_, C90ex.denotes s h1 h2, by omega, by omega⟩
theorem numbers {l : List (List Char)}
    (h : ∀ s ∈ l, s ≠ [] ∧ (∀ c ∈ s, 48 ≤ c.toNat ∧ c.toNat ≤ 57) ∧ Spec.Options.decimal s < 65536) :
    Numbers (some l) := by
  intro l' hl
  cases hl
  exact decimals h
theorem tags {l : List (List Char)}
    (h : ∀ s ∈ l, s ≠ [] ∧ (∀ c ∈ s, 48 ≤ c.toNat ∧ c.toNat ≤ 57) ∧ Spec.Options.decimal s < 256) :
    Tags (some l) := by
  intro l' hl
  cases hl
  exact decimals h

end C124ex

/-- `--sids=1 --sids=2 --sids=3 --xsids=2` and `--sids=03 --sids=1 --sids=1`. -/
example :
    let a : Option (List (List Char)) := some ["1".toList, "2".toList, "3".toList]
    let b : Option (List (List Char)) := some ["2".toList]
    let a' : Option (List (List Char)) := some ["03".toList, "1".toList, "1".toList]
    Numbers a ∧ Numbers b ∧ Numbers a' ∧ Numbers none ∧ (∀ sid, Asked a b sid ↔ Asked a' none sid) ∧
      Asked a b 3 ∧ ¬ Asked a b 2 := by
  intro a b a'
  have ha : Numbers a := C124ex.numbers (by decide +kernel)
  have hb : Numbers b := C124ex.numbers (by decide +kernel)
  have ha' : Numbers a' := C124ex.numbers (by decide +kernel)
  have x : sidSet a = .ok [1, 2, 3] := by decide +kernel
  have y : sidSet b = .ok [2] := by decide +kernel
  have x' : sidSet a' = .ok [3, 1, 1] := by decide +kernel
  have y' : sidSet none = .ok [] := rfl
  refine ⟨ha, hb, ha', C90ex.numbers_none, fun sid => ?_, ?_, ?_⟩
  · rw [← asked_iff ha hb x y, ← asked_iff ha' C90ex.numbers_none x' y']
    simp only [List.mem_cons, List.not_mem_nil, or_false, reduceCtorEq, false_or, not_false_eq_true, and_true]
    omega
  · rw [← asked_iff ha hb x y]; decide
  · rw [← asked_iff ha hb x y]; decide

/-- `--sids=1 --sids=2` and `--sids=2 --sids=1 --sids=02`. -/
example :
    let a : Option (List (List Char)) := some ["1".toList, "2".toList]
    let a' : Option (List (List Char)) := some ["2".toList, "1".toList, "02".toList]
    Numbers a ∧ Numbers a' ∧ SameNames a a' ∧ Names a 2 := by
  intro a a'
  have ha : Numbers a := C124ex.numbers (by decide +kernel)
  have ha' : Numbers a' := C124ex.numbers (by decide +kernel)
  have x : sidSet a = .ok [1, 2] := by decide +kernel
  have x' : sidSet a' = .ok [2, 1, 2] := by decide +kernel
  refine ⟨ha, ha', fun n => ?_, ?_⟩
  · rw [← (sidSet_spec ha x).1, ← (sidSet_spec ha' x').1]
    simp only [List.mem_cons, List.not_mem_nil, or_false]
    omega
  · rw [← (sidSet_spec ha x).1]; decide

/-- The arguments of C95 with the tag of the video stream given twice. -/
example : Tags C95ex.args.audioTags ∧ Tags C95ex.args.videoTags ∧
    Tags (some ["00".toList, "0".toList]) ∧ SameNames C95ex.args.videoTags (some ["00".toList, "0".toList]) ∧
    Names C95ex.args.videoTags 0 ∧
    ∃ e, main C95ex.world (.filterProgram { C95ex.args with videoTags := some ["00".toList, "0".toList] }) = .ok e ∧
      188 * 3 ≤ e.bytes.length := by
  have hv : Tags C95ex.args.videoTags := C124ex.tags (by decide +kernel)
  have hv' : Tags (some ["00".toList, "0".toList]) := C124ex.tags (by decide +kernel)
  obtain ⟨x, hx, kx⟩ := tags_ok hv
  obtain ⟨y, hy, ky⟩ := tags_ok hv'
  have e1 : Options.loadComponentTags C95ex.args.videoTags = .ok [0] := by decide +kernel
  have e2 : Options.loadComponentTags (some ["00".toList, "0".toList]) = .ok [0, 0] := by decide +kernel
  rw [e1] at hx; rw [e2] at hy
  cases hx; cases hy
  refine ⟨(fun l hl => by cases hl), hv, hv', fun n => ?_, (kx 0).1 (by decide), ?_⟩
  · rw [← kx, ← ky]; simp
  · obtain ⟨e, h1, h2⟩ := C95ex.check
      (r := main C95ex.world (.filterProgram { C95ex.args with videoTags := some ["00".toList, "0".toList] }))
      (P := fun e => 188 * 3 ≤ e.bytes.length) (by decide +kernel)
    exact ⟨e, h1, of_decide_eq_true h2⟩

end Mirakc.Props
