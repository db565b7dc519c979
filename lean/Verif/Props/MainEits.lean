import Verif.Proof.MainEits
import Verif.Props.MainFilters
/-
Property C100: collect-eits and collect-eitpf from the command line.
-/
namespace Mirakc.Props
open Mirakc.Main Mirakc.Spec Mirakc.Spec.Main Mirakc.Spec.Pipeline Mirakc.Spec.EventsJson

/-- **C100**, collect-eits.  If --sids and --xsids are given numbers, it is the collector of
C43 to C49 with the options given, the time limit being 30 s unless given, on the stream, and
its documents are the sections written, all of them and in order. -/
theorem C100_collect_eits (w : World) (ps : List (List UInt8)) (hr : Reads w ps)
    (sids xsids : Option (List (List Char))) (ha : Numbers sids) (hb : Numbers xsids)
    (timeLimit : Option Int) (streaming onlyActual onlyOthers : Bool) (e : Ended)
    (h : main w (.collectEits sids xsids timeLimit streaming onlyActual onlyOthers) = .ok e) :
    ∃ (o : EitCollector.Opt) (y : EitCollector.Hist),
      (∀ sid : UInt16, (o.sids = [] ∨ sid ∈ o.sids) ∧ sid ∉ o.xsids ↔ Asked sids xsids sid.toNat) ∧
      o.timeLimit = timeLimit.getD 30000 ∧ o.streaming = streaming ∧
      o.collectActual = !onlyOthers ∧ o.collectOthers = !onlyActual ∧
      Spec.EitCollector.Collected o (seen (sectionInput w) 0 ps) e.code y ∧
      e.bytes = [] ∧ e.ops = [] ∧
      Pairwise₂ (Documents w.mjd) ((Spec.EitCollector.calls y.items).filterMap (·.out)) e.docs := by
  simp only [main, collectEits, loadEits, bind_ok_iff] at h
  obtain ⟨o, ⟨a, h1, b, h2, ho⟩, h0, hi, ⟨code, m, y⟩, h3, h4⟩ := h
  cases h4
  cases ho
  rw [mapError_ok_iff] at hi
  have hran := ran_of_feed hr h3
  have hc : Spec.EitCollector.Collected _ (seen (sectionInput w) 0 ps) code y := ⟨h0, hi, hran⟩
  refine ⟨_, y, fun sid => ?_, ?_, rfl, rfl, rfl, hc, rfl, rfl,
    eitDocs_documents w _ (EitCollector.Collected.wf hc)⟩
  · obtain ⟨_, _, la⟩ := sidSet_spec ha h1
    obtain ⟨_, _, lb⟩ := sidSet_spec hb h2
    simp only [List.map_eq_nil_iff, mem_ofNat la, mem_ofNat lb]
    exact asked_iff ha hb h1 h2 _
  · cases timeLimit <;> rfl

/-- Non-trivial case for C100: a time limit given, and a section collected. -/
example : ∃ w ps sids xsids e, Reads w ps ∧ Numbers sids ∧ Numbers xsids ∧
    main w (.collectEits sids xsids (some 5000) false false true) = .ok e ∧ e.docs ≠ [] := by
  obtain ⟨e, h1, h2⟩ := C95ex.check
    (r := main C90ex.world (.collectEits (some [['1', '0', '1']]) none (some 5000) false false true))
    (P := fun e => e.docs ≠ []) (by decide +kernel)
  exact ⟨C90ex.world, _, _, none, e, C90ex.reads, C90ex.numbers _ 101 C90ex.denotes101 (by decide),
    C90ex.numbers_none, h1, of_decide_eq_true h2⟩

/-- **C100**, collect-eitpf.  If --sids is given numbers, it is the collector of C50 and C51 with
the options given on the stream, and its documents are the sections written, all of them and
in order. -/
theorem C100_collect_eitpf (w : World) (ps : List (List UInt8)) (hr : Reads w ps)
    (sids : Option (List (List Char))) (ha : Numbers sids) (streaming present following : Bool) (e : Ended)
    (h : main w (.collectEitpf sids streaming present following) = .ok e) :
    ∃ (o : EitpfCollector.Opt) (y : EitpfCollector.Hist),
      (∀ sid : UInt16, (o.sids = [] ∨ sid ∈ o.sids) ↔ Asked sids none sid.toNat) ∧
      o.streaming = streaming ∧ o.present = !following ∧ o.following = !present ∧
      Spec.EitpfCollector.Collected o (seen (sectionInput w) 0 ps) e.code y ∧
      e.bytes = [] ∧ e.ops = [] ∧
      Pairwise₂ (Documents w.mjd)
        (Spec.EitpfCollector.written (Spec.EitCollector.calls y.items)) e.docs := by
  simp only [main, collectEitpf, loadEitpf, bind_ok_iff] at h
  obtain ⟨o, ⟨a, h1, ho⟩, ⟨code, m, y⟩, h3, h4⟩ := h
  cases h4
  cases ho
  have hc : Spec.EitpfCollector.Collected _ (seen (sectionInput w) 0 ps) code y := ran_of_feed hr h3
  refine ⟨_, y, fun sid => ?_, rfl, rfl, rfl, hc, rfl, rfl,
    eitDocs_documents w _ (EitpfCollector.Collected.wf hc)⟩
  obtain ⟨_, _, la⟩ := sidSet_spec ha h1
  simp only [List.map_eq_nil_iff, mem_ofNat la]
  rw [← asked_iff (b := none) ha (by intro l hl; cases hl) h1 rfl]
  simp

/-- Non-trivial case for C100: both sections of a service, and the command ends by itself. -/
example : ∃ w ps sids e, Reads w ps ∧ Numbers sids ∧
    main w (.collectEitpf sids false false false) = .ok e ∧ e.docs.length = 2 := by
  obtain ⟨e, h1, h2⟩ := C95ex.check
    (r := main C90ex.world (.collectEitpf (some [['1', '0', '1']]) false false false))
    (P := fun e => e.docs.length = 2) (by decide +kernel)
  exact ⟨C90ex.world, _, _, e, C90ex.reads, C90ex.numbers _ 101 C90ex.denotes101 (by decide), h1,
    of_decide_eq_true h2⟩

end Mirakc.Props
