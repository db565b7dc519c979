import Verif.Proof.Selecting
import Verif.Props.MainFilters
/-
Property C134: options that select only select.
-/
namespace Mirakc.Props
open Mirakc.Main Mirakc.Spec Mirakc.Spec.Main Mirakc.Spec.Pipeline Mirakc.Spec.Selecting

theorem picked_filter {α : Type} {P : α → Prop} (p : α → Bool) (h : ∀ a, P a ↔ p a = true) : ∀ l : List α,
    Picked P l (l.filter p)
  | [] => .nil
  | a :: l => by
    rw [List.filter_cons]
    split
    · next hp => exact .keep ((h a).2 hp) (picked_filter p h l)
    · next hp => exact .drop (fun ha => hp ((h a).1 ha)) (picked_filter p h l)

/-- **C134**, scan-services.  If the command without options ends regularly, it does so with --sids
and --xsids, with the same exit code, and the list printed consists of the services of the
whole list that the options select, in the same order. -/
theorem C134_scan_services (w : World) (ps : List (List UInt8)) (hr : Reads w ps)
    (sids xsids : Option (List (List Char))) (ha : Numbers sids) (hb : Numbers xsids) (e : Ended)
    (h : main w (.scanServices none none) = .ok e) :
    ∃ e', main w (.scanServices sids xsids) = .ok e' ∧ e'.code = e.code ∧
      (e.docs = [] ∧ e'.docs = [] ∨
        ∃ l l', e.docs = [.services l] ∧ e'.docs = [.services l'] ∧ Picked (fun x => Asked sids xsids x.sid) l l') := by
  obtain ⟨a, h1⟩ := sidSet_ok ha
  obtain ⟨b, h2⟩ := sidSet_ok hb
  obtain ⟨e', h3, h4, h5⟩ := scan_select hr { sids := a, xsids := b } h
  refine ⟨e', ?_, h4, h5.imp_right ?_⟩
  · simp only [main, h1, h2]
    exact h3
  · rintro ⟨l, k1, k2⟩
    refine ⟨l, _, k1, k2, picked_filter _ (fun x => ?_) l⟩
    rw [chosen_iff, asked_iff ha hb h1 h2]

namespace C134ex

/-- Both services have pictures and sound. -/
def world : World := { C90ex.world with tables := fun n => if n = 1 then [C52ex.sdt 0x01 0x01] else C90ex.tables n }
theorem reads : Reads world C90ex.ps := C90ex.reads
theorem asked (s : List Char) (v : Nat) (h : Spec.Options.Denotes s v) (hv : v < 65536) (hs : sidSet (some [s]) = .ok [v])
    (x : Nat) : Asked (some [s]) none x ↔ x = v := by
  rw [← asked_iff (C90ex.numbers s v h hv) C90ex.numbers_none hs rfl]
  simp

end C134ex

/-- Non-trivial case for C134: one of the two services printed is selected. -/
example : ∃ w ps sids e l, Reads w ps ∧ Numbers sids ∧ main w (.scanServices none none) = .ok e ∧
    e.docs = [.services l] ∧ (∃ x ∈ l, Asked sids none x.sid) ∧ ∃ x ∈ l, ¬ Asked sids none x.sid := by
  refine ⟨C134ex.world, C90ex.ps, some [['1']], { code := 0, docs := [.services [⟨4, 7, 1, "", 1, -1, some 3⟩, ⟨4, 7, 2, "", 1, -1, some 3⟩]] }, _,
    C134ex.reads, C90ex.numbers _ 1 C90ex.denotes1 (by decide), C90ex.eval (by decide +kernel), rfl, ?_⟩
  simp only [C134ex.asked ['1'] 1 C90ex.denotes1 (by decide) (by rfl)]
  decide

/-- **C134**, collect-eitpf.  Let the command with --streaming only end regularly.  With --sids,
--present or --following as well it also does, and the documents are those among all that the
options select.  And without --streaming, if it ends regularly, it prints some of these from the first
on without a gap. -/
theorem C134_collect_eitpf (w : World) (ps : List (List UInt8)) (hr : Reads w ps)
    (sids : Option (List (List Char))) (ha : Numbers sids) (present following : Bool) (e : Ended)
    (h : main w (.collectEitpf none true false false) = .ok e) :
    ∃ e', main w (.collectEitpf sids true present following) = .ok e' ∧ e'.code = e.code ∧
      Picked (SectionDoc (Asked sids none) fun n => (n = 0 ∧ following = false) ∨ (n = 1 ∧ present = false)) e.docs e'.docs ∧
      ∀ e'', main w (.collectEitpf sids false present following) = .ok e'' →
        e''.code = e'.code ∧ e''.docs <+: e'.docs := by
  obtain ⟨a, h1⟩ := sidSet_ok ha
  obtain ⟨_, _, la⟩ := sidSet_spec ha h1
  obtain ⟨l, h2, h3, h4⟩ := eitpf_select hr { sids := a.map UInt16.ofNat, present := !following, following := !present } h
  refine ⟨{ code := e.code, docs := eitDocs w (l.filter (EitpfCollector.picks { sids := a.map UInt16.ofNat, present := !following, following := !present })) }, ?_, rfl, ?_, fun e'' h'' => ?_⟩
  · simp only [main, loadEitpf, h1]
    exact h3
  · rw [h2]
    refine picked_docs w _ (fun x => ?_) l
    unfold EitpfCollector.picks
    rw [Bool.and_eq_true, chosen_iff]
    refine and_congr ?_ ?_
    · simp only [List.map_eq_nil_iff, mem_ofNat la]
      rw [← asked_iff (b := none) ha (by intro l hl; cases hl) h1 rfl]
      simp
    · have e0 : (x.sectionNumber == 0) = true ↔ x.sectionNumber.toNat = 0 := by
        rw [beq_iff_eq, ← UInt8.toNat_inj]; rfl
      have e1 : (x.sectionNumber == 1) = true ↔ x.sectionNumber.toNat = 1 := by
        rw [beq_iff_eq, ← UInt8.toNat_inj]; rfl
      simp only [Bool.or_eq_true, Bool.and_eq_true, e0, e1, Bool.not_eq_true']
  · simp only [main, loadEitpf, h1] at h''
    exact h4 e'' h''

/-- Non-trivial case for C134: of the three documents one is selected. -/
example : ∃ w ps sids e e', Reads w ps ∧ Numbers sids ∧ main w (.collectEitpf none true false false) = .ok e ∧
    main w (.collectEitpf sids true true false) = .ok e' ∧ e.docs.length = 3 ∧ e'.docs.length = 1 := by
  obtain ⟨e, h1, h2⟩ := C95ex.check
    (r := main C90ex.world (.collectEitpf none true false false))
    (P := fun e => e.docs.length = 3) (by decide +kernel)
  obtain ⟨e', h3, h4⟩ := C95ex.check
    (r := main C90ex.world (.collectEitpf (some [['1', '0', '1']]) true true false))
    (P := fun e => e.docs.length = 1) (by decide +kernel)
  exact ⟨C90ex.world, _, _, e, e', C90ex.reads, C90ex.numbers _ 101 C90ex.denotes101 (by decide), h1, h3,
    of_decide_eq_true h2, of_decide_eq_true h4⟩

/-- **C134**, collect-eits.  Let the command with --streaming, and otherwise only --only-actual or
--only-others, end regularly.  With --sids, --xsids or --time-limit as well it also does, and
the documents are those among all of selected services.  And without --streaming it ends
regularly, and prints some of these from the first on without a gap. -/
theorem C134_collect_eits (w : World) (ps : List (List UInt8)) (hr : Reads w ps)
    (sids xsids : Option (List (List Char))) (ha : Numbers sids) (hb : Numbers xsids) (t : Option Int)
    (onlyActual onlyOthers : Bool) (e : Ended)
    (h : main w (.collectEits none none none true onlyActual onlyOthers) = .ok e) :
    ∃ e' e'', main w (.collectEits sids xsids t true onlyActual onlyOthers) = .ok e' ∧ e'.code = e.code ∧
      Picked (SectionDoc (Asked sids xsids) fun _ => True) e.docs e'.docs ∧
      main w (.collectEits sids xsids t false onlyActual onlyOthers) = .ok e'' ∧ e''.code = e.code ∧
      e''.docs <+: e'.docs := by
  obtain ⟨a, h1⟩ := sidSet_ok ha
  obtain ⟨b, h2⟩ := sidSet_ok hb
  obtain ⟨_, _, la⟩ := sidSet_spec ha h1
  obtain ⟨_, _, lb⟩ := sidSet_spec hb h2
  obtain ⟨l, h3, h4, docs, h5, h6⟩ := eits_select hr
    { sids := a.map UInt16.ofNat, xsids := b.map UInt16.ofNat, collectActual := !onlyOthers, collectOthers := !onlyActual }
    (t.getD 30000) h
  refine ⟨{ code := e.code, docs := eitDocs w (l.filter (EitCollector.picks { sids := a.map UInt16.ofNat, xsids := b.map UInt16.ofNat, collectActual := !onlyOthers, collectOthers := !onlyActual })) }, { code := e.code, docs := docs }, ?_, rfl, ?_, ?_, rfl, h6⟩
  · simp only [main, loadEits, h1, h2]
    exact h4
  · rw [h3]
    refine picked_docs w _ (fun x => ?_) l
    unfold EitCollector.picks
    rw [chosen_iff, and_true]
    simp only [List.map_eq_nil_iff, mem_ofNat la, mem_ofNat lb]
    exact (asked_iff ha hb h1 h2 _).symm
  · simp only [main, loadEits, h1, h2]
    exact h5

/-- Non-trivial case for C134: of the two documents one is selected. -/
example : ∃ w ps sids e e', Reads w ps ∧ Numbers sids ∧ main w (.collectEits none none none true false false) = .ok e ∧
    main w (.collectEits sids none none true false false) = .ok e' ∧ e.docs.length = 2 ∧ e'.docs.length = 1 := by
  obtain ⟨e, h1, h2⟩ := C95ex.check
    (r := main C90ex.world (.collectEits none none none true false false))
    (P := fun e => e.docs.length = 2) (by decide +kernel)
  obtain ⟨e', h3, h4⟩ := C95ex.check
    (r := main C90ex.world (.collectEits (some [['1', '0', '1']]) none none true false false))
    (P := fun e => e.docs.length = 1) (by decide +kernel)
  exact ⟨C90ex.world, _, _, e, e', C90ex.reads, C90ex.numbers _ 101 C90ex.denotes101 (by decide), h1, h3,
    of_decide_eq_true h2, of_decide_eq_true h4⟩

end Mirakc.Props
