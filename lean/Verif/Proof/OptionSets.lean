import Verif.Spec.OptionSets
import Verif.Proof.Main
import Verif.Proof.EitpfCollector
/-
Lemmas: the commands use the lists of their options as sets.
-/
namespace Mirakc.Main
open Mirakc.Pipeline Mirakc.Spec Mirakc.Spec.Main Mirakc.Spec.Options

theorem sidSet_ok {arg : Option (List (List Char))} (hn : Numbers arg) : ∃ sids, sidSet arg = .ok sids := by
  cases arg with
  | none => exact ⟨[], rfl⟩
  | some l =>
    rcases Options.addSids_spec l [] with ⟨_, t, h1, _⟩ | ⟨⟨s, hs, hno⟩, _⟩
    · exact ⟨_, by simp only [sidSet, Options.loadSidSet, h1]; rfl⟩
    · exfalso
      obtain ⟨v, hv, hb⟩ := hn l rfl s hs
      exact hno ⟨v, [], hv, by unfold Spec.Options.Fits; omega⟩

/-- The test of the code. -/
def chosen {α : Type} [BEq α] (sids xsids : List α) (x : α) : Bool :=
  !(!sids.isEmpty && !sids.contains x) && !(!xsids.isEmpty && xsids.contains x)

theorem chosen_iff {α : Type} [BEq α] [LawfulBEq α] (sids xsids : List α) (x : α) :
    chosen sids xsids x = true ↔ (sids = [] ∨ x ∈ sids) ∧ x ∉ xsids := by
  unfold chosen
  cases sids with
  | nil =>
    cases xsids with
    | nil => simp
    | cons b bs => simp
  | cons a as =>
    cases xsids with
    | nil => simp
    | cons b bs => simp

theorem chosen_congr {α : Type} [BEq α] [LawfulBEq α] {a b a' b' : List α}
    (h : ∀ x, ((a = [] ∨ x ∈ a) ∧ x ∉ b) ↔ ((a' = [] ∨ x ∈ a') ∧ x ∉ b')) :
    ∀ x, chosen a b x = chosen a' b' x := by
  intro x
  rw [Bool.eq_iff_iff, chosen_iff, chosen_iff]
  exact h x

theorem if_chosen {α β : Type} [BEq α] {sids xsids : List α} {x : α} {p q : β} :
    (if (!sids.isEmpty && !sids.contains x) = true then p
      else if (!xsids.isEmpty && xsids.contains x) = true then p else q) =
    if chosen sids xsids x = true then q else p := by
  unfold chosen
  cases (!sids.isEmpty && !sids.contains x) <;> cases (!xsids.isEmpty && xsids.contains x) <;> rfl

theorem scan_congr {o o' : ServiceScanner.Opt}
    (h : ∀ x, chosen o.sids o.xsids x = chosen o'.sids o'.xsids x) :
    ServiceScanner.sink o = ServiceScanner.sink o' := by
  have loop : ∀ sdt nit l, ServiceScanner.collectLoop o sdt nit l = ServiceScanner.collectLoop o' sdt nit l := by
    intro sdt nit l
    induction l with
    | nil => rfl
    | cons x l ih =>
      obtain ⟨sid, pid⟩ := x
      simp only [ServiceScanner.collectLoop, ih]
      rw [if_chosen, if_chosen, h]
  have hf : ServiceScanner.finish o = ServiceScanner.finish o' := by
    funext s
    simp only [ServiceScanner.finish, ServiceScanner.collectServices, loop]
  unfold ServiceScanner.sink
  rw [hf]

theorem sync_congr {o o' : PcrSynchronizer.Opt}
    (h : ∀ x, chosen o.sids o.xsids x = chosen o'.sids o'.xsids x) :
    PcrSynchronizer.sink o = PcrSynchronizer.sink o' := by
  have hs : PcrSynchronizer.isSelected o = PcrSynchronizer.isSelected o' := funext h
  have hp : PcrSynchronizer.handlePat o = PcrSynchronizer.handlePat o' := by
    funext s t pat
    simp only [PcrSynchronizer.handlePat, hs]
  have ht : PcrSynchronizer.handleTable o = PcrSynchronizer.handleTable o' := by
    funext s t
    simp only [PcrSynchronizer.handleTable, hp]
  have hst : PcrSynchronizer.step o = PcrSynchronizer.step o' := by
    funext s i
    simp only [PcrSynchronizer.step, ht]
  unfold PcrSynchronizer.sink
  rw [hst]

theorem eits_congr {o o' : EitCollector.Opt}
    (h : ∀ x, chosen o.sids o.xsids x = chosen o'.sids o'.xsids x) (h1 : o.timeLimit = o'.timeLimit)
    (h2 : o.streaming = o'.streaming) (h3 : o.collectActual = o'.collectActual)
    (h4 : o.collectOthers = o'.collectOthers) :
    EitCollector.sink o = EitCollector.sink o' ∧ EitCollector.init o = EitCollector.init o' := by
  have hs : EitCollector.handleSection o = EitCollector.handleSection o' := by
    funext s x
    simp only [EitCollector.handleSection, h3, h4]
    have : ∀ e : EitSection, (∀ (p q : Except Fault (EitCollector.St × Option EitSection)),
        (if (!o.sids.isEmpty && !o.sids.contains e.sid) = true then p
          else if (!o.xsids.isEmpty && o.xsids.contains e.sid) = true then p else q) =
        (if (!o'.sids.isEmpty && !o'.sids.contains e.sid) = true then p
          else if (!o'.xsids.isEmpty && o'.xsids.contains e.sid) = true then p else q)) := by
      intro e p q
      rw [if_chosen, if_chosen, h]
    simp only [this]
  have he : EitCollector.handleEvent o = EitCollector.handleEvent o' := by
    funext s x
    cases x <;> simp only [EitCollector.handleEvent, hs]
  have hes : EitCollector.handleEvents o = EitCollector.handleEvents o' := by
    funext l
    induction l with
    | nil => rfl
    | cons x l ih =>
      funext s
      simp only [EitCollector.handleEvents, he, ih]
  have hc : EitCollector.checkTimeout o = EitCollector.checkTimeout o' := by
    funext s
    unfold EitCollector.checkTimeout
    rw [h1, h2]
  have hk : EitCollector.isCompleted o = EitCollector.isCompleted o' := by
    funext s
    unfold EitCollector.isCompleted
    rw [h2]
  have hst : EitCollector.step o = EitCollector.step o' := by
    funext s i
    simp only [EitCollector.step, hes, hc, hk]
  constructor
  · unfold EitCollector.sink
    rw [hst]
  · simp only [EitCollector.init, h3, h4]

theorem distinct_nodup : ∀ l : SidSet, (EitpfCollector.distinct l).Nodup
  | [] => List.nodup_nil
  | s :: l => by
    unfold EitpfCollector.distinct
    split
    · exact distinct_nodup l
    · next h =>
      refine List.nodup_cons.2 ⟨fun hm => h ?_, distinct_nodup l⟩
      exact List.contains_iff_mem.2 (EitpfCollector.mem_distinct.1 hm)

theorem sidsSize_congr {a a' : SidSet} (h : ∀ x, x ∈ a ↔ x ∈ a') :
    EitpfCollector.sidsSize a = EitpfCollector.sidsSize a' := by
  unfold EitpfCollector.sidsSize
  refine List.Perm.length_eq ((List.perm_ext_iff_of_nodup (distinct_nodup a) (distinct_nodup a')).2 fun x => ?_)
  rw [EitpfCollector.mem_distinct, EitpfCollector.mem_distinct, h]

theorem isEmpty_congr {α : Type} {a a' : List α} (h : ∀ x, x ∈ a ↔ x ∈ a') : a.isEmpty = a'.isEmpty := by
  rw [Bool.eq_iff_iff, List.isEmpty_iff, List.isEmpty_iff, List.eq_nil_iff_forall_not_mem,
    List.eq_nil_iff_forall_not_mem]
  exact forall_congr' fun x => not_congr (h x)

theorem contains_congr {α : Type} [BEq α] [LawfulBEq α] {a a' : List α} (h : ∀ x, x ∈ a ↔ x ∈ a') (x : α) :
    a.contains x = a'.contains x := by
  rw [Bool.eq_iff_iff, List.contains_iff_mem, List.contains_iff_mem, h]

theorem eitpf_congr {o o' : EitpfCollector.Opt} (h : ∀ x, x ∈ o.sids ↔ x ∈ o'.sids)
    (h1 : o.streaming = o'.streaming) (h2 : o.present = o'.present) (h3 : o.following = o'.following) :
    EitpfCollector.sink o = EitpfCollector.sink o' := by
  have hs : EitpfCollector.handleSection o = EitpfCollector.handleSection o' := by
    funext s x
    simp only [EitpfCollector.handleSection, isEmpty_congr h, contains_congr h, h2, h3]
  have he : EitpfCollector.handleEvent o = EitpfCollector.handleEvent o' := by
    funext s x
    cases x <;> simp only [EitpfCollector.handleEvent, hs]
  have hes : EitpfCollector.handleEvents o = EitpfCollector.handleEvents o' := by
    funext l
    induction l with
    | nil => rfl
    | cons x l ih =>
      funext s
      simp only [EitpfCollector.handleEvents, he, ih]
  have hd : EitpfCollector.done o = EitpfCollector.done o' := by
    funext s
    simp only [EitpfCollector.done, sidsSize_congr h, h1, h2, h3]
  have hst : EitpfCollector.step o = EitpfCollector.step o' := by
    funext s i
    simp only [EitpfCollector.step, hes, hd]
  unfold EitpfCollector.sink
  rw [hst]

theorem program_congr {σ : Type} (extra : Pmt → Nat) (o : ProgramFilter.Opt) {at' vt' : List Nat}
    (ha : ∀ x, x ∈ o.audioTags ↔ x ∈ at') (hv : ∀ x, x ∈ o.videoTags ↔ x ∈ vt')
    (snk : Sink ProgramFilter.Out σ) :
    ProgramFilter.sink extra { o with audioTags := at', videoTags := vt' } snk = ProgramFilter.sink extra o snk := by
  have hx : ProgramFilter.excluded { o with audioTags := at', videoTags := vt' } = ProgramFilter.excluded o := by
    funext st
    simp only [ProgramFilter.excluded, isEmpty_congr ha, isEmpty_congr hv, contains_congr ha, contains_congr hv]
  have hp : ProgramFilter.handlePmt { o with audioTags := at', videoTags := vt' } = ProgramFilter.handlePmt o := by
    funext s t pmt
    simp only [ProgramFilter.handlePmt, hx]
  have ht : ProgramFilter.handleTable { o with audioTags := at', videoTags := vt' } = ProgramFilter.handleTable o := by
    funext s t
    unfold ProgramFilter.handleTable
    rw [hp]
    rfl
  have hs : ProgramFilter.step extra { o with audioTags := at', videoTags := vt' } = ProgramFilter.step extra o := by
    funext s i
    unfold ProgramFilter.step
    rw [ht]
    rfl
  have hn : ProgramFilter.announced { o with audioTags := at', videoTags := vt' } = ProgramFilter.announced o := by
    funext s i
    unfold ProgramFilter.announced
    rw [ht]
    rfl
  unfold ProgramFilter.sink
  rw [hs, hn]

theorem tags_ok {arg : Option (List (List Char))} (hn : Tags arg) :
    ∃ tags, Options.loadComponentTags arg = .ok tags ∧ ∀ x : Nat, x ∈ tags ↔ Names arg x := by
  cases arg with
  | none => exact ⟨[], rfl, by simp [Names]⟩
  | some l =>
    rcases Options.addTags_spec l [] with ⟨_, t, h1, h2⟩ | ⟨⟨s, hs, hno⟩, _⟩
    · refine ⟨t, by simpa [Options.loadComponentTags] using h1, fun x => ?_⟩
      rw [h2]
      simp [Names]
    · exact absurd (hn l rfl s hs) hno

end Mirakc.Main
