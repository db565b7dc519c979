import Verif.Spec.Causality
import Verif.Proof.Causality
import Verif.Props.MainFilters
import Verif.Props.MainAborts
/-
C123: what has been written does not depend on what is read later.
-/
namespace Mirakc.Props
open Mirakc.Main Mirakc.Spec.Main

/-- C123: whatever follows in the input, the command writes first what it writes without it. -/
theorem C123_live (w w' : World) (hs : SameBut w w') (ps qs : List (List UInt8)) (hr : Reads w ps)
    (hr' : Reads w' (ps ++ qs)) (cmd : Cmd) (hl : live cmd = true) (e e' : Ended)
    (h : main w cmd = .ok e) (h' : main w' cmd = .ok e') :
    e.bytes <+: e'.bytes ∧ withoutStop e.docs <+: withoutStop e'.docs ∧ e.ops <+: e'.ops ∧
    (records cmd = false → e.docs <+: e'.docs) := by
  obtain ⟨c1, c2, c3, c4, c5, c6, c7, c8, c9, c10, c11⟩ := hs
  cases cmd with
  | scanServices => cases hl
  | syncClocks => cases hl
  | seekStart => cases hl
  | collectEits a b t st oa oo =>
    obtain ⟨o, h1, h2⟩ := bind_ok_iff.1 h
    obtain ⟨o', h1', h2'⟩ := bind_ok_iff.1 h'
    rw [h1] at h1'; cases h1'
    obtain ⟨x, h3, h4⟩ := bind_ok_iff.1 h2
    obtain ⟨x', h3', h4'⟩ := bind_ok_iff.1 h2'
    rw [h3] at h3'; cases h3'
    obtain ⟨⟨c, n, a⟩, h5, h6⟩ := bind_ok_iff.1 h4
    obtain ⟨⟨c', n', b⟩, h5', h6'⟩ := bind_ok_iff.1 h4'
    have e1 : sections w' = sections w := by unfold sections; rw [c1, c4]
    rw [e1] at h5'
    cases h6; cases h6'
    have hp := history_grows hr hr' (fun l => l.did) h5 h5'
    have hd : eitDocs w ((a.items.flatMap (·.did)).filterMap (·.out)) <+:
        eitDocs w' ((b.items.flatMap (·.did)).filterMap (·.out)) := by
      unfold eitDocs; rw [c9]
      exact (hp.filterMap _).filterMap _
    exact ⟨List.prefix_refl _, hd.filter _, List.prefix_refl _, fun _ => hd⟩
  | collectEitpf a st pr fo =>
    obtain ⟨o, h1, h2⟩ := bind_ok_iff.1 h
    obtain ⟨o', h1', h2'⟩ := bind_ok_iff.1 h'
    rw [h1] at h1'; cases h1'
    obtain ⟨⟨c, n, a⟩, h5, h6⟩ := bind_ok_iff.1 h2
    obtain ⟨⟨c', n', b⟩, h5', h6'⟩ := bind_ok_iff.1 h2'
    have e1 : sections w' = sections w := by unfold sections; rw [c1, c4]
    rw [e1] at h5'
    cases h6; cases h6'
    have hp := history_grows hr hr' (fun l => l.did) h5 h5'
    have hd : eitDocs w ((a.items.flatMap (·.did)).filterMap (·.out)) <+:
        eitDocs w' ((b.items.flatMap (·.did)).filterMap (·.out)) := by
      unfold eitDocs; rw [c9]
      exact (hp.filterMap _).filterMap _
    exact ⟨List.prefix_refl _, hd.filter _, List.prefix_refl _, fun _ => hd⟩
  | collectLogos =>
    obtain ⟨⟨c, n, a⟩, h5, h6⟩ := bind_ok_iff.1 h
    obtain ⟨⟨c', n', b⟩, h5', h6'⟩ := bind_ok_iff.1 h'
    rw [c5, c8] at h5'
    cases h6; cases h6'
    have hd := (history_grows hr hr' (fun l => l.did) h5 h5').map Doc.logo
    exact ⟨List.prefix_refl _, hd.filter _, List.prefix_refl _, fun _ => hd⟩
  | filterService sid =>
    obtain ⟨⟨c, n, f, n2, a⟩, h5, h6⟩ := bind_ok_iff.1 h
    obtain ⟨⟨c', n', f', n2', b⟩, h5', h6'⟩ := bind_ok_iff.1 h'
    rw [c1, c2, c10] at h5'
    cases h6; cases h6'
    refine ⟨?_, List.prefix_refl _, List.prefix_refl _, fun _ => List.prefix_refl _⟩
    rcases feed_grows hr hr' (grows_via (grows_serviceFilter (grows_via grows_stdout))) h5 h5' with
      e | ⟨a0, b0, h1, h2, h3⟩
    · cases e; exact List.prefix_refl _
    · have h1 := finish_stdout (finish_via (finish_serviceFilter (finish_via h1)))
      have h2 := finish_stdout (finish_via (finish_serviceFilter (finish_via h2)))
      dsimp only at h1 h2 ⊢
      rw [h1, h2]; exact h3
  | filterProgram ar =>
    obtain ⟨o, h1, h2⟩ := bind_ok_iff.1 h
    obtain ⟨o', h1', h2'⟩ := bind_ok_iff.1 h'
    rw [h1] at h1'; cases h1'
    obtain ⟨⟨c, n, f, n2, g, n3, a⟩, h5, h6⟩ := bind_ok_iff.1 h2
    obtain ⟨⟨c', n', f', n2', g', n3', b⟩, h5', h6'⟩ := bind_ok_iff.1 h2'
    rw [c1, c2, c3, c7, c10] at h5'
    cases h6; cases h6'
    refine ⟨?_, List.prefix_refl _, List.prefix_refl _, fun _ => List.prefix_refl _⟩
    rcases feed_grows hr hr' (grows_via (grows_serviceFilter (grows_via (grows_programFilter
      (grows_via grows_stdout))))) h5 h5' with e | ⟨a0, b0, h1, h2, h3⟩
    · cases e; exact List.prefix_refl _
    · have h1 := finish_stdout (finish_via (finish_programFilter (finish_via (finish_serviceFilter (finish_via h1)))))
      have h2 := finish_stdout (finish_via (finish_programFilter (finish_via (finish_serviceFilter (finish_via h2)))))
      dsimp only at h1 h2 ⊢
      rw [h1, h2]; exact h3
  | filterProgramMetadata sid =>
    obtain ⟨⟨c, n, a⟩, h5, h6⟩ := bind_ok_iff.1 h
    obtain ⟨⟨c', n', b⟩, h5', h6'⟩ := bind_ok_iff.1 h'
    have e1 : packet w' = packet w := by unfold packet; rw [c1, c2]
    rw [e1] at h5'
    cases h6; cases h6'
    have hd := (history_grows hr hr' (fun l => l.did) h5 h5').map Doc.metadata
    exact ⟨List.prefix_refl _, hd.filter _, List.prefix_refl _, fun _ => hd⟩
  | recordService sid cs nc sp =>
    obtain ⟨o, h1, h2⟩ := bind_ok_iff.1 h
    obtain ⟨o', h1', h2'⟩ := bind_ok_iff.1 h'
    rw [h1] at h1'; cases h1'
    obtain ⟨x, h3, h4⟩ := bind_ok_iff.1 h2
    obtain ⟨x', h3', h4'⟩ := bind_ok_iff.1 h2'
    rw [c11, h3] at h3'; cases h3'
    obtain ⟨⟨c, n, f, n2, a⟩, h5, h6⟩ := bind_ok_iff.1 h4
    obtain ⟨⟨c', n', f', n2', b⟩, h5', h6'⟩ := bind_ok_iff.1 h4'
    rw [c1, c2, c3, c6] at h5'
    cases h6; cases h6'
    refine ⟨List.prefix_refl _, ?_, ?_, fun hf => by cases hf⟩
    all_goals
      rcases feed_grows hr hr' (grows_via (grows_serviceFilter (grows_via grows_recorder))) h5 h5' with
        e | ⟨a0, b0, h1, h2, h3⟩
    · cases e; exact List.prefix_refl _
    · have h1 := finish_recorder (finish_via (finish_serviceFilter (finish_via h1)))
      have h2 := finish_recorder (finish_via (finish_serviceFilter (finish_via h2)))
      dsimp only at h1 h2 ⊢
      rw [h1, h2]
      unfold messages withoutStop
      rw [List.filterMap_append, List.filterMap_append, List.filter_append, List.filter_append]
      simp only [List.filterMap_cons, List.filterMap_nil, List.filter_cons, List.filter_nil,
        Bool.false_eq_true, if_false, List.append_nil]
      exact (h3.filterMap _).filter _
    · cases e; exact List.prefix_refl _
    · have h1 := finish_recorder (finish_via (finish_serviceFilter (finish_via h1)))
      have h2 := finish_recorder (finish_via (finish_serviceFilter (finish_via h2)))
      dsimp only at h1 h2 ⊢
      rw [h1, h2]
      unfold operations
      rw [List.filterMap_append, List.filterMap_append]
      simp only [List.filterMap_cons, List.filterMap_nil, List.append_nil]
      exact h3.filterMap _
  | trackAirtime sid eid =>
    obtain ⟨⟨c, n, a⟩, h5, h6⟩ := bind_ok_iff.1 h
    obtain ⟨⟨c', n', b⟩, h5', h6'⟩ := bind_ok_iff.1 h'
    have e1 : packet w' = packet w := by unfold packet; rw [c1, c2]
    rw [e1] at h5'
    cases h6; cases h6'
    have hd := (history_grows hr hr' (fun l => l.did) h5 h5').map Doc.airtime
    exact ⟨List.prefix_refl _, hd.filter _, List.prefix_refl _, fun _ => hd⟩
  | printPes =>
    obtain ⟨⟨c, n, a⟩, h5, h6⟩ := bind_ok_iff.1 h
    obtain ⟨⟨c', n', b⟩, h5', h6'⟩ := bind_ok_iff.1 h'
    have e1 : packet w' = packet w := by unfold packet; rw [c1, c2]
    rw [e1] at h5'
    cases h6; cases h6'
    have hd := (history_grows hr hr' (fun l => l.did.lines) h5 h5').map Doc.line
    exact ⟨List.prefix_refl _, hd.filter _, List.prefix_refl _, fun _ => hd⟩

namespace C123ex

/-- The beginning of the stream of C68. -/
def ps : List (List UInt8) := C68ex.ps.take 6
/-- The rest. -/
def qs : List (List UInt8) := C68ex.ps.drop 6
def world : World := { C95ex.world with read := [some ps.flatten] }
theorem reads : Reads world ps := by
  refine ⟨fun r hr => ?_, ?_⟩
  · have : ∀ r ∈ world.read, (r.getD []).length ≤ 16384 := by decide +kernel
    exact this _ hr
  · have : contents world = ps.flatten := by decide +kernel
    rw [this]
    exact Mirakc.Pipeline.packets_flatten (by decide +kernel)
theorem reads' : Reads C95ex.world (ps ++ qs) := by
  have : ps ++ qs = C68ex.ps := List.take_append_drop 6 _
  rw [this]; exact C95ex.reads

end C123ex

/-- Six packets of the stream of C68, and all nine of them: filter-service, filter-program and
print-pes have written less after six. -/
example : SameBut C123ex.world C95ex.world ∧ Reads C123ex.world C123ex.ps ∧
    Reads C95ex.world (C123ex.ps ++ C123ex.qs) ∧
    ∀ cmd ∈ [Cmd.filterService (some 1), .filterProgram C95ex.args, .printPes],
      live cmd = true ∧ ∃ e e', main C123ex.world cmd = .ok e ∧ main C95ex.world cmd = .ok e' ∧
        (e.bytes ≠ [] ∨ e.docs ≠ []) ∧ e.bytes.length + e.docs.length < e'.bytes.length + e'.docs.length := by
  refine ⟨by constructor <;> rfl, C123ex.reads, C123ex.reads', ?_⟩
  have key : ∀ cmd ∈ [Cmd.filterService (some 1), .filterProgram C95ex.args, .printPes],
      (live cmd && match main C123ex.world cmd, main C95ex.world cmd with
      | .ok e, .ok e' => decide ((e.bytes ≠ [] ∨ e.docs ≠ []) ∧
          e.bytes.length + e.docs.length < e'.bytes.length + e'.docs.length)
      | _, _ => false) = true := by decide +kernel
  intro cmd hc
  have := key cmd hc
  rw [Bool.and_eq_true] at this
  refine ⟨this.1, ?_⟩
  have := this.2
  split at this
  · next e e' h1 h2 => exact ⟨e, e', h1, h2, (of_decide_eq_true this).1, (of_decide_eq_true this).2⟩
  · cases this

end Mirakc.Props
