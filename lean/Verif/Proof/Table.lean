import Verif.Model.Table
import Verif.Proof.Basic
/-
Lemmas on maps and on the section demultiplexer.
-/
namespace Mirakc
set_option linter.unusedSimpArgs false

theorem lookup_mem {α} {l : List (Nat × α)} {k : Nat} {v : α} (h : l.lookup k = some v) :
    (k, v) ∈ l := by
  induction l with
  | nil => simp at h
  | cons a l ih =>
    obtain ⟨a1, a2⟩ := a
    simp only [List.lookup_cons] at h
    split at h
    · next e => simp at e h; subst e; subst h; simp
    · exact List.mem_cons_of_mem _ (ih h)

theorem mem_lookup {α} {l : List (Nat × α)} (hs : l.Pairwise (fun a b => a.1 < b.1))
    {k : Nat} {v : α} (h : (k, v) ∈ l) : l.lookup k = some v := by
  induction l with
  | nil => simp at h
  | cons a l ih =>
    obtain ⟨a1, a2⟩ := a
    simp only [List.lookup_cons]
    rw [List.pairwise_cons] at hs
    rcases List.mem_cons.mp h with e | h
    · cases e; simp
    · have := hs.1 _ h
      simp only at this
      have hne : (k == a1) = false := by simp; omega
      rw [hne]; exact ih hs.2 h

namespace OMap

theorem find?_iff {α} (m : OMap α) (k : Nat) (v : α) :
    m.find? k = some v ↔ (k, v) ∈ m.entries :=
  ⟨lookup_mem, mem_lookup m.sorted⟩

theorem find?_none {α} (m : OMap α) (k : Nat) :
    m.find? k = none ↔ ∀ v, (k, v) ∉ m.entries := by
  constructor
  · intro h v hv
    have := (m.find?_iff k v).2 hv
    rw [h] at this; cases this
  · intro h
    cases hf : m.find? k with
    | none => rfl
    | some v => exact absurd ((m.find?_iff k v).1 hf) (h v)

theorem find?_unique {α} (m : OMap α) {k : Nat} {v w : α} (h1 : (k, v) ∈ m.entries)
    (h2 : (k, w) ∈ m.entries) : v = w := by
  have a := (m.find?_iff k v).2 h1
  have b := (m.find?_iff k w).2 h2
  rw [a] at b; exact Option.some.inj b

theorem filter_key {α} (m : OMap α) {k : Nat} {v : α} (h : (k, v) ∈ m.entries) :
    (m.filter (·.1 == k)).entries = [(k, v)] := by
  obtain ⟨l, hs⟩ := m
  simp only [filter] at *
  induction l with
  | nil => simp at h
  | cons a l ih =>
    obtain ⟨a1, a2⟩ := a
    rw [List.pairwise_cons] at hs
    rcases List.mem_cons.mp h with e | h
    · cases e
      simp only [List.filter_cons, beq_self_eq_true, if_true]
      congr 1
      rw [List.filter_eq_nil_iff]
      intro b hb
      have := hs.1 b hb
      simp only at this
      simp; omega
    · have := hs.1 _ h
      simp only at this
      rw [List.filter_cons, if_neg (by simp; omega)]
      exact ih hs.2 h

end OMap

/-- An invariant that every handled table preserves holds after the packet. -/
theorem feedDemux_inv {σ} {watched : σ → PidSet} {handle : σ → Table → Except Fault σ}
    {pid : Nat} (I : σ → List Table → Prop)
    (step : ∀ s t s' rs, I s rs → t.sourcePid = pid → pid ∈ watched s → handle s t = .ok s' →
      I s' (rs ++ [t])) :
    ∀ (ts : List Table) (s : σ) (s' : σ) (log rs : List Table), I s rs →
      feedDemux watched handle pid ts s = .ok (s', log) → I s' (rs ++ log) := by
  intro ts
  induction ts with
  | nil =>
    intro s s' log rs hI h
    simp only [feedDemux, Except.ok.injEq, Prod.mk.injEq] at h
    obtain ⟨rfl, rfl⟩ := h
    simpa using hI
  | cons t ts ih =>
    intro s s' log rs hI h
    simp only [feedDemux] at h
    split at h
    · next hc =>
      simp only [Bool.and_eq_true, beq_iff_eq, List.contains_iff_mem] at hc
      obtain ⟨s1, h1, h⟩ := bind_eq_ok h
      obtain ⟨⟨s2, log2⟩, h2, h⟩ := bind_eq_ok h
      simp only [Except.ok.injEq, Prod.mk.injEq] at h
      obtain ⟨rfl, rfl⟩ := h
      have := ih s1 s2 log2 (rs ++ [t]) (step s t s1 rs hI hc.1 hc.2 h1) h2
      simpa using this
    · exact ih s s' log rs hI h

/-- The handled tables are some of the tables completed by the packet, all from its
PID. -/
theorem feedDemux_log {σ} {watched : σ → PidSet} {handle : σ → Table → Except Fault σ}
    {pid : Nat} : ∀ (ts : List Table) (s s' : σ) (log : List Table),
      feedDemux watched handle pid ts s = .ok (s', log) →
      ∀ t ∈ log, t ∈ ts ∧ t.sourcePid = pid := by
  intro ts
  induction ts with
  | nil =>
    intro s s' log h t ht
    simp only [feedDemux, Except.ok.injEq, Prod.mk.injEq] at h
    obtain ⟨rfl, rfl⟩ := h
    simp at ht
  | cons t ts ih =>
    intro s s' log h u hu
    simp only [feedDemux] at h
    split at h
    · next hc =>
      simp only [Bool.and_eq_true, beq_iff_eq, List.contains_iff_mem] at hc
      obtain ⟨s1, h1, h⟩ := bind_eq_ok h
      obtain ⟨⟨s2, log2⟩, h2, h⟩ := bind_eq_ok h
      simp only [Except.ok.injEq, Prod.mk.injEq] at h
      obtain ⟨rfl, rfl⟩ := h
      rcases List.mem_cons.mp hu with rfl | hu
      · exact ⟨by simp, hc.1⟩
      · have := ih _ _ _ h2 u hu
        exact ⟨List.mem_cons_of_mem _ this.1, this.2⟩
    · have := ih _ _ _ h u hu
      exact ⟨List.mem_cons_of_mem _ this.1, this.2⟩

/-- Every handler call succeeds, so the whole packet does. -/
theorem feedDemux_total {σ} {watched : σ → PidSet} {handle : σ → Table → Except Fault σ}
    {pid : Nat} (I : σ → Prop) (ok : Table → Prop)
    (step : ∀ s t, I s → ok t → t.sourcePid = pid → pid ∈ watched s →
      ∃ s', handle s t = .ok s' ∧ I s') :
    ∀ (ts : List Table) (s : σ), (∀ t ∈ ts, ok t) → I s →
      ∃ r, feedDemux watched handle pid ts s = .ok r ∧ I r.1 := by
  intro ts
  induction ts with
  | nil => intro s _ hI; exact ⟨_, rfl, hI⟩
  | cons t ts ih =>
    intro s hok hI
    simp only [feedDemux]
    split
    · next hc =>
      simp only [Bool.and_eq_true, beq_iff_eq, List.contains_iff_mem] at hc
      obtain ⟨s1, h1, hI1⟩ := step s t hI (hok t (by simp)) hc.1 hc.2
      obtain ⟨r, h2, hI2⟩ := ih s1 (fun u hu => hok u (List.mem_cons_of_mem _ hu)) hI1
      refine ⟨(r.1, t :: r.2), ?_, hI2⟩
      simp [h1, h2]
    · exact ih s (fun u hu => hok u (List.mem_cons_of_mem _ hu)) hI

/-- If handlers keep the PID watched, the tables handled are all those completed by
the packet on its PID, or none if the PID is not watched. -/
theorem feedDemux_handled {σ} {watched : σ → PidSet} {handle : σ → Table → Except Fault σ}
    {pid : Nat} (I : σ → Prop) (ok : Table → Prop)
    (step : ∀ s t s', I s → ok t → t.sourcePid = pid → pid ∈ watched s → handle s t = .ok s' →
      I s' ∧ pid ∈ watched s') :
    ∀ (ts : List Table) (s s' : σ) (log : List Table), (∀ t ∈ ts, ok t) → I s →
      feedDemux watched handle pid ts s = .ok (s', log) →
      (pid ∈ watched s → log = ts.filter (·.sourcePid == pid)) ∧ (pid ∉ watched s → log = []) := by
  intro ts
  induction ts with
  | nil =>
    intro s s' log _ _ h
    simp only [feedDemux, Except.ok.injEq, Prod.mk.injEq] at h
    obtain ⟨rfl, rfl⟩ := h
    simp
  | cons t ts ih =>
    intro s s' log hok hI h
    simp only [feedDemux] at h
    split at h
    · next hc =>
      simp only [Bool.and_eq_true, beq_iff_eq, List.contains_iff_mem] at hc
      obtain ⟨s1, h1, h⟩ := bind_eq_ok h
      obtain ⟨⟨s2, log2⟩, h2, h⟩ := bind_eq_ok h
      simp only [Except.ok.injEq, Prod.mk.injEq] at h
      obtain ⟨rfl, rfl⟩ := h
      obtain ⟨hI1, hin⟩ := step s t s1 hI (hok t (by simp)) hc.1 hc.2 h1
      have ih := ih s1 s2 log2 (fun u hu => hok u (List.mem_cons_of_mem _ hu)) hI1 h2
      refine ⟨fun _ => ?_, fun hn => absurd hc.2 hn⟩
      rw [ih.1 hin, List.filter_cons, if_pos (by simpa using hc.1)]
    · next hc =>
      have ih := ih s s' log (fun u hu => hok u (List.mem_cons_of_mem _ hu)) hI h
      refine ⟨fun hin => ?_, ih.2⟩
      rw [ih.1 hin, List.filter_cons, if_neg]
      intro e
      exact hc (by simp [e, hin])

end Mirakc
