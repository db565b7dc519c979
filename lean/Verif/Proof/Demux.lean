import Verif.Spec.Demux
import Verif.Proof.Table
/-
The demultiplexer hands over what `Handed` says.
-/
namespace Mirakc
open Mirakc.Spec

theorem Spec.Handed.total (W : List Table → Nat → Prop) (pid : Nat) :
    ∀ (ts rs : List Table), ∃ log, Handed W pid rs ts log
  | [], rs => ⟨[], .nil rs⟩
  | t :: ts, rs => by
    by_cases h : t.sourcePid = pid ∧ W rs pid
    · obtain ⟨log, h1⟩ := Handed.total W pid ts (rs ++ [t])
      exact ⟨_, .take h h1⟩
    · obtain ⟨log, h1⟩ := Handed.total W pid ts rs
      exact ⟨_, .skip h h1⟩

theorem Spec.Handed.unique {W : List Table → Nat → Prop} {pid : Nat} {rs ts log log' : List Table}
    (h : Handed W pid rs ts log) (h' : Handed W pid rs ts log') : log = log' := by
  induction h generalizing log' with
  | nil => cases h'; rfl
  | take h1 _ ih =>
    cases h' with
    | take _ h2 => rw [ih h2]
    | skip h2 _ => exact absurd h1 h2
  | skip h1 _ ih =>
    cases h' with
    | take h2 _ => exact absurd h2 h1
    | skip _ h2 => exact ih h2

/-- Some table of `log` is bad where it stands. -/
def Spoilt (bad : List Table → Table → Prop) (rs log : List Table) : Prop :=
  ∃ a t b, log = a ++ t :: b ∧ bad (rs ++ a) t

theorem not_spoilt_nil {bad : List Table → Table → Prop} {rs : List Table} : ¬ Spoilt bad rs [] := by
  rintro ⟨a, t, b, h, _⟩
  simp at h

theorem spoilt_cons {bad : List Table → Table → Prop} {rs log : List Table} {t : Table} :
    Spoilt bad rs (t :: log) ↔ bad rs t ∨ Spoilt bad (rs ++ [t]) log := by
  constructor
  · rintro ⟨a, u, b, h, hb⟩
    cases a with
    | nil =>
      simp only [List.nil_append, List.cons.injEq] at h
      rw [List.append_nil, ← h.1] at hb
      exact .inl hb
    | cons x a =>
      simp only [List.cons_append, List.cons.injEq] at h
      obtain ⟨rfl, rfl⟩ := h
      exact .inr ⟨a, u, b, rfl, by simpa using hb⟩
  · rintro (h | ⟨a, u, b, rfl, hb⟩)
    · exact ⟨[], t, log, rfl, by simpa using h⟩
    · exact ⟨t :: a, u, b, rfl, by simpa using hb⟩

/-- The demultiplexer hands over what it should, and fails exactly if a table handed over is
bad. -/
theorem feedDemux_exact {σ} {watched : σ → PidSet} {handle : σ → Table → Except Fault σ} {pid : Nat}
    {W : List Table → Nat → Prop} {bad : List Table → Table → Prop} (I : σ → List Table → Prop)
    (hw : ∀ s rs, I s rs → (pid ∈ watched s ↔ W rs pid))
    (step : ∀ s t s' rs, I s rs → t.sourcePid = pid → W rs pid → handle s t = .ok s' → I s' (rs ++ [t]))
    (hb : ∀ s t rs, I s rs → t.sourcePid = pid → W rs pid → ((∃ f, handle s t = .error f) ↔ bad rs t)) :
    ∀ (ts : List Table) (s : σ) (rs : List Table), I s rs → ∃ log, Handed W pid rs ts log ∧
      ((∃ s', feedDemux watched handle pid ts s = .ok (s', log) ∧ I s' (rs ++ log) ∧ ¬ Spoilt bad rs log) ∨
       ((∃ f, feedDemux watched handle pid ts s = .error f) ∧ Spoilt bad rs log)) := by
  intro ts
  induction ts with
  | nil => exact fun s rs hI => ⟨[], .nil rs, .inl ⟨s, rfl, by simpa using hI, not_spoilt_nil⟩⟩
  | cons t ts ih =>
    intro s rs hI
    by_cases hc : t.sourcePid = pid ∧ W rs pid
    · have hif : (t.sourcePid == pid && (watched s).contains pid) = true := by
        simp [hc.1, (hw s rs hI).2 hc.2]
      cases hh : handle s t with
      | error f =>
        obtain ⟨log, hl⟩ := Handed.total W pid ts (rs ++ [t])
        refine ⟨t :: log, .take hc hl, .inr ⟨⟨f, ?_⟩, spoilt_cons.2 (.inl ((hb s t rs hI hc.1 hc.2).1 ⟨f, hh⟩))⟩⟩
        simp only [feedDemux, hif, if_true, hh]
        rfl
      | ok s1 =>
        have hnb : ¬ bad rs t := by
          intro hbad
          obtain ⟨f, hf⟩ := (hb s t rs hI hc.1 hc.2).2 hbad
          rw [hh] at hf
          cases hf
        obtain ⟨log, hl, h⟩ := ih s1 (rs ++ [t]) (step s t s1 rs hI hc.1 hc.2 hh)
        refine ⟨t :: log, .take hc hl, ?_⟩
        rcases h with ⟨s', h1, h2, h3⟩ | ⟨⟨f, h1⟩, h2⟩
        · refine .inl ⟨s', ?_, by simpa using h2, fun h => ?_⟩
          · simp only [feedDemux, hif, if_true, hh, ok_bind, h1]
          · rcases spoilt_cons.1 h with h | h
            · exact hnb h
            · exact h3 h
        · refine .inr ⟨⟨f, ?_⟩, spoilt_cons.2 (.inr h2)⟩
          simp only [feedDemux, hif, if_true, hh, ok_bind, h1]
          rfl
    · have hif : (t.sourcePid == pid && (watched s).contains pid) = false := by
        rw [Bool.and_eq_false_iff]
        by_cases h1 : t.sourcePid = pid
        · right
          have : pid ∉ watched s := fun h => hc ⟨h1, (hw s rs hI).1 h⟩
          simpa using this
        · left
          simpa using h1
      obtain ⟨log, hl, h⟩ := ih s rs hI
      refine ⟨log, .skip hc hl, ?_⟩
      simp only [feedDemux, hif]
      exact h

end Mirakc
