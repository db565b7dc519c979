import Verif.Spec.Received
import Verif.Proof.Table
/-
Lemmas about the tables received.
-/
namespace Mirakc
open Mirakc.Spec

theorem list_snoc_rec {α : Type} {P : List α → Prop} (nil : P []) (snoc : ∀ a t, P a → P (a ++ [t])) :
    ∀ l, P l := by
  intro l
  rw [← List.reverse_reverse l]
  induction l.reverse with
  | nil => exact nil
  | cons t a ih => rw [List.reverse_cons]; exact snoc _ _ ih

theorem eq_dropLast_append {α : Type} {l : List α} {x : α} (h : l.getLast? = some x) : l = l.dropLast ++ [x] := by
  rcases List.eq_nil_or_concat l with hn | ⟨a, y, e⟩
  · rw [hn] at h; cases h
  · rw [List.concat_eq_append] at e
    subst e
    simp only [List.getLast?_append, List.getLast?_singleton, Option.some_or, Option.some.injEq] at h
    subst h
    simp

/-- An invariant of all tables completed on the packet's PID, whether they are handed
over or not. -/
theorem feedDemux_all {σ} {watched : σ → PidSet} {handle : σ → Table → Except Fault σ}
    {pid : Nat} (I : σ → List Table → Prop)
    (step : ∀ s t s' rs, I s rs → t.sourcePid = pid → pid ∈ watched s → handle s t = .ok s' →
      I s' (rs ++ [t]))
    (skip : ∀ s t rs, I s rs → t.sourcePid = pid → pid ∉ watched s → I s (rs ++ [t])) :
    ∀ (ts : List Table) (s : σ) (s' : σ) (log rs : List Table), I s rs →
      feedDemux watched handle pid ts s = .ok (s', log) → I s' (rs ++ ts.filter (·.sourcePid == pid)) := by
  intro ts
  induction ts with
  | nil =>
    intro s s' log rs hI h
    simp only [feedDemux, Except.ok.injEq, Prod.mk.injEq] at h
    obtain ⟨rfl, rfl⟩ := h
    simpa using hI
  | cons t ts ih =>
    intro s s' log rs hI h
    simp only [feedDemux] at h
    split at h
    · next hc =>
      simp only [Bool.and_eq_true, beq_iff_eq, List.contains_iff_mem] at hc
      obtain ⟨s1, h1, h⟩ := bind_eq_ok h
      obtain ⟨⟨s2, log2⟩, h2, h⟩ := bind_eq_ok h
      simp only [Except.ok.injEq, Prod.mk.injEq] at h
      obtain ⟨rfl, rfl⟩ := h
      have := ih s1 s2 log2 (rs ++ [t]) (step s t s1 rs hI hc.1 hc.2 h1) h2
      rw [List.filter_cons, if_pos (by simp [hc.1])]
      simpa using this
    · next hc =>
      by_cases hp : t.sourcePid = pid
      · have hw : pid ∉ watched s := fun hw => hc (by simp [hp, hw])
        have := ih s s' log (rs ++ [t]) (skip s t rs hI hp hw) h
        rw [List.filter_cons, if_pos (by simp [hp])]
        simpa using this
      · have := ih s s' log rs hI h
        rw [List.filter_cons, if_neg (by simp [hp])]
        exact this

theorem received_snoc (is : List Input) (i : Input) :
    received (is ++ [i]) = received is ++ i.tables.filter (·.sourcePid == i.packet.pid) := by
  simp [received]

theorem received_append (a b : List Input) : received (a ++ b) = received a ++ received b := by
  simp [received]

end Mirakc
