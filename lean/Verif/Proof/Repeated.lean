import Verif.Spec.Repeated
import Verif.Proof.Basic
/-
Lemmas: tables that are repeated do not matter to a demultiplexer with a handler that absorbs them.
-/
namespace Mirakc
open Mirakc.Spec.Repeated

theorem inForce_snoc {h : List Table} {t u : Table} (hf : InForce (h ++ [u]) t) :
    t = u ∨ (InForce h t ∧ subject u ≠ subject t) := by
  obtain ⟨hs, a, b, hab, hb⟩ := hf
  rcases List.eq_nil_or_concat b with rfl | ⟨b', x, rfl⟩
  · have := List.append_inj_right' hab rfl
    exact .inl (List.singleton_inj.1 this).symm
  · rw [List.concat_eq_append, show a ++ t :: (b' ++ [x]) = (a ++ t :: b') ++ [x] by simp] at hab
    obtain ⟨h1, h2⟩ := List.append_inj' hab rfl
    cases h2
    rw [List.concat_eq_append] at hb
    exact .inr ⟨⟨hs, a, b', h1, fun v hv => hb v (by simp [hv])⟩, hb _ (by simp)⟩

/-- A handler that is not disturbed by repeated tables: `R` relates its state to the one without the repetitions,
`A s t` holds if the state `s` reflects `t`. -/
structure Absorbs {σ : Type} (watched : σ → PidSet) (handle : σ → Table → Except Fault σ)
    (R : σ → σ → Prop) (A : σ → Table → Prop) : Prop where
  watch : ∀ {s s'}, R s s' → ∀ pid, (watched s').contains pid = (watched s).contains pid
  step : ∀ {s s' s1 t}, R s s' → handle s t = .ok s1 → ∃ s1', handle s' t = .ok s1' ∧ R s1 s1'
  own : ∀ {s s1 t}, subject t ≠ none → handle s t = .ok s1 → A s1 t
  keep : ∀ {s s1 t u}, A s t → subject t ≠ none → subject u ≠ subject t → handle s u = .ok s1 → A s1 t
  like : ∀ {s t} n v, A s t → A s { t with firstPacket := n, version := v }
  absorb : ∀ {s s' t}, subject t ≠ none → R s s' → A s t → ∃ s1', handle s' t = .ok s1' ∧ R s s1'

/-- The state reflects all tables in force. -/
def Reflects {σ : Type} (A : σ → Table → Prop) (h : List Table) (s : σ) : Prop := ∀ t, InForce h t → A s t

theorem reflects_nil {σ : Type} (A : σ → Table → Prop) (s : σ) : Reflects A [] s := by
  rintro t ⟨_, a, b, h, _⟩
  simp at h

section
variable {σ : Type} {watched : σ → PidSet} {handle : σ → Table → Except Fault σ}
  {R : σ → σ → Prop} {A : σ → Table → Prop}

/-- The tables that are not handed over do not matter. -/
theorem feedDemux_again {pid : Nat} : ∀ {ts : List Table} {s s1 : σ} {log : List Table},
    feedDemux watched handle pid ts s = .ok (s1, log) → feedDemux watched handle pid log s = .ok (s1, log)
  | [], s, s1, log, h => by cases h; rfl
  | t :: ts, s, s1, log, h => by
    unfold feedDemux at h
    split at h
    · next hc =>
      cases hh : handle s t with
      | error e => rw [hh] at h; cases h
      | ok s2 =>
        rw [hh] at h
        cases hf : feedDemux watched handle pid ts s2 with
        | error e => simp only [hf, ok_bind] at h; cases h
        | ok r =>
          obtain ⟨s3, l⟩ := r
          simp only [hf, ok_bind] at h
          cases h
          have ih := feedDemux_again hf
          unfold feedDemux
          rw [if_pos hc, hh]
          simp only [ok_bind, ih]
    · exact feedDemux_again h

theorem feedDemux_again_length {pid : Nat} : ∀ {ts : List Table} {s s1 : σ} {log : List Table},
    feedDemux watched handle pid ts s = .ok (s1, log) → log.length ≤ ts.length
  | [], s, s1, log, h => by cases h; exact Nat.le_refl _
  | t :: ts, s, s1, log, h => by
    unfold feedDemux at h
    split at h
    · cases hh : handle s t with
      | error e => rw [hh] at h; cases h
      | ok s2 =>
        rw [hh] at h
        cases hf : feedDemux watched handle pid ts s2 with
        | error e => simp only [hf, ok_bind] at h; cases h
        | ok r =>
          obtain ⟨s3, l⟩ := r
          simp only [hf, ok_bind] at h
          cases h
          have := feedDemux_again_length hf
          simp only [List.length_cons]; omega
    · have := feedDemux_again_length h
      simp only [List.length_cons]; omega

private theorem repeats_feed (H : Absorbs watched handle R A) {pid : Nat} {h ts us : List Table}
    (hr : Repeats h ts us) : ∀ {s s' s1 : σ}, R s s' → Reflects A h s →
    feedDemux watched handle pid ts s = .ok (s1, ts) →
    ∃ s1' log', feedDemux watched handle pid us s' = .ok (s1', log') ∧ R s1 s1' ∧ Reflects A (h ++ ts) s1 := by
  induction hr with
  | nil =>
    intro s s' s1 hR hA hf
    cases hf
    exact ⟨s', [], rfl, hR, by rw [List.append_nil]; exact hA⟩
  | @new h t ts us _ ih =>
    intro s s' s1 hR hA hf
    unfold feedDemux at hf
    split at hf
    · next hc =>
      cases hh : handle s t with
      | error e => rw [hh] at hf; cases hf
      | ok s2 =>
        rw [hh] at hf
        cases hff : feedDemux watched handle pid ts s2 with
        | error e => simp only [hff, ok_bind] at hf; cases hf
        | ok r =>
          obtain ⟨s3, l⟩ := r
          simp only [hff, ok_bind] at hf
          cases hf
          obtain ⟨s2', h2', hR2⟩ := H.step hR hh
          have hA2 : Reflects A (h ++ [t]) s2 := by
            intro u hu
            rcases inForce_snoc hu with rfl | ⟨hu, hne⟩
            · exact H.own hu.1 hh
            · exact H.keep (hA u hu) hu.1 hne hh
          obtain ⟨s1', log', e1, e2, e3⟩ := ih hR2 hA2 hff
          refine ⟨s1', t :: log', ?_, e2, by simpa using e3⟩
          unfold feedDemux
          rw [H.watch hR, if_pos hc, h2']
          simp only [ok_bind, e1]
    · have := feedDemux_again_length hf
      simp only [List.length_cons] at this
      omega
  | @again h t ts us n v hu _ ih =>
    intro s s' s1 hR hA hf
    by_cases hc : (t.sourcePid == pid && (watched s').contains pid) = true
    · obtain ⟨s2', e1, hR2⟩ := H.absorb (t := { t with firstPacket := n, version := v }) hu.1 hR (H.like n v (hA t hu))
      obtain ⟨s1', log', e2, e3, e4⟩ := ih hR2 hA hf
      refine ⟨s1', { t with firstPacket := n, version := v } :: log', ?_, e3, e4⟩
      unfold feedDemux
      rw [if_pos hc, e1]
      simp only [ok_bind, e2]
    · obtain ⟨s1', log', e2, e3, e4⟩ := ih hR hA hf
      refine ⟨s1', log', ?_, e3, e4⟩
      unfold feedDemux
      rw [if_neg hc]
      exact e2

/-- The demultiplexer with repetitions. -/
theorem feedDemux_repeats (H : Absorbs watched handle R A) {pid : Nat} {h ts log us : List Table} {s s' s1 : σ}
    (hR : R s s') (hA : Reflects A h s) (hf : feedDemux watched handle pid ts s = .ok (s1, log))
    (hr : Repeats h log us) :
    ∃ s1' log', feedDemux watched handle pid us s' = .ok (s1', log') ∧ R s1 s1' ∧ Reflects A (h ++ log) s1 :=
  repeats_feed H hr hR hA (feedDemux_again hf)

end

end Mirakc
