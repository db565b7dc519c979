import Verif.Proof.StopsAt
import Verif.Proof.ServiceRecorderInv
/-
When an arbitrary sink terminates abnormally.
-/
namespace Mirakc
open Mirakc.Spec

theorem Spec.Accepts.consumes {P σ : Type} {snk : Sink P σ} {s s' : σ} {ps : List P}
    (h : Accepts snk s ps s') : Consumes snk s ps ps s' := by
  induction h with
  | nil => exact .eof
  | cons h _ ih => exact .accept h ih

theorem feedLoop_accepts {P σ : Type} {snk : Sink P σ} {s s' : σ} {ps : List P}
    (h : Accepts snk s ps s') : ∀ fuel, ps.length < fuel →
    feedLoop listSource snk fuel ps s = .ok ([], s') := by
  induction h with
  | nil =>
    intro fuel hl
    cases fuel with
    | zero => simp at hl
    | succ n => rfl
  | @cons s s1 s2 p ps h _ ih =>
    intro fuel hl
    cases fuel with
    | zero => simp at hl
    | succ n =>
      simp only [feedLoop, listSource, ok_bind, h, if_true]
      exact ih n (by simpa using hl)

/-- The loop terminates abnormally exactly at a packet that the sink cannot handle, after packets it
accepted. -/
theorem feedLoop_aborts {P σ : Type} {snk : Sink P σ} : ∀ (is : List P) (s : σ) (fuel : Nat), is.length < fuel →
    ((∃ f, feedLoop listSource snk fuel is s = .error f) ↔
      ∃ pre i post s', is = pre ++ i :: post ∧ Accepts snk s pre s' ∧ ∃ f, snk.handle s' i = .error f) := by
  intro is
  induction is with
  | nil =>
    intro s fuel hl
    cases fuel with
    | zero => simp at hl
    | succ n =>
      constructor
      · rintro ⟨f, h⟩; cases h
      · rintro ⟨pre, i, post, _, e, _⟩; simp at e
  | cons i is ih =>
    intro s fuel hl
    cases fuel with
    | zero => simp at hl
    | succ n =>
      have first : (∃ pre j post s', i :: is = pre ++ j :: post ∧ Accepts snk s pre s' ∧ ∃ f, snk.handle s' j = .error f) ↔
          (∃ f, snk.handle s i = .error f) ∨ ∃ s1, snk.handle s i = .ok (true, s1) ∧
            ∃ pre j post s', is = pre ++ j :: post ∧ Accepts snk s1 pre s' ∧ ∃ f, snk.handle s' j = .error f := by
        constructor
        · rintro ⟨pre, j, post, s', e, h1, h2⟩
          cases h1 with
          | nil =>
            simp only [List.nil_append, List.cons.injEq] at e
            rw [← e.1] at h2
            exact .inl h2
          | @cons _ s1 _ p ps h1 h3 =>
            simp only [List.cons_append, List.cons.injEq] at e
            rw [← e.1] at h1
            exact .inr ⟨s1, h1, ps, j, post, s', e.2, h3, h2⟩
        · rintro (h | ⟨s1, h1, pre, j, post, s', e, h2, h3⟩)
          · exact ⟨[], i, is, s, rfl, .nil, h⟩
          · exact ⟨i :: pre, j, post, s', by rw [e]; rfl, .cons h1 h2, h3⟩
      rw [first]
      cases hs : snk.handle s i with
      | error f =>
        refine iff_of_true ⟨f, ?_⟩ (.inl ⟨f, rfl⟩)
        simp only [feedLoop, listSource, ok_bind, hs]
        rfl
      | ok r =>
        obtain ⟨more, s1⟩ := r
        cases more with
        | false =>
          refine iff_of_false ?_ ?_
          · rintro ⟨f, hf⟩
            simp only [feedLoop, listSource, ok_bind, hs, Bool.false_eq_true, if_false] at hf
            cases hf
          · rintro (⟨_, h⟩ | ⟨_, h, _⟩) <;> cases h
        | true =>
          have e : feedLoop listSource snk (n + 1) (i :: is) s = feedLoop listSource snk n is s1 := by
            simp only [feedLoop, listSource, ok_bind, hs, if_true]
          rw [e, ih s1 n (by simpa using hl)]
          constructor
          · exact fun h => .inr ⟨s1, rfl, h⟩
          · rintro (⟨_, h⟩ | ⟨_, h, h'⟩)
            · cases h
            · cases h; exact h'

/-- A sink whose end does not fail terminates abnormally exactly when starting, or at a packet that it
cannot handle, after packets it accepted. -/
theorem aborts_at {P σ : Type} {snk : Sink P σ} {s0 : σ} (hfin : ∀ s, ∃ s', snk.finish s = .ok s') (is : List P) :
    Aborts snk s0 is ↔ (∃ f, snk.start s0 = .error f) ∨
      ∃ s1, snk.start s0 = .ok (true, s1) ∧ ∃ pre i post s', is = pre ++ i :: post ∧
        Accepts snk s1 pre s' ∧ ∃ f, snk.handle s' i = .error f := by
  rw [aborts_list]
  unfold feedPackets
  cases hs : snk.start s0 with
  | error f => exact iff_of_true ⟨f, rfl⟩ (.inl ⟨f, rfl⟩)
  | ok r =>
    obtain ⟨ok, s1⟩ := r
    cases ok with
    | false =>
      refine iff_of_false ?_ ?_
      · rintro ⟨f, hf⟩; cases hf
      · rintro (⟨_, h⟩ | ⟨_, h, _⟩) <;> cases h
    | true =>
      have hl := feedLoop_aborts (snk := snk) is s1 (is.length + 1) (by omega)
      have : (∃ f, (.error f : Except Fault (Bool × σ)) = .ok (true, s1)) → False := by rintro ⟨_, h⟩; cases h
      constructor
      · rintro ⟨f, hf⟩
        refine .inr ⟨s1, rfl, hl.1 ?_⟩
        simp only [ok_bind, if_true] at hf
        cases hloop : feedLoop listSource snk (is.length + 1) is s1 with
        | error f => exact ⟨f, rfl⟩
        | ok r =>
          obtain ⟨s', hs'⟩ := hfin r.2
          simp only [hloop, ok_bind, hs'] at hf
          cases hf
      · rintro (⟨_, h⟩ | ⟨_, h, h'⟩)
        · cases h
        · cases h
          obtain ⟨f, hf⟩ := hl.2 h'
          refine ⟨f, ?_⟩
          simp only [ok_bind, if_true, hf]
          rfl

end Mirakc
