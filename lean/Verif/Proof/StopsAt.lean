import Verif.Spec.Aborts
import Verif.Proof.History
/-
When a sink with a history terminates abnormally.
-/
namespace Mirakc
open Mirakc.Spec

theorem aborts_list {ι σ : Type} {snk : Sink ι σ} {s0 : σ} {is : List ι} :
    Aborts snk s0 is ↔ ∃ f, feedPackets listSource snk (is.length + 1) is s0 = .error f := by
  constructor
  · intro h
    exact h _ listSource is _ (listSource_yields is) (by omega)
  · rintro ⟨f, hf⟩ τ src t fuel hy hl
    exact ⟨f, by rw [feedPackets_list snk hy fuel hl]; exact hf⟩

/-- A sink terminates either normally or abnormally. -/
theorem aborts_or_ran {ι σ : Type} (snk : Sink ι σ) (s0 : σ) (is : List ι) :
    (Aborts snk s0 is ∧ ¬ ∃ code s, Ran snk s0 is code s) ∨
    (¬ Aborts snk s0 is ∧ ∃ code s, Ran snk s0 is code s) := by
  rw [aborts_list]
  simp only [ran_iff]
  cases feedPackets listSource snk (is.length + 1) is s0 with
  | error f => exact .inl ⟨⟨f, rfl⟩, by rintro ⟨_, _, h⟩; cases h⟩
  | ok r =>
    refine .inr ⟨?_, r.1, r.2, rfl⟩
    rintro ⟨_, h⟩
    cases h

/-! ### For evaluating runs in examples -/

theorem aborts_of_check {ι σ : Type} {snk : Sink ι σ} {s0 : σ} {is : List ι}
    (h : (feedPackets listSource snk (is.length + 1) is s0).toOption.isNone = true) : Aborts snk s0 is := by
  rw [aborts_list]
  revert h
  cases feedPackets listSource snk (is.length + 1) is s0 with
  | error f => exact fun _ => ⟨f, rfl⟩
  | ok r => intro h; cases h

theorem not_aborts_of_check {ι σ : Type} {snk : Sink ι σ} {s0 : σ} {is : List ι}
    (h : (feedPackets listSource snk (is.length + 1) is s0).toOption.isSome = true) : ¬ Aborts snk s0 is := by
  rw [aborts_list]
  rintro ⟨f, hf⟩
  rw [hf] at h
  cases h

section
variable {ι σ α : Type} {step : σ → ι → Except Fault (σ × α × Bool)}
  {finish : σ → Except Fault σ} {exitCode : σ → Nat}

theorem Reach.ran {s0 s s' : σ} {items : List (Line ι α)} (h : Reach step s0 items s)
    (hm : ∀ x ∈ items, x.more = true) (hf : finish s = .ok s') :
    Ran (historySink step finish exitCode) { st := s0 } (items.map (·.input)) (exitCode s')
      { st := s', items := items } := by
  have loop : ∀ (rest : List ι) (fuel : Nat), (items.map (·.input) ++ rest).length < fuel →
      ∃ fuel', rest.length < fuel' ∧
        feedLoop listSource (historySink step finish exitCode) fuel (items.map (·.input) ++ rest) { st := s0 } =
        feedLoop listSource (historySink step finish exitCode) fuel' rest { st := s, items := items } := by
    clear hf
    induction h with
    | nil => exact fun rest fuel hl => ⟨fuel, by simpa using hl, by simp⟩
    | @snoc items s i s1 a more h1 h2 h3 ih =>
      intro rest fuel hl
      obtain ⟨fuel', k1, k2⟩ := ih h2 (i :: rest) fuel (by simpa using hl)
      have hmore : more = true := hm ⟨i, a, more⟩ (by simp)
      subst hmore
      cases fuel' with
      | zero => simp at k1
      | succ n =>
        refine ⟨n, by simpa using k1, ?_⟩
        rw [List.map_append, List.append_assoc]
        simp only [List.map_cons, List.map_nil, List.singleton_append]
        rw [k2]
        simp only [feedLoop, listSource, historySink, h3, ok_bind, if_true]
  rw [ran_iff]
  obtain ⟨fuel', k1, k2⟩ := loop [] ((items.map (·.input)).length + 1) (by simp)
  rw [List.append_nil] at k2
  unfold feedPackets
  simp only [historySink, ok_bind, if_true] at k2 ⊢
  rw [k2]
  cases fuel' with
  | zero => simp at k1
  | succ n => simp only [feedLoop, listSource, ok_bind, hf]

/-- The loop terminates abnormally exactly at a packet whose step does. -/
theorem loop_aborts {s0 : σ} : ∀ (is : List ι) (items : List (Line ι α)) (s : σ) (fuel : Nat),
    is.length < fuel → Reach step s0 items s → (∀ x ∈ items, x.more = true) →
    ((∃ f, feedLoop listSource (historySink step finish exitCode) fuel is { st := s, items := items } = .error f) ↔
      ∃ items' s' i post, is = items'.map (·.input) ++ i :: post ∧ Reach step s0 (items ++ items') s' ∧
        (∀ x ∈ items ++ items', x.more = true) ∧ ∃ f, step s' i = .error f) := by
  intro is
  induction is with
  | nil =>
    intro items s fuel hl _ _
    cases fuel with
    | zero => simp at hl
    | succ n =>
      constructor
      · rintro ⟨f, hf⟩; cases hf
      · rintro ⟨items', _, _, _, h, _⟩; simp at h
  | cons i is ih =>
    intro items s fuel hl hr hm
    cases fuel with
    | zero => simp at hl
    | succ n =>
      -- what the packets of the history did is determined
      have first : ∀ items' s' j post, i :: is = items'.map (·.input) ++ j :: post →
          Reach step s0 (items ++ items') s' → (∀ x ∈ items ++ items', x.more = true) →
          (items' = [] ∧ s' = s ∧ j = i) ∨
          ∃ a s1 tl, items' = ⟨i, a, true⟩ :: tl ∧ is = tl.map (·.input) ++ j :: post ∧ step s i = .ok (s1, a, true) := by
        intro items' s' j post e h1 h2
        cases items' with
        | nil =>
          rw [List.append_nil] at h1
          simp only [List.map_nil, List.nil_append, List.cons.injEq] at e
          exact .inl ⟨rfl, (hr.unique _ h1).symm, e.1.symm⟩
        | cons x tl =>
          simp only [List.map_cons, List.cons_append, List.cons.injEq] at e
          obtain ⟨s1, s2, k1, _, k2, _⟩ := h1.split items x tl rfl
          cases hr.unique _ k1
          have hx : x.more = true := h2 x (by simp)
          refine .inr ⟨x.did, s2, tl, ?_, e.2, ?_⟩
          · rw [e.1, ← hx]
          · rw [e.1, ← hx]; exact k2
      cases hs : step s i with
      | error f =>
        refine iff_of_true ⟨f, ?_⟩ ⟨[], s, i, is, rfl, by simpa using hr, by simpa using hm, f, hs⟩
        simp only [feedLoop, listSource, historySink, ok_bind, hs]
        rfl
      | ok r =>
        obtain ⟨s1, a, more⟩ := r
        cases more with
        | false =>
          refine iff_of_false ?_ ?_
          · rintro ⟨f, hf⟩
            simp only [feedLoop, listSource, historySink, hs, ok_bind, Bool.false_eq_true, if_false] at hf
            cases hf
          · rintro ⟨items', s', j, post, e, h1, h2, f, h3⟩
            rcases first items' s' j post e h1 h2 with ⟨_, rfl, rfl⟩ | ⟨_, _, _, _, _, k⟩
            · rw [hs] at h3; cases h3
            · rw [hs] at k; cases k
        | true =>
          have hm' : ∀ x ∈ items ++ [⟨i, a, true⟩], x.more = true := by
            intro x hx
            rcases List.mem_append.1 hx with hx | hx
            · exact hm x hx
            · rw [List.mem_singleton] at hx; rw [hx]
          have := ih (items ++ [⟨i, a, true⟩]) s1 n (by simpa using hl) (.snoc hr hm hs) hm'
          have e1 : feedLoop listSource (historySink step finish exitCode) (n + 1) (i :: is)
              { st := s, items := items } =
              feedLoop listSource (historySink step finish exitCode) n is
                { st := s1, items := items ++ [⟨i, a, true⟩] } := by
            simp only [feedLoop, listSource, historySink, hs, ok_bind, if_true]
          rw [e1, this]
          constructor
          · rintro ⟨items', s', j, post, e, h1, h2, h3⟩
            exact ⟨⟨i, a, true⟩ :: items', s', j, post, by simp [e], by simpa using h1, by simpa using h2, h3⟩
          · rintro ⟨items', s', j, post, e, h1, h2, f, h3⟩
            rcases first items' s' j post e h1 h2 with ⟨_, rfl, rfl⟩ | ⟨a', s2, tl, rfl, e', k⟩
            · rw [hs] at h3; cases h3
            · rw [hs] at k
              cases k
              exact ⟨tl, s', j, post, e', by simpa using h1, by simpa using h2, f, h3⟩

/-- A sink terminates abnormally exactly at the first packet that is bad where it stands. -/
theorem aborts_iff {s0 : σ} (Bad : List (Line ι α) → ι → Prop) (hfin : ∀ s, ∃ s', finish s = .ok s')
    (hbad : ∀ items s, Reach step s0 items s → (∀ x ∈ items, x.more = true) → ∀ i,
      (∃ f, step s i = .error f) ↔ Bad items i) (is : List ι) :
    Aborts (historySink step finish exitCode) { st := s0 } is ↔
      StopsAt (historySink step finish exitCode) s0 Bad is := by
  have hloop := loop_aborts (step := step) (finish := finish) (exitCode := exitCode) (s0 := s0) is [] s0
    (is.length + 1) (by omega) .nil (by simp)
  have hfeed : (∃ f, feedPackets listSource (historySink step finish exitCode) (is.length + 1) is { st := s0 } = .error f) ↔
      ∃ f, feedLoop listSource (historySink step finish exitCode) (is.length + 1) is { st := s0 } = .error f := by
    unfold feedPackets
    have e1 : (historySink step finish exitCode).start { st := s0 } = .ok (true, { st := s0 }) := rfl
    simp only [e1, ok_bind, if_true]
    cases feedLoop listSource (historySink step finish exitCode) (is.length + 1) is { st := s0 } with
    | error f => exact iff_of_true ⟨f, rfl⟩ ⟨f, rfl⟩
    | ok r =>
      obtain ⟨s', hs'⟩ := hfin r.2.st
      refine iff_of_false ?_ (by rintro ⟨_, h⟩; cases h)
      rintro ⟨f, hf⟩
      simp only [ok_bind, historySink, hs'] at hf
      cases hf
  rw [aborts_list, hfeed]
  refine hloop.trans ?_
  simp only [List.nil_append]
  constructor
  · rintro ⟨items, s, i, post, e, h1, h2, h3⟩
    obtain ⟨s', hs'⟩ := hfin s
    exact ⟨_, i, post, _, _, e, h1.ran h2 hs', h2, (hbad items s h1 h2 i).1 h3⟩
  · rintro ⟨pre, i, post, code, h, e, h1, h2, h3⟩
    obtain ⟨s, k1, _, _, _, k5⟩ := Ran.reach h1
    have : h.items.map (·.input) = pre := by
      rcases k5 with ⟨k5, _⟩ | ⟨x, hx, hm⟩
      · exact k5
      · rw [h2 x (List.mem_of_getLast? hx)] at hm; cases hm
    exact ⟨h.items, s, i, post, by rw [this]; exact e, k1, h2, (hbad _ _ k1 h2 i).2 h3⟩

end
end Mirakc
