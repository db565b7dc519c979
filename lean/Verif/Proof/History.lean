import Verif.Spec.History
import Verif.Proof.Basic
import Verif.Proof.PacketLoop
import Verif.Proof.Run
/-
Lemmas about sinks with a history.
-/
namespace Mirakc
open Mirakc.Spec

section
variable {ι σ α : Type} {step : σ → ι → Except Fault (σ × α × Bool)}

/-- Started in `s0`, the packets of `items` were processed. -/
inductive Reach (step : σ → ι → Except Fault (σ × α × Bool)) (s0 : σ) :
    List (Line ι α) → σ → Prop
  | nil : Reach step s0 [] s0
  | snoc {items s i s' a more} : Reach step s0 items s → (∀ x ∈ items, x.more = true) →
      step s i = .ok (s', a, more) → Reach step s0 (items ++ [⟨i, a, more⟩]) s'

theorem Reach.append_inv {s0 : σ} {l : List (Line ι α)} {s' : σ} (h : Reach step s0 l s')
    {items : List (Line ι α)} {it : Line ι α} (hl : l = items ++ [it]) :
    ∃ s, Reach step s0 items s ∧ (∀ x ∈ items, x.more = true) ∧
      step s it.input = .ok (s', it.did, it.more) := by
  cases h with
  | nil => simp at hl
  | @snoc items' s i s' a more h1 h2 h3 =>
    obtain ⟨rfl, e⟩ := List.append_inj' hl rfl
    simp only [List.cons.injEq, and_true] at e
    subst e
    exact ⟨s, h1, h2, h3⟩

theorem Reach.last {s0 : σ} {items : List (Line ι α)} {it : Line ι α} {s' : σ}
    (h : Reach step s0 (items ++ [it]) s') :
    ∃ s, Reach step s0 items s ∧ (∀ x ∈ items, x.more = true) ∧
      step s it.input = .ok (s', it.did, it.more) := h.append_inv rfl

theorem Reach.prefix {s0 : σ} {l : List (Line ι α)} {s' : σ} (h : Reach step s0 l s') :
    ∀ a b, l = a ++ b → ∃ s, Reach step s0 a s := by
  induction h with
  | nil =>
    intro a b e
    have : a = [] := (List.append_eq_nil_iff.1 e.symm).1
    exact ⟨s0, this ▸ .nil⟩
  | @snoc items s i s' x more h1 h2 h3 ih =>
    intro a b e
    rcases List.eq_nil_or_concat b with rfl | ⟨b', y, rfl⟩
    · rw [List.append_nil] at e
      exact ⟨s', e ▸ .snoc h1 h2 h3⟩
    · rw [List.concat_eq_append, ← List.append_assoc] at e
      exact ih a b' (List.append_inj' e rfl).1

theorem Reach.split {s0 : σ} {l : List (Line ι α)} {s' : σ} (h : Reach step s0 l s')
    (a : List (Line ι α)) (it : Line ι α) (b : List (Line ι α)) (e : l = a ++ it :: b) :
    ∃ s1 s2, Reach step s0 a s1 ∧ (∀ x ∈ a, x.more = true) ∧
      step s1 it.input = .ok (s2, it.did, it.more) ∧ Reach step s0 (a ++ [it]) s2 := by
  obtain ⟨s2, h2⟩ := h.prefix (a ++ [it]) b (by simp [e])
  obtain ⟨s1, h3, h4, h5⟩ := h2.last
  exact ⟨s1, s2, h3, h4, h5, h2⟩

theorem Reach.unique {s0 : σ} {l : List (Line ι α)} {s1 : σ} (h1 : Reach step s0 l s1) :
    ∀ s2, Reach step s0 l s2 → s1 = s2 := by
  induction h1 with
  | nil =>
    intro s2 h
    generalize e : ([] : List (Line ι α)) = l at h
    cases h with
    | nil => rfl
    | snoc => simp at e
  | @snoc items s i s' x more h1 h2 h3 ih =>
    intro s2 h
    obtain ⟨s3, k1, _, k2⟩ := h.last
    cases ih s3 k1
    rw [h3] at k2
    cases k2; rfl

theorem Reach.consumes {finish : σ → Except Fault σ} {exitCode : σ → Nat} {s0 : σ}
    {ps cs : List ι} {h h' : History ι σ α}
    (hc : Consumes (historySink step finish exitCode) h ps cs h')
    (hr : Reach step s0 h.items h.st) (hm : ∀ x ∈ h.items, x.more = true) :
    Reach step s0 h'.items h'.st ∧ h'.items.map (·.input) = h.items.map (·.input) ++ cs ∧
      cs <+: ps ∧
      ((cs = ps ∧ ∀ x ∈ h'.items, x.more = true) ∨ ∃ x, h'.items.getLast? = some x ∧ x.more = false) := by
  induction hc with
  | eof => exact ⟨hr, by simp, by simp, .inl ⟨rfl, hm⟩⟩
  | @refuse h h' p ps he =>
    simp only [historySink] at he
    obtain ⟨⟨s, a, more⟩, h1, h2⟩ := bind_eq_ok he
    cases h2
    exact ⟨.snoc hr hm h1, by simp, ⟨ps, rfl⟩, .inr ⟨⟨p, a, false⟩, by simp, rfl⟩⟩
  | @accept h h1 h' p ps cs he _ ih =>
    simp only [historySink] at he
    obtain ⟨⟨s, a, more⟩, h1, h2⟩ := bind_eq_ok he
    cases h2
    obtain ⟨k1, k2, k3, k4⟩ := ih (.snoc hr hm h1) (by
      intro x hx
      rcases List.mem_append.1 hx with hx | hx
      · exact hm x hx
      · simp only [List.mem_singleton] at hx; rw [hx])
    refine ⟨k1, by rw [k2]; simp, ?_, ?_⟩
    · obtain ⟨r, hr⟩ := k3
      exact ⟨r, by rw [← hr]; rfl⟩
    · rcases k4 with ⟨k4, k5⟩ | k4
      · exact .inl ⟨by rw [k4], k5⟩
      · exact .inr k4

/-- A whole run. -/
theorem Ran.reach {finish : σ → Except Fault σ} {exitCode : σ → Nat} {s0 : σ}
    {is : List ι} {code : Nat} {h : History ι σ α}
    (hr : Ran (historySink step finish exitCode) { st := s0 } is code h) :
    ∃ s, Reach step s0 h.items s ∧ finish s = .ok h.st ∧ code = exitCode h.st ∧
      h.items.map (·.input) <+: is ∧
      ((h.items.map (·.input) = is ∧ ∀ x ∈ h.items, x.more = true) ∨
        ∃ x, h.items.getLast? = some x ∧ x.more = false) := by
  obtain ⟨τ, src, t, fuel, hy, hf, hr⟩ := hr
  unfold feedPackets at hr
  obtain ⟨⟨ok, h1⟩, e1, hr⟩ := bind_eq_ok hr
  simp only [historySink] at e1
  cases e1
  simp only [if_true] at hr
  obtain ⟨⟨t', h2⟩, e2, hr⟩ := bind_eq_ok hr
  obtain ⟨h3, e3, hr⟩ := bind_eq_ok hr
  simp only [Except.ok.injEq, Prod.mk.injEq] at hr
  obtain ⟨rfl, rfl⟩ := hr
  obtain ⟨cs, hc⟩ := feedLoop_consumes src _ hy fuel _ _ _ hf e2
  obtain ⟨k1, k2, k3, k4⟩ := Reach.consumes hc .nil (by simp)
  simp only [historySink] at e3
  obtain ⟨s, e4, e5⟩ := bind_eq_ok e3
  cases e5
  simp only [List.map_nil, List.nil_append] at k2
  refine ⟨h2.st, k1, e4, rfl, by rw [k2]; exact k3, ?_⟩
  rw [k2]
  exact k4

/-- Runs of total steps are total. -/
theorem ran_total {finish : σ → Except Fault σ} {exitCode : σ → Nat} (I : σ → Prop)
    {is : List ι} (hs : ∀ s, I s → ∀ i ∈ is, ∃ s' a more, step s i = .ok (s', a, more) ∧ I s')
    (hf : ∀ s, I s → ∃ s', finish s = .ok s') {s0 : σ} (h0 : I s0) {τ : Type} (src : Source ι τ)
    (t : τ) (fuel : Nat) (hy : Yields src t is) (hl : is.length < fuel) :
    ∃ r, feedPackets src (historySink step finish exitCode) fuel t { st := s0 } = .ok r := by
  have loop : ∀ fuel (h : History ι σ α), I h.st → is.length < fuel →
      ∃ t' h', feedLoop src (historySink step finish exitCode) fuel t h = .ok (t', h') ∧ I h'.st := by
    clear h0 hl fuel
    induction hy with
    | @stop t t' h =>
      intro fuel s hi hl
      cases fuel with
      | zero => omega
      | succ n => exact ⟨t', s, by simp only [feedLoop, h]; rfl, hi⟩
    | @more t t1 p ps h _ ih =>
      intro fuel s hi hl
      cases fuel with
      | zero => simp at hl
      | succ n =>
        obtain ⟨s', a, more, h1, h2⟩ := hs s.st hi p (by simp)
        simp only [feedLoop, h, historySink, h1, ok_bind]
        cases more with
        | false => exact ⟨_, _, rfl, h2⟩
        | true =>
          exact ih (fun s hs' i hi' => hs s hs' i (by simp [hi'])) n _ h2 (by
            simp only [List.length_cons] at hl; omega)
  obtain ⟨t', h', h1, h2⟩ := loop fuel { st := s0 } h0 hl
  obtain ⟨s', h3⟩ := hf _ h2
  refine ⟨(exitCode s', { h' with st := s' }), ?_⟩
  unfold feedPackets
  simp only [historySink, ok_bind, if_true] at h1 ⊢
  rw [h1]
  simp only [ok_bind, h3]

end

/-! ### For evaluating runs in examples -/

theorem ran_iff {ι σ : Type} {snk : Sink ι σ} {s0 : σ} {is : List ι} {code : Nat} {s : σ} :
    Ran snk s0 is code s ↔ feedPackets listSource snk (is.length + 1) is s0 = .ok (code, s) := by
  constructor
  · rintro ⟨τ, src, t, fuel, hy, hf, hr⟩
    rw [← feedPackets_list snk hy fuel hf]; exact hr
  · intro h
    exact ⟨_, listSource, is, _, listSource_yields is, by omega, h⟩

/-- Check the result of a run. -/
def checkRun {ι σ : Type} (snk : Sink ι σ) (s0 : σ) (is : List ι) (P : Nat → σ → Bool) : Bool :=
  match feedPackets listSource snk (is.length + 1) is s0 with
  | .ok (c, s) => P c s
  | .error _ => false

theorem ran_of_check {ι σ : Type} {snk : Sink ι σ} {s0 : σ} {is : List ι} {P : Nat → σ → Bool}
    (h : checkRun snk s0 is P = true) : ∃ c s, Ran snk s0 is c s ∧ P c s = true := by
  unfold checkRun at h
  split at h
  · next c s e => exact ⟨c, s, ran_iff.2 e, h⟩
  · cases h

end Mirakc
