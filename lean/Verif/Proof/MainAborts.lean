import Verif.Spec.MainAborts
import Verif.Proof.Main
import Verif.Proof.Aborts
import Verif.Proof.AbortsAt
import Verif.Proof.RecordAborts
/-
When connected commands terminate abnormally.
-/
namespace Mirakc.Pipeline
open Mirakc.Spec Mirakc.Spec.Pipeline

/-- The sink cannot handle one of the packets, after those before it were accepted. -/
def Fails {P σ : Type} (snk : Sink P σ) (s : σ) (is : List P) : Prop :=
  ∃ pre i post s', is = pre ++ i :: post ∧ Accepts snk s pre s' ∧ ∃ f, snk.handle s' i = .error f

/-- A sink whose end does not fail after packets that it consumed. -/
theorem aborts_fails {P σ : Type} {snk : Sink P σ} {s0 s1 : σ} (is : List P) (hs : snk.start s0 = .ok (true, s1))
    (hfin : ∀ cs s', Consumes snk s1 is cs s' → ∃ s'', snk.finish s' = .ok s'') :
    Aborts snk s0 is ↔ Fails snk s1 is := by
  rw [aborts_list]
  have hl := feedLoop_aborts (snk := snk) is s1 (is.length + 1) (by omega)
  unfold feedPackets
  simp only [hs, ok_bind, if_true]
  constructor
  · rintro ⟨f, hf⟩
    refine hl.1 ?_
    cases hloop : feedLoop listSource snk (is.length + 1) is s1 with
    | error f => exact ⟨f, rfl⟩
    | ok r =>
      obtain ⟨cs, hc⟩ := feedLoop_consumes listSource snk (listSource_yields is) _ _ _ _ (Nat.lt_succ_self _) hloop
      obtain ⟨s', hs'⟩ := hfin _ _ hc
      simp only [hloop, ok_bind, hs'] at hf
      cases hf
  · intro h
    obtain ⟨f, hf⟩ := hl.2 h
    exact ⟨f, by simp only [hf]; rfl⟩

theorem via_error {P Q σ : Type} {f : Nat → Q → P} {snk : Sink P σ} {n : Nat} {d : σ} {q : Q} :
    (∃ e, (via f snk).handle (n, d) q = .error e) ↔ ∃ e, snk.handle d (f n q) = .error e := by
  simp only [via]
  cases snk.handle d (f n q) with
  | error e => exact iff_of_true ⟨e, rfl⟩ ⟨e, rfl⟩
  | ok r => exact iff_of_false (by rintro ⟨_, h⟩; cases h) (by rintro ⟨_, h⟩; cases h)

theorem fails_via {P Q σ : Type} {f : Nat → Q → P} {snk : Sink P σ} {n : Nat} {d : σ} {qs : List Q} :
    Fails (via f snk) (n, d) qs ↔ Fails snk d (seen f n qs) := by
  constructor
  · rintro ⟨pre, q, post, ⟨m, d'⟩, rfl, h1, h2⟩
    obtain ⟨h3, rfl⟩ := via_accepts.1 h1
    exact ⟨_, _, _, d', by rw [seen_append]; rfl, h3, via_error.1 h2⟩
  · rintro ⟨pre, i, post, d', e, h1, h2⟩
    obtain ⟨xs, ys, rfl, rfl, e'⟩ := seen_split e
    cases ys with
    | nil => cases e'
    | cons y ys =>
      simp only [seen, List.cons.injEq] at e'
      obtain ⟨rfl, rfl⟩ := e'
      exact ⟨xs, y, ys, (n + xs.length, d'), rfl, via_accepts.2 ⟨h1, rfl⟩, via_error.2 h2⟩

/-- If exactly the lists with a bad element are wrong, then, after a list that is not wrong, exactly
the bad elements are wrong. -/
theorem at_last {α : Type} {Q : α → Prop} {R : List α → Prop} {B : List α → α → Prop}
    (h : ∀ is, (∀ i ∈ is, Q i) → (R is ↔ ∃ pre i post, is = pre ++ i :: post ∧ B pre i)) {pre : List α} {i : α}
    (hq : ∀ j ∈ pre ++ [i], Q j) (hn : ¬ R pre) : R (pre ++ [i]) ↔ B pre i := by
  rw [h _ hq]
  constructor
  · rintro ⟨a, j, b, e, hB⟩
    rcases List.eq_nil_or_concat b with rfl | ⟨b', z, rfl⟩
    · obtain ⟨rfl, e'⟩ := List.append_inj' e rfl
      cases e'
      exact hB
    · have e' : pre ++ [i] = (a ++ j :: b') ++ [z] := by rw [e]; simp
      obtain ⟨rfl, _⟩ := List.append_inj' e' rfl
      exact absurd ((h _ (fun x hx => hq x (List.mem_append_left _ hx))).2 ⟨a, j, b', rfl, hB⟩) hn
  · intro hB
    exact ⟨pre, i, [], rfl, hB⟩

theorem accepts_unique {P σ : Type} {snk : Sink P σ} {s a b : σ} {ps : List P} (h : Accepts snk s ps a)
    (g : Accepts snk s ps b) : a = b := by
  induction h with
  | nil => cases g; rfl
  | cons h _ ih =>
    cases g with
    | cons g1 g2 =>
      rw [h] at g1
      cases g1
      exact ih g2

theorem Robust.accepts {P σ : Type} {snk : Sink P σ} {Q : P → Prop} {I : σ → Prop} (h : Robust snk Q I)
    {s s' : σ} {ps : List P} (ha : Accepts snk s ps s') : I s → (∀ p ∈ ps, Q p) → I s' := by
  induction ha with
  | nil => exact fun h _ => h
  | cons h1 _ ih =>
    intro hs hq
    obtain ⟨ok, s2, h2, h3⟩ := h.handle _ _ hs (hq _ List.mem_cons_self)
    rw [h1] at h2
    cases h2
    exact ih h3 (fun q hq' => hq q (by simp [hq']))

section
open ServiceFilter Mirakc.Spec.ServiceFilter

theorem sf_accepts {σ : Type} {o : Opt} {snk : Sink Out σ} : ∀ {is : List Input} {s s' : St} {d d' : σ},
    Accepts (sink o snk) (s, d) is (s', d') ↔
      ∃ items, run o s is = .ok (s', items) ∧ (∀ it ∈ items, it.act ≠ .stop) ∧ Accepts snk d (sent items) d' := by
  intro is
  induction is with
  | nil =>
    intro s s' d d'
    constructor
    · intro h; cases h; exact ⟨[], rfl, by simp, .nil⟩
    · rintro ⟨items, h, _, ha⟩
      cases h
      cases ha
      exact .nil
  | cons i is ih =>
    intro s s' d d'
    constructor
    · intro h
      cases h with
      | @cons _ m _ _ _ h1 h2 =>
        obtain ⟨s1, d1⟩ := m
        obtain ⟨items, k1, k2, k3⟩ := ih.1 h2
        simp only [sink] at h1
        obtain ⟨⟨f, log, act⟩, g1, h1⟩ := bind_eq_ok h1
        cases act with
        | stop => cases h1
        | drop =>
          cases h1
          refine ⟨⟨i.packet, log, .drop⟩ :: items, by simp [run, g1, k1], ?_, ?_⟩
          · intro it hit
            rcases List.mem_cons.1 hit with rfl | hit
            · simp
            · exact k2 it hit
          · rw [sent_cons]; exact k3
        | send x =>
          obtain ⟨⟨ok, d2⟩, g2, h1⟩ := bind_eq_ok h1
          cases h1
          refine ⟨⟨i.packet, log, .send x⟩ :: items, by simp [run, g1, k1], ?_, ?_⟩
          · intro it hit
            rcases List.mem_cons.1 hit with rfl | hit
            · simp
            · exact k2 it hit
          · rw [sent_cons]; exact .cons g2 k3
    · rintro ⟨items, h, hn, ha⟩
      obtain ⟨s1, log, act, h1, ⟨rfl, rfl, rfl⟩ | ⟨hne, rest, h2, rfl⟩⟩ := run_cons h
      · exact absurd rfl (hn _ (List.mem_singleton.2 rfl))
      · rw [sent_cons] at ha
        cases act with
        | stop => exact absurd rfl hne
        | drop => exact .cons (s' := (s1, d)) (by simp [sink, h1]) (ih.2 ⟨rest, h2, fun it hit => hn it (by simp [hit]), ha⟩)
        | send x =>
          cases ha with
          | @cons _ d1 _ _ _ a1 a2 =>
            exact .cons (s' := (s1, d1)) (by simp [sink, h1, a1]) (ih.2 ⟨rest, h2, fun it hit => hn it (by simp [hit]), a2⟩)

theorem sf_run_snoc {o : Opt} {i : Input} : ∀ {is : List Input} {s s1 : St} {items : List Item},
    run o s is = .ok (s1, items) → (∀ it ∈ items, it.act ≠ .stop) →
    run o s (is ++ [i]) = (step o s1 i).map fun r => (r.1, items ++ [⟨i.packet, r.2.1, r.2.2⟩]) := by
  intro is
  induction is with
  | nil =>
    intro s s1 items h _
    cases h
    simp only [List.nil_append, run]
    cases step o s i with
    | error e => rfl
    | ok r =>
      obtain ⟨a, b, c⟩ := r
      simp only [ok_bind, Except.map]
      split <;> rfl
  | cons j is ih =>
    intro s s1 items h hn
    obtain ⟨s2, log, act, h1, ⟨rfl, rfl, rfl⟩ | ⟨hne, rest, h2, rfl⟩⟩ := run_cons h
    · exact absurd rfl (hn _ (List.mem_singleton.2 rfl))
    · simp only [List.cons_append, run, h1, ok_bind, if_neg hne]
      rw [ih h2 (fun it hit => hn it (by simp [hit]))]
      cases step o s1 i with
      | error e => rfl
      | ok r => rfl

end

section
open ProgramFilter Mirakc.Spec.ProgramFilter

theorem accepts_of_sendAll {σ : Type} {snk : Sink Out σ} {xs : List Out} {d d' : σ}
    (h : sendAll snk xs d = .ok (true, d')) : Accepts snk d xs d' := by
  rcases sendAll_spec h with ⟨_, h⟩ | ⟨h, _⟩
  · exact h
  · cases h

theorem pf_accepts {σ : Type} {extra : Pmt → Nat} {o : Opt} {snk : Sink Out σ} :
    ∀ {is : List Input} {s s' : St} {d d' : σ}, Accepts (sink extra o snk) (s, d) is (s', d') ↔
      ∃ items, run extra o s is = .ok (s', items) ∧ (∀ it ∈ items, it.more = true) ∧ Accepts snk d (sent items) d' := by
  intro is
  induction is with
  | nil =>
    intro s s' d d'
    constructor
    · intro h; cases h; exact ⟨[], rfl, by simp, .nil⟩
    · rintro ⟨items, h, _, ha⟩
      cases h
      cases ha
      exact .nil
  | cons i is ih =>
    intro s s' d d'
    constructor
    · intro h
      cases h with
      | @cons _ m _ _ _ h1 h2 =>
        obtain ⟨s1, d1⟩ := m
        obtain ⟨items, k1, k2, k3⟩ := ih.1 h2
        obtain ⟨log, outs, more, ok, g1, g2, h1⟩ | ⟨h1, _⟩ := sink_cases h1
        case inr => cases h1
        simp only [Bool.true_eq, Bool.and_eq_true] at h1
        obtain ⟨rfl, rfl⟩ := h1
        refine ⟨⟨i.packet, log, outs, true⟩ :: items, by simp [run, g1, k1], ?_, ?_⟩
        · intro it hit
          rcases List.mem_cons.1 hit with rfl | hit
          · rfl
          · exact k2 it hit
        · simpa [sent] using accepts_append (accepts_of_sendAll g2) k3
    · rintro ⟨items, h, hn, ha⟩
      obtain ⟨s1, log, outs, more, h1, ⟨rfl, rfl, rfl⟩ | ⟨rfl, rest, h2, rfl⟩⟩ := run_cons h
      · exact absurd (hn _ (List.mem_singleton.2 rfl)) (by simp)
      · have ha : Accepts snk d (outs ++ sent rest) d' := by simpa [sent] using ha
        obtain ⟨d1, a1, a2⟩ := accepts_split ha
        exact .cons (s' := (s1, d1)) (by rw [handle_of_ok h1 (sendAll_accepts a1)]; rfl)
          (ih.2 ⟨rest, h2, fun it hit => hn it (by simp [hit]), a2⟩)

theorem pf_run_snoc {extra : Pmt → Nat} {o : Opt} {i : Input} : ∀ {is : List Input} {s s1 : St} {items : List Item},
    run extra o s is = .ok (s1, items) → (∀ it ∈ items, it.more = true) →
    run extra o s (is ++ [i]) =
      (step extra o s1 i).map fun r => (r.1, items ++ [⟨i.packet, r.2.1, r.2.2.1, r.2.2.2⟩]) := by
  intro is
  induction is with
  | nil =>
    intro s s1 items h _
    cases h
    simp only [List.nil_append, run]
    cases step extra o s i with
    | error e => rfl
    | ok r =>
      obtain ⟨a, b, c, d⟩ := r
      cases d <;> rfl
  | cons j is ih =>
    intro s s1 items h hn
    obtain ⟨s2, log, outs, more, h1, ⟨rfl, rfl, rfl⟩ | ⟨rfl, rest, h2, rfl⟩⟩ := run_cons h
    · exact absurd (hn _ (List.mem_singleton.2 rfl)) (by simp)
    · simp only [List.cons_append, run, h1, ok_bind, if_true]
      rw [ih h2 (fun it hit => hn it (by simp [hit]))]
      cases step extra o s1 i with
      | error e => rfl
      | ok r => rfl

end

section
open StartSeeker Mirakc.Spec.StartSeeker

theorem seek_accepts_run {σ : Type} {o : StartSeeker.Opt} {snk : Sink Packet σ} {is : List Input}
    {a b : StartSeeker.St × σ} (h : Accepts (StartSeeker.sink o snk) a is b) :
    ∃ items, StartSeeker.run o a.1 is = .ok (b.1, items) := by
  induction h with
  | nil => exact ⟨[], rfl⟩
  | @cons a m b i is h1 _ ih =>
    obtain ⟨items, ih⟩ := ih
    simp only [StartSeeker.sink] at h1
    obtain ⟨⟨f, log, act⟩, g1, h1⟩ := bind_eq_ok h1
    obtain ⟨⟨ok, d⟩, g2, h1⟩ := bind_eq_ok h1
    cases h1
    exact ⟨⟨i.packet, log, act⟩ :: items, by simp only [StartSeeker.run, g1, ok_bind]; rw [ih]; rfl⟩

theorem seek_run_snoc {o : StartSeeker.Opt} {i : Input} : ∀ {is : List Input} {s s1 : StartSeeker.St}
    {items : List StartSeeker.Item}, StartSeeker.run o s is = .ok (s1, items) →
    StartSeeker.run o s (is ++ [i]) =
      (StartSeeker.step o s1 i).map fun r => (r.1, items ++ [⟨i.packet, r.2.1, r.2.2⟩]) := by
  intro is
  induction is with
  | nil =>
    intro s s1 items h
    cases h
    simp only [List.nil_append, StartSeeker.run]
    cases StartSeeker.step o s i with
    | error e => rfl
    | ok r => rfl
  | cons j is ih =>
    intro s s1 items h
    simp only [StartSeeker.run] at h
    obtain ⟨⟨s2, log, act⟩, h1, h⟩ := bind_eq_ok h
    obtain ⟨⟨s3, its⟩, h2, h⟩ := bind_eq_ok h
    cases h
    simp only [List.cons_append, StartSeeker.run, h1, ok_bind]
    rw [ih h2]
    cases StartSeeker.step o s3 i with
    | error e => rfl
    | ok r => rfl

/-- What the seeker holds and the state of its sink, whatever it consumed. -/
theorem seek_keeps {σ : Type} {o : StartSeeker.Opt} {snk : Sink Packet σ} {Q : Packet → Prop} {I : σ → Prop}
    (hs : Robust snk Q I) {is cs : List Input} {a b : StartSeeker.St × σ}
    (h : Consumes (StartSeeker.sink o snk) a is cs b) : I a.2 → (∀ q ∈ a.1.packets, Q q) → (∀ i ∈ is, Q i.packet) →
    I b.2 ∧ ∀ q ∈ b.1.packets, Q q := by
  have one : ∀ {a b : StartSeeker.St × σ} {i : Input} {ok : Bool}, (StartSeeker.sink o snk).handle a i = .ok (ok, b) →
      I a.2 → (∀ q ∈ a.1.packets, Q q) → Q i.packet → I b.2 ∧ ∀ q ∈ b.1.packets, Q q := by
    intro a b i ok h hd hp hi
    simp only [StartSeeker.sink] at h
    obtain ⟨⟨s1, log, act⟩, h1, h⟩ := bind_eq_ok h
    obtain ⟨⟨ok', d⟩, h2, h⟩ := bind_eq_ok h
    cases h
    have hone : StartSeeker.run o a.1 [i] = .ok (s1, [⟨i.packet, log, act⟩]) := by
      simp [StartSeeker.run, h1]
    obtain ⟨k1, k2⟩ := seek_sent hp (fun j hj => by rw [List.mem_singleton] at hj; rw [hj]; exact hi) hone
    obtain ⟨ok, d1, g1, g2⟩ := perform_robust hs act a.2 hd (fun x hx => k1 x (by simpa [sent] using hx))
    rw [h2] at g1
    cases g1
    exact ⟨g2, k2⟩
  induction h with
  | eof => exact fun h1 h2 _ => ⟨h1, h2⟩
  | refuse h => exact fun h1 h2 h3 => one h h1 h2 (h3 _ (by simp))
  | accept h _ ih =>
    intro h1 h2 h3
    obtain ⟨k1, k2⟩ := one h h1 h2 (h3 _ (by simp))
    exact ih k1 k2 (fun i hi => h3 i (by simp [hi]))

end

end Mirakc.Pipeline
