import Verif.Proof.Selecting
/-
For C140: a collector that does the same as another one, but may stop earlier.
-/
namespace Mirakc
open Mirakc.Main Mirakc.Pipeline Mirakc.Spec Mirakc.Spec.Main Mirakc.Spec.Pipeline Mirakc.Spec.Selecting Mirakc.PreStreaming

section
variable {ι σ : Type}

/-- Two collectors that do the same with a packet, of which the second continues when the first does. -/
def Earlier (step step' : σ → ι → Except Fault (σ × List EitCollector.DemuxCall × Bool)) : Prop :=
  ∀ s i a, step s i = .ok a → ∃ m, step' s i = .ok (a.1, a.2.1, m) ∧ (a.2.2 = true → m = true)

theorem earlier_prefix {step step' : σ → ι → Except Fault (σ × List EitCollector.DemuxCall × Bool)} {c : Nat}
    (he : Earlier step step') :
    ∀ (ps : List ι) (h r h' r' : History ι σ (List EitCollector.DemuxCall)), h'.st = h.st → outs h' = outs h →
      foldP (historySink step .ok fun _ => c) ps h = .ok r →
      foldP (historySink step' .ok fun _ => c) ps h' = .ok r' → outs r <+: outs r'
  | [], h, r, h', r', _, ho, hr, hr' => by
    cases hr; cases hr'
    rw [ho]
    exact List.prefix_refl _
  | p :: ps, h, r, h', r', hs, ho, hr, hr' => by
    obtain ⟨⟨ok, x⟩, k1, hr⟩ := bind_ok_iff.1 hr
    obtain ⟨⟨s, a, more⟩, k2, k1⟩ := bind_ok_iff.1 k1
    cases k1
    obtain ⟨⟨ok', x⟩, k1, hr'⟩ := bind_ok_iff.1 hr'
    obtain ⟨⟨s', a', more'⟩, k3, k1⟩ := bind_ok_iff.1 k1
    cases k1
    rw [hs] at k3
    obtain ⟨m, e1, e2⟩ := he _ _ _ k2
    rw [k3] at e1
    cases e1
    dsimp only at e2 hr hr'
    have e4 : outs { st := s, items := h'.items ++ [⟨p, a, ok'⟩] } = outs { st := s, items := h.items ++ [⟨p, a, ok⟩] } := by
      rw [outs_add, outs_add]
      exact congrArg (· ++ _) ho
    cases ok with
    | true =>
      rw [e2 rfl] at hr' e4
      rw [if_pos rfl] at hr hr'
      exact earlier_prefix he ps { st := s, items := h.items ++ [⟨p, a, true⟩] } r { st := s, items := h'.items ++ [⟨p, a, true⟩] } r' rfl e4 hr hr'
    | false =>
      rw [if_neg (by decide)] at hr
      cases hr
      rw [← e4]
      cases ok' with
      | true => rw [if_pos rfl] at hr'; exact fold_grows ps _ _ hr'
      | false => rw [if_neg (by decide)] at hr'; cases hr'; exact List.prefix_refl _

/-- If the one that continues succeeds, so does the one that may stop. -/
theorem earlier_ok {step step' : σ → ι → Except Fault (σ × List EitCollector.DemuxCall × Bool)} {c : Nat}
    (he : Earlier step step') (hb : ∀ s i b, step' s i = .ok b → ∃ a, step s i = .ok a) :
    ∀ (ps : List ι) (h h' r' : History ι σ (List EitCollector.DemuxCall)), h'.st = h.st →
      foldP (historySink step' .ok fun _ => c) ps h' = .ok r' → ∃ r, foldP (historySink step .ok fun _ => c) ps h = .ok r
  | [], h, _, _, _, _ => ⟨h, rfl⟩
  | p :: ps, h, h', r', hs, hr' => by
    obtain ⟨⟨ok', x⟩, k1, hr'⟩ := bind_ok_iff.1 hr'
    obtain ⟨⟨s', a', more'⟩, k3, k1⟩ := bind_ok_iff.1 k1
    cases k1
    rw [hs] at k3
    obtain ⟨⟨s, a, more⟩, k2⟩ := hb _ _ _ k3
    obtain ⟨m, e1, e2⟩ := he _ _ _ k2
    rw [k3] at e1
    cases e1
    have hh : (historySink step .ok fun _ => c).handle h p = .ok (more, { st := s, items := h.items ++ [⟨p, a, more⟩] }) :=
      bind_ok_iff.2 ⟨_, k2, rfl⟩
    cases more with
    | false => exact ⟨_, bind_ok_iff.2 ⟨_, hh, rfl⟩⟩
    | true =>
      dsimp only at e2 hr'
      rw [e2 rfl, if_pos rfl] at hr'
      obtain ⟨r, hr⟩ := earlier_ok he hb ps { st := s, items := h.items ++ [⟨p, a, true⟩] }
        { st := s, items := h'.items ++ [⟨p, a, true⟩] } r' rfl hr'
      exact ⟨r, bind_ok_iff.2 ⟨_, hh, hr⟩⟩

end

theorem EitCollector.step_earlier (o : Opt) (b : Bool) {t u : Int} (htu : t ≤ u) :
    Earlier (step { o with streaming := b, timeLimit := t }) (step { o with streaming := b, timeLimit := u }) := by
  intro s i a h
  obtain ⟨v, h1, h⟩ := bind_ok_iff.1 h
  cases h
  rw [events_limits] at h1
  refine ⟨_, bind_ok_iff.2 ⟨v, by rw [events_limits]; exact h1, rfl⟩, ?_⟩
  unfold isCompleted checkTimeout
  cases b with
  | true => simp
  | false =>
    simp only [Bool.false_eq_true, if_false]
    cases v.1.progress.completed with
    | true => simp
    | false =>
      simp only [Bool.false_eq_true, if_false, decide_eq_true_eq]
      split
      · intro h; cases h
      · intro _; rw [if_neg (by omega)]

theorem eits_earlier {w : World} {ps : List (List UInt8)} (hr : Reads w ps) (o : EitCollector.Opt) {t u : Int} (htu : t ≤ u)
    {e' : Ended} (h' : collectEits w { o with timeLimit := u } = .ok e') :
    ∃ e, collectEits w { o with timeLimit := t } = .ok e ∧ e.code = e'.code ∧ e.docs <+: e'.docs := by
  obtain ⟨hg, r', h1, rfl⟩ := (eits_eq hr _ _).1 h'
  have he := EitCollector.step_earlier o o.streaming htu
  obtain ⟨r, h2⟩ := earlier_ok (c := exitSuccess) he
    (fun s i b hb => by
      obtain ⟨m, hm⟩ := EitCollector.step_same (o := o) o.streaming o.streaming u t s i b hb
      exact ⟨_, hm⟩)
    (seen (Main.sections w) 0 ps) { st := {} } { st := {} } r' rfl h1
  exact ⟨_, (eits_eq hr _ _).2 ⟨hg, r, h2, rfl⟩, rfl, eitDocs_prefix w (earlier_prefix he _ _ _ _ _ rfl rfl h2 h1)⟩

end Mirakc
