import Verif.Spec.PacketLoop
/-
Executable helpers used only in the concrete cases beside the theorems: run a
sink over a list of packets and see what happens.
-/
namespace Mirakc.Spec

/-- The state after all packets were accepted, if they were. -/
def acceptAll {P σ : Type} (snk : Sink P σ) (s : σ) : List P → Option σ
  | [] => some s
  | p :: ps => match snk.handle s p with
    | .ok (true, s') => acceptAll snk s' ps
    | _ => none

theorem acceptAll_accepts {P σ : Type} {snk : Sink P σ} {ps : List P} {s s' : σ}
    (h : acceptAll snk s ps = some s') : Accepts snk s ps s' := by
  induction ps generalizing s with
  | nil => simp [acceptAll] at h; subst h; exact .nil
  | cons p ps ih =>
    unfold acceptAll at h
    split at h
    · next s1 h1 => exact .cons h1 (ih h)
    · cases h

/-- The packets received and the state reached when packets are offered until
one is refused. -/
def consumeAll {P σ : Type} (snk : Sink P σ) (s : σ) : List P → Option (List P × σ)
  | [] => some ([], s)
  | p :: ps => match snk.handle s p with
    | .ok (true, s') => (consumeAll snk s' ps).map fun r => (p :: r.1, r.2)
    | .ok (false, s') => some ([p], s')
    | .error _ => none

theorem consumeAll_consumes {P σ : Type} {snk : Sink P σ} {ps : List P} {s s' : σ} {cs : List P}
    (h : consumeAll snk s ps = some (cs, s')) : Consumes snk s ps cs s' := by
  induction ps generalizing s cs with
  | nil => simp [consumeAll] at h; obtain ⟨h1, h2⟩ := h; subst h1; subst h2; exact .eof
  | cons p ps ih =>
    unfold consumeAll at h
    split at h
    · next s1 h1 =>
      rw [Option.map_eq_some_iff] at h
      obtain ⟨⟨cs1, s2⟩, h2, h3⟩ := h
      cases h3
      exact .accept h1 (ih h2)
    · next s1 h1 => cases h; exact .refuse h1
    · cases h

/-- A source that delivers the packets of a list. -/
def listSource {P : Type} : Source P (List P) where
  next
    | [] => .ok (none, [])
    | p :: ps => .ok (some p, ps)

theorem listSource_yields {P : Type} (ps : List P) : Yields listSource ps ps := by
  induction ps with
  | nil => exact .stop rfl
  | cons p ps ih => exact .more rfl ih

/-- What the sink does depends only on the packets delivered. -/
theorem feedPackets_list {P τ σ : Type} {src : Source P τ} {t : τ} {ps : List P} (snk : Sink P σ)
    (hy : Yields src t ps) (fuel : Nat) (hf : ps.length < fuel) (s : σ) :
    feedPackets src snk fuel t s = feedPackets listSource snk (ps.length + 1) ps s := by
  have loop : ∀ s, (feedLoop src snk fuel t s).map (·.2) =
      (feedLoop listSource snk (ps.length + 1) ps s).map (·.2) := by
    clear s
    induction hy generalizing fuel with
    | stop h =>
      intro s
      cases fuel with
      | zero => omega
      | succ n =>
        simp only [feedLoop, h]
        rfl
    | @more t t1 p ps h _ ih =>
      intro s
      cases fuel with
      | zero => simp at hf
      | succ n =>
        simp only [feedLoop, h, List.length_cons]
        simp only [List.length_cons] at hf
        have ih := ih n (by omega)
        show Except.map _ (do
          let (ok, s) ← snk.handle s p
          if ok then feedLoop src snk n t1 s else .ok (t1, s)) = Except.map _ (do
          let (ok, s) ← snk.handle s p
          if ok then feedLoop listSource snk (ps.length + 1) ps s else .ok (ps, s))
        cases snk.handle s p with
        | error e => rfl
        | ok r =>
          obtain ⟨ok, s1⟩ := r
          cases ok with
          | true => exact ih s1
          | false => rfl
  unfold feedPackets
  cases snk.start s with
  | error e => rfl
  | ok r =>
    obtain ⟨ok, s1⟩ := r
    cases ok with
    | false => rfl
    | true =>
      have h := loop s1
      show (do
        let (_, s) ← feedLoop src snk fuel t s1
        let s ← snk.finish s
        .ok (snk.exitCode s, s)) = (do
        let (_, s) ← feedLoop listSource snk (ps.length + 1) ps s1
        let s ← snk.finish s
        .ok (snk.exitCode s, s))
      generalize feedLoop src snk fuel t s1 = a at h
      generalize feedLoop listSource snk (ps.length + 1) ps s1 = b at h
      cases a with
      | error e =>
        cases b with
        | error e' => simp only [Except.map, Except.error.injEq] at h; rw [h]; rfl
        | ok y => cases h
      | ok x =>
        cases b with
        | error e' => cases h
        | ok y =>
          simp only [Except.map, Except.ok.injEq] at h
          show (do
            let s ← snk.finish x.2
            .ok (snk.exitCode s, s)) = (do
            let s ← snk.finish y.2
            .ok (snk.exitCode s, s))
          rw [h]

end Mirakc.Spec
