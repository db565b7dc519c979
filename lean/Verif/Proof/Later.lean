import Verif.Spec.Later
import Verif.Proof.Foreign
/-
Lemmas: the same broadcast at another time.  Two runs of a sink are compared by a relation
between their states.
-/
namespace Mirakc.Main
open Mirakc.Pipeline Mirakc.Spec Mirakc.Spec.Main Mirakc.Spec.Pipeline

/-- Both fail in the same way, or both succeed with related results. -/
def Rel {ε α β : Type} (R : α → β → Prop) : Except ε α → Except ε β → Prop
  | .ok a, .ok b => R a b
  | .error e, .error f => e = f
  | _, _ => False

section
variable {ε α β γ δ : Type} {R : α → β → Prop} {S : γ → δ → Prop}

theorem Rel.bind {x : Except ε α} {y : Except ε β} {f : α → Except ε γ} {g : β → Except ε δ} (h : Rel R x y)
    (hf : ∀ a b, R a b → Rel S (f a) (g b)) : Rel S (x >>= f) (y >>= g) := by
  cases x <;> cases y
  · exact h
  · exact h.elim
  · exact h.elim
  · exact hf _ _ h

theorem Rel.bind_same {x : Except ε α} {f : α → Except ε γ} {g : α → Except ε δ}
    (hf : ∀ a, Rel S (f a) (g a)) : Rel S (x >>= f) (x >>= g) := by
  cases x
  · exact rfl
  · exact hf _

theorem Rel.mono {R' : α → β → Prop} {x : Except ε α} {y : Except ε β} (h : Rel R x y)
    (hr : ∀ a b, R a b → R' a b) : Rel R' x y := by
  cases x <;> cases y
  · exact h
  · exact h.elim
  · exact h.elim
  · exact hr _ _ h

theorem Rel.map {f : α → γ} {g : β → δ} {x : Except ε α} {y : Except ε β} (h : Rel R x y)
    (hr : ∀ a b, R a b → S (f a) (g b)) : Rel S (x.map f) (y.map g) := by
  cases x <;> cases y
  · exact h
  · exact h.elim
  · exact h.elim
  · exact hr _ _ h

theorem Rel.mapError {ε' : Type} {f : ε → ε'} {x : Except ε α} {y : Except ε β} (h : Rel R x y) :
    Rel R (x.mapError f) (y.mapError f) := by
  cases x <;> cases y
  · exact congrArg f h
  · exact h.elim
  · exact h.elim
  · exact h

theorem Rel.eq {x : Except ε α} {y : Except ε β} {f : α → β} (h : Rel (fun a b => b = f a) x y) : y = x.map f := by
  cases x <;> cases y
  · exact congrArg _ (Eq.symm h)
  · exact h.elim
  · exact h.elim
  · exact congrArg _ h

theorem Rel.of_eq {x : Except ε α} {y : Except ε α} (h : y = x) : Rel (fun a b => b = a) x y := by
  subst h
  cases y <;> exact rfl

/-- The same branch is taken. -/
theorem rel_ite {c c' : Prop} [Decidable c] [Decidable c'] {a a' : α} {b b' : β} (hc : c' ↔ c)
    (h1 : c → R a b) (h2 : ¬ c → R a' b') : R (if c then a else a') (if c' then b else b') := by
  by_cases h : c
  · rw [if_pos h, if_pos (hc.mpr h)]; exact h1 h
  · rw [if_neg h, if_neg (fun h' => h (hc.mp h'))]; exact h2 h

theorem Rel.ite {c c' : Prop} [Decidable c] [Decidable c'] {a a' : Except ε α} {b b' : Except ε β} (hc : c' ↔ c)
    (h1 : c → Rel R a b) (h2 : ¬ c → Rel R a' b') : Rel R (if c then a else a') (if c' then b else b') :=
  rel_ite (R := Rel R) hc h1 h2

end

/-- Two sinks that do the same with related packets in related states. -/
structure SinkRel {P P' σ σ' : Type} (G : P → P' → Prop) (S : σ → σ' → Prop) (k : Sink P σ) (k' : Sink P' σ') : Prop where
  start : ∀ s s', S s s' → Rel (fun a b => b.1 = a.1 ∧ S a.2 b.2) (k.start s) (k'.start s')
  handle : ∀ s s' p p', S s s' → G p p' → Rel (fun a b => b.1 = a.1 ∧ S a.2 b.2) (k.handle s p) (k'.handle s' p')
  finish : ∀ s s', S s s' → Rel S (k.finish s) (k'.finish s')
  exitCode : ∀ s s', S s s' → k'.exitCode s' = k.exitCode s

/-- Lists of related packets. -/
inductive Rels {P P' : Type} (G : P → P' → Prop) : List P → List P' → Prop where
  | nil : Rels G [] []
  | cons {p p' ps ps'} : G p p' → Rels G ps ps' → Rels G (p :: ps) (p' :: ps')

section
variable {P P' σ σ' : Type} {G : P → P' → Prop} {S : σ → σ' → Prop} {k : Sink P σ} {k' : Sink P' σ'}

theorem foldP_rel (h : SinkRel G S k k') {ps : List P} {ps' : List P'} (hp : Rels G ps ps') :
    ∀ s s', S s s' → Rel S (foldP k ps s) (foldP k' ps' s') := by
  induction hp with
  | nil => exact fun s s' hs => hs
  | cons hg _ ih =>
    intro s s' hs
    refine (h.handle s s' _ _ hs hg).bind fun a b hab => ?_
    obtain ⟨ok, a⟩ := a
    obtain ⟨ok', b⟩ := b
    obtain ⟨h1, h2⟩ := hab
    cases h1
    cases ok with
    | false => exact h2
    | true => exact ih _ _ h2

theorem around_rel (h : SinkRel G S k k') {ps : List P} {ps' : List P'} (hp : Rels G ps ps') {s : σ} {s' : σ'}
    (hs : S s s') : Rel (fun a b => b.1 = a.1 ∧ S a.2 b.2) (around k s (foldP k ps)) (around k' s' (foldP k' ps')) := by
  unfold around
  refine (h.start s s' hs).bind fun a b hab => ?_
  obtain ⟨ok, a⟩ := a
  obtain ⟨ok', b⟩ := b
  obtain ⟨h1, h2⟩ := hab
  cases h1
  cases ok with
  | false => exact ⟨rfl, h2⟩
  | true =>
    refine (foldP_rel h hp _ _ h2).bind fun c d hcd => ?_
    refine (h.finish _ _ hcd).bind fun e f hef => ?_
    exact ⟨h.exitCode _ _ hef, hef⟩

theorem via_rel {Q Q' : Type} {H : Q → Q' → Prop} (h : SinkRel G S k k') {f : Nat → Q → P} {f' : Nat → Q' → P'}
    (hf : ∀ n q q', H q q' → G (f n q) (f' n q')) :
    SinkRel H (fun a b => b.1 = a.1 ∧ S a.2 b.2) (via f k) (via f' k') where
  start s s' hs := (h.start _ _ hs.2).bind fun a b hab => ⟨hab.1, hs.1, hab.2⟩
  handle s s' q q' hs hq := by
    have e : s'.1 = s.1 := hs.1
    refine (h.handle _ _ _ _ hs.2 (by rw [e]; exact hf s.1 q q' hq)).bind fun a b hab => ⟨hab.1, ?_, hab.2⟩
    show s'.1 + 1 = s.1 + 1
    rw [e]
  finish s s' hs := (h.finish _ _ hs.2).bind fun a b hab => ⟨hs.1, hab⟩
  exitCode s s' hs := h.exitCode _ _ hs.2

end

/-- A sink that is not told the difference. -/
theorem sink_refl {P σ : Type} (k : Sink P σ) : SinkRel (fun p p' => p' = p) (fun s s' => s' = s) k k where
  start s s' h := by subst h; exact (Rel.of_eq rfl).mono fun a b h => by subst h; exact ⟨rfl, rfl⟩
  handle s s' p p' h hp := by subst h; subst hp; exact (Rel.of_eq rfl).mono fun a b h => by subst h; exact ⟨rfl, rfl⟩
  finish s s' h := by subst h; exact (Rel.of_eq rfl).mono fun a b h => h
  exitCode s s' h := by subst h; rfl

theorem seen_rel {Q P P' : Type} {G : P → P' → Prop} {f : Nat → Q → P} {f' : Nat → Q → P'}
    (hf : ∀ n q, G (f n q) (f' n q)) : ∀ (l : List Q) (n : Nat), Rels G (seen f n l) (seen f' n l)
  | [], _ => .nil
  | q :: l, n => .cons (hf n q) (seen_rel hf l (n + 1))

/-- Two runs of a command. -/
theorem feed_rel {w w' : World} {ps : List (List UInt8)} (hr : Reads w ps) (hr' : Reads w' ps) {P P' σ σ' : Type}
    {G : P → P' → Prop} {S : σ → σ' → Prop} {k : Sink P σ} {k' : Sink P' σ'} (h : SinkRel G S k k')
    {f : Nat → List UInt8 → P} {f' : Nat → List UInt8 → P'} (hf : ∀ n q, G (f n q) (f' n q)) {s : σ} {s' : σ'}
    (hs : S s s') {T : Int} (c : Nat × σ → Except Stop Ended) (c' : Nat × σ' → Except Stop Ended)
    (hc : ∀ n a b, S a b → Rel (fun x y => y = laterEnded T x) (c (n, a)) (c' (n, b))) :
    (feed w' (via f' k') (0, s') >>= fun r => c' (r.1, r.2.2)) =
      (feed w (via f k) (0, s) >>= fun r => c (r.1, r.2.2)).map (laterEnded T) := by
  rw [feed_around hr f k s c, feed_around hr' f' k' s' c']
  refine Rel.eq (((around_rel h (seen_rel hf ps 0) hs).mapError).bind fun a b hab => ?_)
  obtain ⟨h1, h2⟩ := hab
  obtain ⟨n, a⟩ := a
  obtain ⟨m, b⟩ := b
  cases h1
  exact hc n a b h2

/-- The tables are handed over in the same way. -/
theorem feedDemux_rel {σ σ' : Type} {R : σ → σ' → Prop} {watched : σ → PidSet} {watched' : σ' → PidSet}
    {handle : σ → Table → Except Fault σ} {handle' : σ' → Table → Except Fault σ'} {T : Int}
    (hw : ∀ s s', R s s' → watched' s' = watched s)
    (hh : ∀ s s' t, R s s' → Rel R (handle s t) (handle' s' (laterTable T t))) (pid : Nat) :
    ∀ (ts : List Table) (s : σ) (s' : σ'), R s s' →
      Rel (fun a b => R a.1 b.1 ∧ b.2 = a.2.map (laterTable T)) (feedDemux watched handle pid ts s)
        (feedDemux watched' handle' pid (ts.map (laterTable T)) s')
  | [], _, _, hs => ⟨hs, rfl⟩
  | t :: ts, s, s', hs => by
    simp only [feedDemux, List.map_cons]
    rw [hw s s' hs]
    by_cases hc : (t.sourcePid == pid && (watched s).contains pid) = true
    · rw [if_pos hc, if_pos (show ((laterTable T t).sourcePid == pid && (watched s).contains pid) = true from hc)]
      refine (hh s s' t hs).bind fun a b hab => ?_
      refine (feedDemux_rel hw hh pid ts a b hab).bind fun c d hcd => ?_
      exact ⟨hcd.1, by rw [List.map_cons, hcd.2]⟩
    · rw [if_neg hc, if_neg (show ¬ ((laterTable T t).sourcePid == pid && (watched s).contains pid) = true from hc)]
      exact feedDemux_rel hw hh pid ts s s' hs

/-- Packets with tables. -/
def LaterInput (T : Int) (i i' : Input) : Prop := i'.packet = i.packet ∧ i'.tables = i.tables.map (laterTable T)

/-- Handlers that do not look at times. -/
theorem feedDemux_timeless {σ : Type} {watched : σ → PidSet} {handle : σ → Table → Except Fault σ} {T : Int}
    (hh : ∀ s t, handle s (laterTable T t) = handle s t) (pid : Nat) (ts : List Table) (s : σ) :
    Rel (fun a b => b.1 = a.1) (feedDemux watched handle pid ts s)
      (feedDemux watched handle pid (ts.map (laterTable T)) s) :=
  (feedDemux_rel (R := fun a b => b = a) (fun s s' h => by subst h; rfl)
    (fun s s' t h => by subst h; rw [hh]; exact Rel.of_eq rfl) pid ts s s rfl).mono fun _ _ h => h.1

end Mirakc.Main
