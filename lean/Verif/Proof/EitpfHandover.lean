import Verif.Proof.BehindEits
/-
Lemmas for C155: one process of collect-eitpf takes over from another.
-/
namespace Mirakc.EitpfHandover
open Mirakc.EitpfCollector Mirakc.BehindEits
open Mirakc.EitCollector (DemuxCall)

/-- The sections written. -/
def outs (cs : List DemuxCall) : List EitSection := cs.filterMap (·.out)

/-- What the process that goes on (`c`) and the new one (`f`) know, the first having known `b` at the handover. -/
def Rel (b c f : Versions) : Prop :=
  ∀ k, (f.lookup k = none ∧ c.lookup k = b.lookup k) ∨ ∃ v, f.lookup k = some v ∧ c.lookup k = some v

theorem Rel.start (b : Versions) : Rel b b [] := fun _ => .inl ⟨rfl, rfl⟩

theorem Rel.both {b c f : Versions} (h : Rel b c f) (k : UInt64) (v : Fin 32) : Rel b (c.set k v) (f.set k v) := by
  intro k'
  rw [lookup_set, lookup_set]
  by_cases e : k' = k
  · simp [e]
  · simp only [e, if_false]; exact h k'

theorem Rel.fresh {b c f : Versions} (h : Rel b c f) {k : UInt64} {v : Fin 32} (hk : c.lookup k = some v) :
    Rel b c (f.set k v) := by
  intro k'
  rw [lookup_set]
  by_cases e : k' = k
  · subst e; exact .inr ⟨v, by simp, hk⟩
  · simp only [e, if_false]; exact h k'

theorem collected_iff {e : EitSection} {vs : Versions} :
    isCollected e vs = true ↔ vs.lookup e.serviceTriple = some e.version := by
  unfold isCollected
  split
  · next h => rw [h]; simp
  · next v h => rw [h]; simp

theorem Rel.collected {b c f : Versions} (h : Rel b c f) {e : EitSection} (hf : isCollected e f = true) :
    isCollected e c = true := by
  rw [collected_iff] at hf ⊢
  rcases h e.serviceTriple with ⟨h1, _⟩ | ⟨v, h1, h2⟩
  · rw [h1] at hf; cases hf
  · rw [h2, ← h1, hf]

theorem Rel.based {b c f : Versions} (h : Rel b c f) {e : EitSection} (hc : isCollected e c = true)
    (hf : isCollected e f = false) : b.lookup e.serviceTriple = some e.version := by
  rw [collected_iff] at hc
  rcases h e.serviceTriple with ⟨_, h2⟩ | ⟨v, h1, h2⟩
  · rw [← h2, hc]
  · rw [h2] at hc
    rw [hc] at h1
    rw [collected_iff.2 h1] at hf; cases hf

structure Rels (b c f : St) : Prop where
  present : Rel b.present c.present f.present
  following : Rel b.following c.following f.following

/-- The section was known at the handover. -/
def Based (o : Opt) (b : St) (x : EitSection) : Prop :=
  (x.sectionNumber = 0 ∧ o.present = true ∧ b.present.lookup x.serviceTriple = some x.version) ∨
    (x.sectionNumber = 1 ∧ o.following = true ∧ b.following.lookup x.serviceTriple = some x.version)

theorem ev_sim {o : Opt} {b c f c' f' : St} {o1 o2 : Option EitSection} {e : SectionEvent}
    (hr : Rels b c f) (h1 : handleEvent o c e = .ok (c', o1)) (h2 : handleEvent o f e = .ok (f', o2)) :
    Rels b c' f' ∧ (o1 = none ∨ o1 = o2) ∧ ∀ x, o2 = some x → o1 = some x ∨ Based o b x := by
  have inert : (.ok (c, none) : Except Fault _) = .ok (c', o1) → (.ok (f, none) : Except Fault _) = .ok (f', o2) →
      Rels b c' f' ∧ (o1 = none ∨ o1 = o2) ∧ ∀ x, o2 = some x → o1 = some x ∨ Based o b x := by
    intro a d
    cases a; cases d
    exact ⟨hr, .inl rfl, fun x h => by cases h⟩
  unfold handleEvent at h1 h2
  cases e with
  | table t => exact inert h1 h2
  | sect x =>
    simp only [handleSection] at h1 h2
    by_cases c1 : (!x.valid) = true
    · rw [if_pos c1] at h1 h2; exact inert h1 h2
    rw [if_neg c1] at h1 h2
    by_cases c2 : (x.tid != 0x4E) = true
    · rw [if_pos c2] at h1 h2; exact inert h1 h2
    rw [if_neg c2] at h1 h2
    by_cases c3 : x.payload.length < EitSection.payloadFixedSize
    · rw [if_pos c3] at h1 h2; exact inert h1 h2
    rw [if_neg c3] at h1 h2
    by_cases c4 : x.next = true
    · rw [if_pos c4] at h1 h2; exact inert h1 h2
    rw [if_neg c4] at h1 h2
    obtain ⟨e, e1, h1⟩ := bind_eq_ok h1
    obtain ⟨e', e2, h2⟩ := bind_eq_ok h2
    rw [e1] at e2
    obtain rfl := Except.ok.inj e2
    by_cases c5 : (!o.sids.isEmpty && !o.sids.contains e.sid) = true
    · rw [if_pos c5] at h1 h2; exact inert h1 h2
    rw [if_neg c5] at h1 h2
    by_cases c6 : (e.sectionNumber == 0) = true
    · rw [if_pos c6] at h1 h2
      cases k1 : isCollected e c.present with
      | true =>
        rw [k1, if_pos rfl] at h1
        cases h1
        cases k2 : isCollected e f.present with
        | true => rw [k2, if_pos rfl] at h2; exact inert rfl h2
        | false =>
          rw [k2, if_neg (by decide)] at h2
          have hset : Rels b c { f with present := f.present.set e.serviceTriple e.version } :=
            ⟨hr.present.fresh (collected_iff.1 k1), hr.following⟩
          split at h2
          · next hp =>
            obtain ⟨_, _, h2⟩ := bind_eq_ok h2
            cases h2
            exact ⟨hset, .inl rfl, fun x hx => by
              cases hx; exact .inr (.inl ⟨by simpa using c6, hp, hr.present.based k1 k2⟩)⟩
          · cases h2
            exact ⟨hset, .inl rfl, fun x hx => by cases hx⟩
      | false =>
        have k2 : isCollected e f.present = false := by
          cases k2 : isCollected e f.present with
          | false => rfl
          | true => rw [hr.present.collected k2] at k1; cases k1
        rw [k1, if_neg (by decide)] at h1
        rw [k2, if_neg (by decide)] at h2
        split at h1
        · next hp =>
          rw [if_pos hp] at h2
          obtain ⟨_, _, h1⟩ := bind_eq_ok h1
          obtain ⟨_, _, h2⟩ := bind_eq_ok h2
          cases h1; cases h2
          exact ⟨⟨hr.present.both _ _, hr.following⟩, .inr rfl, fun x hx => .inl hx⟩
        · next hp =>
          rw [if_neg hp] at h2
          cases h1; cases h2
          exact ⟨⟨hr.present.both _ _, hr.following⟩, .inl rfl, fun x hx => .inl hx⟩
    rw [if_neg c6] at h1 h2
    by_cases c7 : (e.sectionNumber == 1) = true
    · rw [if_pos c7] at h1 h2
      cases k1 : isCollected e c.following with
      | true =>
        rw [k1, if_pos rfl] at h1
        cases h1
        cases k2 : isCollected e f.following with
        | true => rw [k2, if_pos rfl] at h2; exact inert rfl h2
        | false =>
          rw [k2, if_neg (by decide)] at h2
          have hset : Rels b c { f with following := f.following.set e.serviceTriple e.version } :=
            ⟨hr.present, hr.following.fresh (collected_iff.1 k1)⟩
          split at h2
          · next hp =>
            obtain ⟨_, _, h2⟩ := bind_eq_ok h2
            cases h2
            exact ⟨hset, .inl rfl, fun x hx => by
              cases hx; exact .inr (.inr ⟨by simpa using c7, hp, hr.following.based k1 k2⟩)⟩
          · cases h2
            exact ⟨hset, .inl rfl, fun x hx => by cases hx⟩
      | false =>
        have k2 : isCollected e f.following = false := by
          cases k2 : isCollected e f.following with
          | false => rfl
          | true => rw [hr.following.collected k2] at k1; cases k1
        rw [k1, if_neg (by decide)] at h1
        rw [k2, if_neg (by decide)] at h2
        split at h1
        · next hp =>
          rw [if_pos hp] at h2
          obtain ⟨_, _, h1⟩ := bind_eq_ok h1
          obtain ⟨_, _, h2⟩ := bind_eq_ok h2
          cases h1; cases h2
          exact ⟨⟨hr.present, hr.following.both _ _⟩, .inr rfl, fun x hx => .inl hx⟩
        · next hp =>
          rw [if_neg hp] at h2
          cases h1; cases h2
          exact ⟨⟨hr.present, hr.following.both _ _⟩, .inl rfl, fun x hx => .inl hx⟩
    rw [if_neg c7] at h1 h2
    exact inert h1 h2

theorem evs_sim {o : Opt} {b : St} : ∀ {es : List SectionEvent} {c f c' f' : St} {cs cs' : List DemuxCall},
    Rels b c f → handleEvents o es c = .ok (c', cs) → handleEvents o es f = .ok (f', cs') →
    (outs cs).Sublist (outs cs') ∧ ∀ x ∈ outs cs', x ∈ outs cs ∨ Based o b x
  | [], _, _, _, _, _, _, _, h1, h2 => by
    cases h1; cases h2
    exact ⟨.refl _, fun x hx => .inl hx⟩
  | e :: es, c, f, c', f', cs, cs', hr, h1, h2 => by
    unfold handleEvents at h1 h2
    obtain ⟨⟨c1, o1⟩, a1, h1⟩ := bind_eq_ok h1
    obtain ⟨⟨c2, l1⟩, b1, h1⟩ := bind_eq_ok h1
    obtain ⟨⟨f1, o2⟩, a2, h2⟩ := bind_eq_ok h2
    obtain ⟨⟨f2, l2⟩, b2, h2⟩ := bind_eq_ok h2
    cases h1; cases h2
    obtain ⟨r, s1, s2⟩ := ev_sim hr a1 a2
    obtain ⟨t1, t2⟩ := evs_sim r b1 b2
    unfold outs at t1 t2 ⊢
    cases o2 with
    | none =>
      have : o1 = none := by rcases s1 with h | h <;> exact h
      subst this
      exact ⟨t1, t2⟩
    | some x =>
      constructor
      · rcases s1 with rfl | rfl
        · exact t1.cons x
        · exact t1.cons_cons x
      · intro y hy
        have hy : y = x ∨ y ∈ l2.filterMap (·.out) := by simpa using hy
        have up : y ∈ l1.filterMap (·.out) → y ∈ List.filterMap (·.out) (⟨e, o1⟩ :: l1) := fun h => by
          rw [List.filterMap_cons]; split
          · exact h
          · exact List.mem_cons_of_mem _ h
        rcases hy with rfl | hy
        · rcases s2 y rfl with h | h
          · subst h; exact .inl (by simp)
          · exact .inr h
        · exact (t2 y hy).imp up id

/-- What is known has been written. -/
def Wrote (o : Opt) (s : St) (l : List EitSection) : Prop := ∀ x, Based o s x →
  ∃ y ∈ l, y.sectionNumber = x.sectionNumber ∧ y.serviceTriple = x.serviceTriple ∧ y.version = x.version

theorem Wrote.mono {o : Opt} {s : St} {l l' : List EitSection} (h : Wrote o s l) (hs : ∀ y ∈ l, y ∈ l') : Wrote o s l' :=
  fun x hx => by obtain ⟨y, h1, h2⟩ := h x hx; exact ⟨y, hs y h1, h2⟩

theorem ev_wrote {o : Opt} {s s' : St} {out : Option EitSection} {e : SectionEvent} {l : List EitSection}
    (hw : Wrote o s l) (h : handleEvent o s e = .ok (s', out)) : Wrote o s' (l ++ out.toList) := by
  have inert : (.ok (s, none) : Except Fault _) = .ok (s', out) → Wrote o s' (l ++ out.toList) := by
    intro a; cases a
    exact hw.mono (by simp)
  unfold handleEvent at h
  cases e with
  | table t => exact inert h
  | sect x =>
    simp only [handleSection] at h
    split at h; · exact inert h
    split at h; · exact inert h
    split at h; · exact inert h
    split at h; · exact inert h
    obtain ⟨e, e1, h⟩ := bind_eq_ok h
    split at h; · exact inert h
    split at h
    · next c6 =>
      have c6 : e.sectionNumber = 0 := by simpa using c6
      split at h; · exact inert h
      split at h
      · obtain ⟨_, _, h⟩ := bind_eq_ok h
        cases h
        intro x hx
        rcases hx with ⟨h1, h2, h3⟩ | hx
        · simp only [lookup_set] at h3
          split at h3
          · next hk => exact ⟨e, by simp, by rw [c6, h1], hk.symm, Option.some.inj h3⟩
          · obtain ⟨y, hy, hz⟩ := hw x (.inl ⟨h1, h2, h3⟩)
            exact ⟨y, List.mem_append_left _ hy, hz⟩
        · obtain ⟨y, hy, hz⟩ := hw x (.inr hx)
          exact ⟨y, List.mem_append_left _ hy, hz⟩
      · next hp =>
        cases h
        intro x hx
        rcases hx with ⟨_, h2, _⟩ | hx
        · exact absurd h2 hp
        · obtain ⟨y, hy, hz⟩ := hw x (.inr hx)
          exact ⟨y, List.mem_append_left _ hy, hz⟩
    split at h
    · next c7 =>
      have c7 : e.sectionNumber = 1 := by simpa using c7
      split at h; · exact inert h
      split at h
      · obtain ⟨_, _, h⟩ := bind_eq_ok h
        cases h
        intro x hx
        rcases hx with hx | ⟨h1, h2, h3⟩
        · obtain ⟨y, hy, hz⟩ := hw x (.inl hx)
          exact ⟨y, List.mem_append_left _ hy, hz⟩
        · simp only [lookup_set] at h3
          split at h3
          · next hk => exact ⟨e, by simp, by rw [c7, h1], hk.symm, Option.some.inj h3⟩
          · obtain ⟨y, hy, hz⟩ := hw x (.inr ⟨h1, h2, h3⟩)
            exact ⟨y, List.mem_append_left _ hy, hz⟩
      · next hp =>
        cases h
        intro x hx
        rcases hx with hx | ⟨_, h2, _⟩
        · obtain ⟨y, hy, hz⟩ := hw x (.inl hx)
          exact ⟨y, List.mem_append_left _ hy, hz⟩
        · exact absurd h2 hp
    · exact inert h

theorem evs_wrote {o : Opt} : ∀ {es : List SectionEvent} {s s' : St} {cs : List DemuxCall} {l : List EitSection},
    Wrote o s l → handleEvents o es s = .ok (s', cs) → Wrote o s' (l ++ outs cs)
  | [], _, _, _, _, hw, h => by cases h; exact hw.mono fun y hy => List.mem_append_left _ hy
  | e :: es, s, s', cs, l, hw, h => by
    unfold handleEvents at h
    obtain ⟨⟨s1, o1⟩, a1, h⟩ := bind_eq_ok h
    obtain ⟨⟨s2, l1⟩, b1, h⟩ := bind_eq_ok h
    cases h
    have := evs_wrote (ev_wrote hw a1) b1
    refine this.mono fun y hy => ?_
    cases o1 <;> simpa [outs] using hy

theorem evs_append {o : Opt} : ∀ {as bs : List SectionEvent} {s s' : St} {cs : List DemuxCall},
    handleEvents o (as ++ bs) s = .ok (s', cs) → ∃ s1 c1 c2, handleEvents o as s = .ok (s1, c1) ∧
      handleEvents o bs s1 = .ok (s', c2) ∧ cs = c1 ++ c2
  | [], bs, s, s', cs, h => ⟨s, [], cs, rfl, h, rfl⟩
  | e :: as, bs, s, s', cs, h => by
    simp only [List.cons_append, handleEvents] at h ⊢
    obtain ⟨⟨s1, o1⟩, a1, h⟩ := bind_eq_ok h
    obtain ⟨⟨s2, l1⟩, b1, h⟩ := bind_eq_ok h
    cases h
    obtain ⟨t, c1, c2, k1, k2, rfl⟩ := evs_append b1
    exact ⟨t, _, c2, by rw [a1]; simp only [bind, Except.bind]; rw [k1], k2, rfl⟩

theorem evs_cat {o : Opt} : ∀ {as bs : List SectionEvent} {s s1 s2 : St} {c1 c2 : List DemuxCall},
    handleEvents o as s = .ok (s1, c1) → handleEvents o bs s1 = .ok (s2, c2) →
      handleEvents o (as ++ bs) s = .ok (s2, c1 ++ c2)
  | [], _, _, _, _, _, _, h1, h2 => by cases h1; exact h2
  | e :: as, bs, s, s1, s2, c1, c2, h1, h2 => by
    simp only [List.cons_append, handleEvents] at h1 ⊢
    obtain ⟨⟨t, o1⟩, a1, h1⟩ := bind_eq_ok h1
    obtain ⟨⟨t2, l1⟩, b1, h1⟩ := bind_eq_ok h1
    cases h1
    rw [a1]
    simp only [bind, Except.bind]
    rw [evs_cat b1 h2]
    rfl

/-- With `--streaming` every packet is handled. -/
theorem streams {o : Opt} (hs : o.streaming = true) : ∀ {is : List SectionInput} {s : St} {items},
    Runs (step o) s is items → ∃ s', handleEvents o (is.flatMap (handedOver watched)) s = .ok (s', items.flatMap (·.did))
  | _, s, _, .nil => ⟨s, rfl⟩
  | _, s, _, .stop h => by
    exfalso
    unfold step at h
    obtain ⟨⟨s1, l⟩, _, h⟩ := bind_eq_ok h
    simp only [done, hs, if_true] at h
    cases h
  | _, s, _, .go (i := i) h r => by
    obtain ⟨s', k⟩ := streams hs r
    unfold step at h
    obtain ⟨⟨s1, l⟩, a, h⟩ := bind_eq_ok h
    obtain ⟨d, _, h⟩ := bind_eq_ok h
    simp only [Except.ok.injEq, Prod.mk.injEq] at h
    obtain ⟨rfl, rfl, _⟩ := h
    refine ⟨s', ?_⟩
    simp only [List.flatMap_cons]
    exact evs_cat a k

theorem handover {o : Opt} (hs : o.streaming = true) {as bs : List SectionInput} {c c1 c2 : Nat} {y y1 y2 : Hist}
    (h : Spec.EitpfCollector.Collected o (as ++ bs) c y) (h1 : Spec.EitpfCollector.Collected o as c1 y1)
    (h2 : Spec.EitpfCollector.Collected o bs c2 y2) :
    ∃ l, outs (y.items.flatMap (·.did)) = outs (y1.items.flatMap (·.did)) ++ l ∧
      l.Sublist (outs (y2.items.flatMap (·.did))) ∧
      ∀ x ∈ outs (y2.items.flatMap (·.did)), x ∈ l ∨ ∃ z ∈ outs (y1.items.flatMap (·.did)),
        z.sectionNumber = x.sectionNumber ∧ z.serviceTriple = x.serviceTriple ∧ z.version = x.version := by
  have r := Runs.ran (step := step o) (finish := .ok) (exitCode := fun _ => exitSuccess) h
  have r1 := Runs.ran (step := step o) (finish := .ok) (exitCode := fun _ => exitSuccess) h1
  have r2 := Runs.ran (step := step o) (finish := .ok) (exitCode := fun _ => exitSuccess) h2
  obtain ⟨s, k⟩ := streams hs r
  obtain ⟨s1, k1⟩ := streams hs r1
  obtain ⟨s2, k2⟩ := streams hs r2
  rw [List.flatMap_append] at k
  obtain ⟨t, d1, d2, m1, m2, hd⟩ := evs_append k
  rw [k1] at m1
  cases m1
  obtain ⟨q1, q2⟩ := evs_sim (b := s1) ⟨Rel.start _, Rel.start _⟩ m2 k2
  have hw : Wrote o {} [] := by
    intro x hx
    rcases hx with ⟨_, _, hx⟩ | ⟨_, _, hx⟩ <;> cases hx
  have hw := evs_wrote hw k1
  refine ⟨outs d2, by rw [hd]; simp [outs], q1, fun x hx => (q2 x hx).imp id fun hb => ?_⟩
  simpa using hw x hb

end Mirakc.EitpfHandover
