import Verif.Spec.EitsHandover
import Verif.Proof.BehindEits
import Verif.Proof.EitAborts
/-
Lemmas for C157: one process of collect-eits takes over from another.
-/
namespace Mirakc.EitsHandover
open Mirakc.Spec Mirakc.Spec.EitCollector Mirakc.Spec.EitsHandover Mirakc.EitCollector Mirakc.BehindEits

theorem ofGroup_snoc (g : (UInt16 × UInt16 × UInt16) × Bool) (l : List EitSection) (d : EitSection) :
    ofGroup g (l ++ [d]) = ofGroup g l ++ if group d = g then [d] else [] := by
  unfold ofGroup
  rw [List.filter_append]
  by_cases h : group d = g <;> simp [h]

theorem covering_snoc (k i : Nat) (l : List EitSection) (d : EitSection) :
    covering k i (l ++ [d]) = covering k i l ++ if tableNo d = k ∧ index d ≤ i ∧ i ≤ lastIndex d then [d] else [] := by
  unfold covering
  rw [List.filter_append]
  by_cases h : tableNo d = k ∧ index d ≤ i ∧ i ≤ lastIndex d <;> simp [h]

theorem trailing_snoc {k : Nat} {l : List EitSection} {d : EitSection} (h : lastTable d = k) :
    trailing k (l ++ [d]) = trailing k l ++ [d] := by
  unfold trailing
  rw [List.reverse_append]
  simp [h]

theorem known_self (l : List EitSection) (e : EitSection) : Known (l ++ [e]) e := by
  unfold Known
  rw [ofGroup_snoc, if_pos rfl]
  refine ⟨⟨e, ?_, rfl, rfl⟩, fun i h1 h2 => ?_⟩
  · rw [trailing_snoc rfl]; simp
  · rw [covering_snoc, if_pos ⟨rfl, h1, by omega⟩]; simp

theorem known_keep {l : List EitSection} {e d : EitSection} (h : Known l e) (hs : SameEdition e d) :
    Known (l ++ [d]) e := by
  unfold Known at h ⊢
  rw [ofGroup_snoc]
  by_cases hg : group d = group e
  · obtain ⟨ht, hv⟩ := hs hg.symm
    rw [if_pos hg, trailing_snoc ht.symm]
    obtain ⟨⟨e', h1, h2⟩, h3⟩ := h
    refine ⟨⟨e', List.mem_append_left _ h1, h2⟩, fun i i1 i2 => ?_⟩
    rw [covering_snoc]
    split
    · next hc => simp [(hv hc.1.symm).1]
    · rw [List.append_nil]; exact h3 i i1 i2
  · rw [if_neg hg, List.append_nil]; exact h

theorem known_same {l : List EitSection} {e d : EitSection} (h : Known l d) (hs : SameEdition e d)
    (hg : group d = group e) (ht : tableNo d = tableNo e) (hn : number d = number e) : Known l e := by
  obtain ⟨h1, h2⟩ := hs hg.symm
  obtain ⟨h2, h3⟩ := h2 ht.symm
  have h3 := h3 hn.symm
  unfold Known at h ⊢
  rw [h1, h2, h3, ← hg, ← ht, ← hn, show index e = index d by unfold index; rw [hn]]
  exact h

/-- Sections of the same number of the same table. -/
def Same (d e : EitSection) : Prop := group d = group e ∧ tableNo d = tableNo e ∧ number d = number e

theorem known_mem {l : List EitSection} {e : EitSection} (h : Known l e) : ∃ d ∈ l, Same d e := by
  obtain ⟨⟨d, h1, h2, h3⟩, _⟩ := h
  have h1 := (trailing_sub _ h1).1
  unfold ofGroup at h1
  obtain ⟨h4, h5⟩ := List.mem_filter.1 h1
  exact ⟨d, h4, of_decide_eq_true h5, h2, h3⟩

theorem Same.symm {d e : EitSection} (h : Same d e) : Same e d := ⟨h.1.symm, h.2.1.symm, h.2.2.symm⟩

/-- The process that goes on and has written `L ++ m`, `L` before the handover, and the new one, which has written `F`. -/
structure Inv (C : EitSection → Prop) (L m F : List EitSection) : Prop where
  sub : m.Sublist F
  of : ∀ f ∈ F, C f
  cont : ∀ f ∈ F, Known (L ++ m) f
  fresh : ∀ f ∈ F, Known F f
  extra : ∀ f ∈ F, f ∈ m ∨ ∃ z ∈ L, Same z f

theorem inv_run {o : Opt} {C : EitSection → Prop} (hC : ∀ e d, C e → C d → SameEdition e d) {L : List EitSection} :
    ∀ {evs : List SectionEvent} {m F L' F' : List EitSection},
      (∀ x, .sect x ∈ evs → Requested o x → ∀ e, Shows e x → C e) → Inv C L m F →
      Wrote (Due o) (L ++ m) evs L' → Wrote (Due o) F evs F' → ∃ m', L' = L ++ m' ∧ Inv C L m' F'
  | [], m, F, L', F', _, hi, h1, h2 => by
    cases h1; cases h2
    exact ⟨m, rfl, hi⟩
  | ev :: evs, m, F, L', F', hx, hi, h1, h2 => by
    have hx' : ∀ x, .sect x ∈ evs → Requested o x → ∀ e, Shows e x → C e := fun x h => hx x (List.mem_cons_of_mem _ h)
    cases h1 with
    | skip a1 a2 =>
      cases h2 with
      | skip b1 b2 => exact inv_run hC hx' hi a2 b2
      | @write _ x e _ _ b1 b2 b3 =>
        have he : C e := hx x List.mem_cons_self b1.1 e b1.2.1
        have hk : Known (L ++ m) e := by
          apply Classical.byContradiction
          intro hn
          exact a1 x rfl e ⟨b1.1, b1.2.1, hn⟩
        refine inv_run hC hx' ⟨hi.sub.trans (List.sublist_append_left _ _), ?_, ?_, ?_, ?_⟩ a2 b3
        · intro f hf
          rcases List.mem_append.1 hf with hf | hf
          · exact hi.of f hf
          · rw [List.mem_singleton.1 hf]; exact he
        · intro f hf
          rcases List.mem_append.1 hf with hf | hf
          · exact hi.cont f hf
          · rw [List.mem_singleton.1 hf]; exact hk
        · intro f hf
          rcases List.mem_append.1 hf with hf | hf
          · exact known_keep (hi.fresh f hf) (hC _ _ (hi.of f hf) he)
          · rw [List.mem_singleton.1 hf]; exact known_self _ _
        · intro f hf
          rcases List.mem_append.1 hf with hf | hf
          · exact hi.extra f hf
          · rw [List.mem_singleton.1 hf]
            obtain ⟨z, hz, hs⟩ := known_mem hk
            rcases List.mem_append.1 hz with hz | hz
            · exact .inr ⟨z, hz, hs⟩
            · have hzF := hi.sub.subset hz
              exact absurd (known_same (hi.fresh z hzF) (hC _ _ he (hi.of z hzF)) hs.1 hs.2.1 hs.2.2) b1.2.2
    | @write _ x e _ _ a1 a2 a3 =>
      have he : C e := hx x List.mem_cons_self a1.1 e a1.2.1
      rw [List.append_assoc] at a3
      cases h2 with
      | skip b1 b2 =>
        exfalso
        have hk : Known F e := by
          apply Classical.byContradiction
          intro hn
          exact b1 x rfl e ⟨a1.1, a1.2.1, hn⟩
        obtain ⟨z, hz, hs⟩ := known_mem hk
        exact a1.2.2 (known_same (hi.cont z hz) (hC _ _ he (hi.of z hz)) hs.1 hs.2.1 hs.2.2)
      | @write _ _ e' _ _ b1 b2 b3 =>
        obtain rfl := shows_unique a1.2.1 b1.2.1
        refine inv_run hC hx' ⟨hi.sub.append (.refl _), ?_, ?_, ?_, ?_⟩ a3 b3
        · intro f hf
          rcases List.mem_append.1 hf with hf | hf
          · exact hi.of f hf
          · rw [List.mem_singleton.1 hf]; exact he
        · intro f hf
          rw [← List.append_assoc]
          rcases List.mem_append.1 hf with hf | hf
          · exact known_keep (hi.cont f hf) (hC _ _ (hi.of f hf) he)
          · rw [List.mem_singleton.1 hf]; exact known_self _ _
        · intro f hf
          rcases List.mem_append.1 hf with hf | hf
          · exact known_keep (hi.fresh f hf) (hC _ _ (hi.of f hf) he)
          · rw [List.mem_singleton.1 hf]; exact known_self _ _
        · intro f hf
          rcases List.mem_append.1 hf with hf | hf
          · exact (hi.extra f hf).imp (List.mem_append_left _) id
          · exact .inl (List.mem_append_right _ hf)

theorem wrote_split {D : List EitSection → Section → EitSection → Prop} : ∀ {as bs : List SectionEvent} {l l' : List EitSection},
    Wrote D l (as ++ bs) l' → ∃ l1, Wrote D l as l1 ∧ Wrote D l1 bs l'
  | [], _, l, _, h => ⟨l, .nil _, h⟩
  | a :: as, bs, l, l', h => by
    cases h with
    | skip h1 h2 => obtain ⟨l1, k1, k2⟩ := wrote_split h2; exact ⟨l1, .skip h1 k1, k2⟩
    | write h1 h2 h3 => obtain ⟨l1, k1, k2⟩ := wrote_split h3; exact ⟨l1, .write h1 h2 k1, k2⟩

theorem wrote_mem {o : Opt} {evs : List SectionEvent} {l l' : List EitSection} (h : Wrote (Due o) l evs l') :
    ∀ z ∈ l', z ∈ l ∨ ∃ x, .sect x ∈ evs ∧ Requested o x ∧ Shows z x := by
  induction h with
  | nil => exact fun _ hz => .inl hz
  | skip _ _ ih => exact fun z hz => (ih z hz).imp id fun ⟨x, h1, h2⟩ => ⟨x, List.mem_cons_of_mem _ h1, h2⟩
  | write h1 _ _ ih =>
    intro z hz
    rcases ih z hz with hz | ⟨x, k1, k2⟩
    · rcases List.mem_append.1 hz with hz | hz
      · exact .inl hz
      · rw [List.mem_singleton.1 hz]
        exact .inr ⟨_, List.mem_cons_self, h1.1, h1.2.1⟩
    · exact .inr ⟨x, List.mem_cons_of_mem _ k1, k2⟩

theorem requested_schedule {o : Opt} {x : Section} (h : Requested o x) : Schedule x := by
  obtain ⟨r1, r2, r3, _⟩ := h
  refine ⟨r1, r2, ?_, ?_⟩ <;> rcases r3 with ⟨_, _, _⟩ | ⟨_, _, _⟩ <;> omega

/-- With `--streaming` every packet is handled. -/
theorem streams {o : Opt} (hs : o.streaming = true) : ∀ {is : List SectionInput} {s : St} {items},
    Runs (step o) s is items → items.map (·.input) = is
  | _, s, _, .nil => rfl
  | _, s, _, .stop h => by
    exfalso
    unfold step at h
    obtain ⟨⟨s1, l⟩, _, h⟩ := bind_eq_ok h
    simp [isCompleted, checkTimeout, hs] at h
  | _, s, _, .go h r => by
    rw [List.map_cons, streams hs r]

theorem all_handled {o : Opt} (hs : o.streaming = true) {is : List SectionInput} {c : Nat} {y : Hist}
    (h : Collected o is c y) : Wrote (Due o) [] (is.flatMap (delivered [0x12, 0x14])) ((calls y.items).filterMap (·.out)) := by
  have w := reach_wrote (Collected.reach h).1
  rw [sections_of_calls] at w
  obtain ⟨h0, hi, hr⟩ := h
  have h00 : h0 = { st := {} } := by
    unfold init at hi
    obtain ⟨_, _, h2⟩ := bind_eq_ok hi
    cases h2; rfl
  subst h00
  have r := Runs.ran (step := step o) (finish := .ok) (exitCode := fun _ => exitSuccess) hr
  rw [← streams hs r]
  rw [List.flatMap_map]
  exact w

theorem handover {o : Opt} (hs : o.streaming = true) {as bs : List SectionInput} {c c1 c2 : Nat} {y y1 y2 : Hist}
    (h : Collected o (as ++ bs) c y) (h1 : Collected o as c1 y1) (h2 : Collected o bs c2 y2)
    (hu : Unchanging fun x => .sect x ∈ bs.flatMap (delivered [0x12, 0x14])) :
    ∃ m, (calls y.items).filterMap (·.out) = (calls y1.items).filterMap (·.out) ++ m ∧
      m.Sublist ((calls y2.items).filterMap (·.out)) ∧
      ∀ x ∈ (calls y2.items).filterMap (·.out), x ∈ m ∨ ∃ z ∈ (calls y1.items).filterMap (·.out), Same z x ∧
        ((Unchanging fun x => .sect x ∈ (as ++ bs).flatMap (delivered [0x12, 0x14])) → z.version = x.version) := by
  have w := all_handled hs h
  have w1 := all_handled hs h1
  have w2 := all_handled hs h2
  rw [List.flatMap_append] at w
  obtain ⟨l1, k1, k2⟩ := wrote_split w
  obtain rfl := wrote_unique (Due := Due o) (fun _ _ _ _ h h' => due_unique (o := o) h h') w1 k1
  rw [← List.append_nil (List.filterMap _ (calls y1.items))] at k2
  obtain ⟨m, e1, hi⟩ := inv_run (C := fun e => ∃ x, .sect x ∈ bs.flatMap (delivered [0x12, 0x14]) ∧ Schedule x ∧ Shows e x)
    (fun e d ⟨x, x1, x2, x3⟩ ⟨y, y1, y2, y3⟩ => hu x y x1 y1 x2 y2 e d x3 y3)
    (fun x hx hq e he => ⟨x, hx, requested_schedule hq, he⟩)
    ⟨.refl _, by simp, by simp, by simp, by simp⟩ k2 w2
  refine ⟨m, e1, hi.sub, fun f hf => (hi.extra f hf).imp id fun ⟨z, hz, hs⟩ => ⟨z, hz, hs, fun hall => ?_⟩⟩
  obtain ⟨x, x1, x2, x3⟩ := hi.of f hf
  rcases wrote_mem w1 z hz with hz | ⟨x', k1, k2, k3⟩
  · cases hz
  · refine (hall x' x ?_ ?_ (requested_schedule k2) x2 z f k3 x3 hs.1).2 hs.2.1 |>.1
    · rw [List.flatMap_append]; exact List.mem_append_left _ k1
    · rw [List.flatMap_append]; exact List.mem_append_right _ x1

end Mirakc.EitsHandover
