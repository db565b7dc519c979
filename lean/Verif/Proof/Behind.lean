import Verif.Proof.Again
import Verif.Proof.Joined
import Verif.Proof.EitReporters
/-
For C152: the EITs behind filter-service.
-/
namespace Mirakc.Behind
open Mirakc.Spec Mirakc.Spec.EitReporters Mirakc.Spec.ServiceFilter
open Mirakc.ServiceFilter (Item Out Opt St run init)

/-- The other packets bring no EITs. -/
inductive Thin : List Input → List Input → Prop
  | nil : Thin [] []
  | skip {i is js} : eits [i] = [] → Thin is js → Thin (i :: is) js
  | add {is j js} : eits [j] = [] → Thin is js → Thin is (j :: js)
  | keep {i is js} : Thin is js → Thin (i :: is) (i :: js)

theorem eits_cons (i : Input) (is : List Input) : eits (i :: is) = eits [i] ++ eits is := eits_append [i] is

theorem thin_eits {is js : List Input} (h : Thin is js) : eits js = eits is := by
  induction h with
  | nil => rfl
  | skip e _ ih => rw [eits_cons, e, List.nil_append, ih]
  | add e _ ih => rw [eits_cons, e, List.nil_append, ih]
  | keep _ ih => rw [eits_cons, ih, ← eits_cons]

theorem eits_other {i : Input} (h : i.packet.pid ≠ 0x12) : eits [i] = [] := by
  rw [eits_single, List.filterMap_eq_nil_iff]
  intro t ht
  have : t.sourcePid = i.packet.pid := by simpa using (List.mem_filter.1 ht).2
  unfold eitOf
  split
  · exact absurd this.symm h
  · rfl

theorem eits_none {i : Input} (h : ∀ t ∈ i.tables, t.sourcePid ≠ 0x12) : eits [i] = [] := by
  rw [eits_single, List.filterMap_eq_nil_iff]
  intro t ht
  unfold eitOf
  split
  · next t => exact absurd rfl (h _ (List.mem_filter.1 ht).1)
  · rfl

theorem thin_again {fields : Out → Packet} (hpat : ∀ t n, (fields (.pat t n)).pid = 0) {is : List Input} {items : List Item}
    {ts : List (List Table)} (ha : Again is items ts) :
    (∀ (k : Nat) (i : Input) (it : Item), is[k]? = some i → items[k]? = some it →
      (it.act = .drop → eits [i] = []) ∧ (∀ p, it.act = .send (.orig p) → fields (.orig p) = i.packet) ∧
      ∀ t n, it.act = .send (.pat t n) → eits [i] = []) →
    Thin is (reread fields (sent items) ts) := by
  induction ha with
  | nil => intro _; exact .nil
  | drop e _ ih =>
    intro h
    have h0 := h 0 _ _ rfl rfl
    have ih := ih fun k i it h1 h2 => h (k + 1) i it (by simpa using h1) (by simpa using h2)
    simp only [sent, List.filterMap_cons, sentOf, e] at ih ⊢
    exact .skip (h0.1 e) ih
  | @orig i is it items ts p e _ ih =>
    intro h
    have h0 := h 0 _ _ rfl rfl
    have ih := ih fun k i it h1 h2 => h (k + 1) i it (by simpa using h1) (by simpa using h2)
    simp only [sent, List.filterMap_cons, sentOf, e] at ih ⊢
    have hf := h0.2.1 p e
    simp only [reread, List.zipWith_cons_cons, hf]
    exact .keep ih
  | pat e _ _ _ ih =>
    intro h
    have h0 := h 0 _ _ rfl rfl
    have ih := ih fun k i it h1 h2 => h (k + 1) i it (by simpa using h1) (by simpa using h2)
    simp only [sent, List.filterMap_cons, sentOf, e] at ih ⊢
    simp only [reread, List.zipWith_cons_cons]
    exact .skip (h0.2.2 _ _ e) (.add (eits_other (by rw [hpat]; decide)) ih)

open Classical in
/-- The EITs up to the packet with the first that does not list the event. -/
noncomputable def cut (o : AirtimeTracker.Opt) : List Input → List Eit
  | [] => []
  | i :: is => if ∃ x ∈ eits [i], Gone o x then eits [i] else eits [i] ++ cut o is

theorem thin_cut {o : AirtimeTracker.Opt} {is js : List Input} (h : Thin is js) : cut o js = cut o is := by
  induction h with
  | nil => rfl
  | skip e _ ih => simp [cut, e, ih]
  | add e _ ih => simp [cut, e, ih]
  | keep _ ih => simp only [cut, ih]

theorem cut_eq {o : AirtimeTracker.Opt} : ∀ {is : List Input} {n : Nat}, n ≤ is.length →
    (∀ x ∈ eits (is.take (n - 1)), ¬ Gone o x) →
    ((n = is.length ∧ ∀ x ∈ eits is, ¬ Gone o x) ∨ ∃ x ∈ eits (is.take n), Gone o x) → eits (is.take n) = cut o is
  | [], n, _, _, _ => by simp [cut, eits, Spec.received]
  | i :: is, 0, _, _, h => by
    rcases h with ⟨h, _⟩ | ⟨x, hx, _⟩
    · simp at h
    · simp [eits, Spec.received] at hx
  | i :: is, n + 1, hn, h1, h2 => by
    rw [List.take_succ_cons, eits_cons, cut]
    rw [Nat.add_sub_cancel] at h1
    split
    · next hg =>
      obtain ⟨x, hx, hg⟩ := hg
      cases n with
      | zero => simp [eits, Spec.received]
      | succ n =>
        refine absurd hg (h1 x ?_)
        rw [List.take_succ_cons, eits_cons]
        exact List.mem_append_left _ hx
    · next hg =>
      have hno : ∀ x ∈ eits [i], ¬ Gone o x := fun x hx hgx => hg ⟨x, hx, hgx⟩
      congr 1
      refine cut_eq (by simpa using hn) ?_ ?_
      · intro x hx
        cases n with
        | zero => simp [eits, Spec.received] at hx
        | succ n =>
          refine h1 x ?_
          rw [List.take_succ_cons, eits_cons]
          exact List.mem_append_right _ (by simpa using hx)
      · rcases h2 with ⟨e, h2⟩ | ⟨x, hx, hgx⟩
        · refine .inl ⟨by simpa using e, fun x hx => h2 x ?_⟩
          rw [eits_cons]; exact List.mem_append_right _ hx
        · rw [List.take_succ_cons, eits_cons] at hx
          rcases List.mem_append.1 hx with hx | hx
          · exact absurd hgx (hno x hx)
          · exact .inr ⟨x, hx, hgx⟩

/-- What comes out of filter-service brings the same EITs, if none come before the first PAT. -/
theorem thin_out {o : Opt} {is : List Input} {s : St} {items : List Item} {ts : List (List Table)}
    {fields : Out → Packet} (hpat : ∀ t n, (fields (.pat t n)).pid = 0) (hf : ∀ i ∈ is, fields (.orig i.packet) = i.packet)
    (h : run o (init o) is = .ok (s, items)) (ha : Again is items ts) (hn : ∀ it ∈ items, it.act ≠ .stop)
    (hp : ∀ k i, is[k]? = some i → i.packet.pid = 0x12 → (∃ t ∈ i.tables, t.sourcePid = 0x12) →
      ∃ t ∈ Spec.ServiceFilter.received (items.take k), usablePat t ≠ none) :
    Thin is (reread fields (sent items) ts) := by
  refine thin_again hpat ha fun k i it h1 h2 => ?_
  obtain ⟨a, b⟩ := Joined.acts h h2 h1 (hn it (List.mem_of_getElem? h2))
  refine ⟨fun e => ?_, fun p e => ?_, fun t n e => ?_⟩
  · by_cases hq : i.packet.pid = 0x12
    · refine eits_none fun t ht hs => ?_
      obtain ⟨u, hu, hv⟩ := hp k i h1 hq ⟨t, ht, hs⟩
      cases hw : usablePat u with
      | none => exact hv hw
      | some pat =>
        obtain ⟨q, hq'⟩ := Joined.latest_some (f := usablePat) (List.mem_append_left it.handled hu) hw
        exact a.2 (.inl ⟨q, hq', .inl (by rw [hq]; decide)⟩) e
    · exact eits_other hq
  · rcases b with b | ⟨b, _⟩ | ⟨_, _, b, _⟩
    · rw [b] at e; cases e
    · rw [b] at e; cases e
      exact hf i (List.mem_of_getElem? h1)
    · rw [b] at e; cases e
  · rcases b with b | ⟨b, _⟩ | ⟨_, _, _, b, _⟩
    · rw [b] at e; cases e
    · rw [b] at e; cases e
    · exact eits_other (by rw [b]; decide)

end Mirakc.Behind
