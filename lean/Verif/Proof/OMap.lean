import Verif.Proof.Table
/-
Lemmas on maps that are written to, and on lists without repetition.
-/
namespace Mirakc
set_option linter.unusedSimpArgs false

theorem subset_of_length {α : Type} [BEq α] [LawfulBEq α] : ∀ {L M : List α}, L.Nodup → L ⊆ M →
    L.length ≤ M.length ∧ (M.length ≤ L.length → M ⊆ L) := by
  intro L
  induction L with
  | nil =>
    intro M _ _
    refine ⟨Nat.zero_le _, fun h => ?_⟩
    rw [List.eq_nil_of_length_eq_zero (Nat.le_zero.1 h)]
    exact List.Subset.refl _
  | cons a L ih =>
    intro M hn hs
    obtain ⟨h1, h2⟩ := List.nodup_cons.1 hn
    have ha : a ∈ M := hs (by simp)
    have hsub : L ⊆ M.erase a := by
      intro x hx
      have hne : x ≠ a := fun e => h1 (e ▸ hx)
      exact (List.mem_erase_of_ne hne).2 (hs (by simp [hx]))
    have hlen := List.length_erase_of_mem ha
    have hpos : 0 < M.length := List.length_pos_of_mem ha
    obtain ⟨k1, k2⟩ := ih h2 hsub
    refine ⟨by simp only [List.length_cons]; omega, fun h => ?_⟩
    simp only [List.length_cons] at h
    have := k2 (by omega)
    intro x hx
    by_cases hxa : x = a
    · simp [hxa]
    · exact List.mem_cons_of_mem _ (this ((List.mem_erase_of_ne hxa).2 hx))

/-- Lists without repetition, one within the other, have the same length exactly if they
have the same elements. -/
theorem length_eq_iff {α : Type} [BEq α] [LawfulBEq α] {L M : List α} (h1 : L.Nodup) (h2 : M.Nodup)
    (h : L ⊆ M) : L.length = M.length ↔ M ⊆ L := by
  obtain ⟨k1, k2⟩ := subset_of_length h1 h
  exact ⟨fun e => k2 (by omega), fun e => by
    have := (subset_of_length h2 e).1
    omega⟩

namespace OMap

theorem lookup_insertAt {α} (l : List (Nat × α)) (k k' : Nat) (v : α) :
    (insertAt k v l).lookup k' = if k' = k then some v else l.lookup k' := by
  induction l with
  | nil =>
    unfold insertAt
    rw [List.lookup_cons]
    by_cases h : k' = k
    · simp [h]
    · rw [show (k' == k) = false by simpa using h, if_neg h]
  | cons x l ih =>
    obtain ⟨k1, v1⟩ := x
    unfold insertAt
    split
    · rw [List.lookup_cons]
      by_cases h : k' = k
      · simp [h]
      · rw [show (k' == k) = false by simpa using h, if_neg h]
    · split
      · next h1 h2 =>
        subst h2
        rw [List.lookup_cons, List.lookup_cons]
        by_cases h : k' = k
        · simp [h]
        · rw [show (k' == k) = false by simpa using h, if_neg h]
      · next h1 h2 =>
        rw [List.lookup_cons, List.lookup_cons, ih]
        by_cases h : k' = k1
        · have hne : k' ≠ k := fun e => h2 (e ▸ h)
          simp [h, show k1 ≠ k from fun e => h2 e.symm]
        · rw [show (k' == k1) = false by simpa using h]

theorem find?_set {α} (m : OMap α) (k k' : Nat) (v : α) :
    (m.set k v).find? k' = if k' = k then some v else m.find? k' := lookup_insertAt _ _ _ _

theorem find?_empty {α} (k : Nat) : (OMap.empty : OMap α).find? k = none := rfl

theorem keys_nodup {α} (m : OMap α) : m.keys.Nodup := by
  unfold keys
  refine List.pairwise_map.2 (m.sorted.imp ?_)
  intro a b h; exact Nat.ne_of_lt h

theorem mem_keys {α} (m : OMap α) (k : Nat) : k ∈ m.keys ↔ ∃ v, m.find? k = some v := by
  unfold keys
  rw [List.mem_map]
  constructor
  · rintro ⟨⟨k', v⟩, h, rfl⟩; exact ⟨v, (m.find?_iff _ _).2 h⟩
  · rintro ⟨v, h⟩; exact ⟨(k, v), (m.find?_iff _ _).1 h, rfl⟩

theorem size_eq {α} (m : OMap α) : m.size = m.keys.length := by simp [size, keys]

theorem find?_filter {α} (m : OMap α) (p : Nat × α → Bool) (k : Nat) (v : α) :
    (m.filter p).find? k = some v ↔ m.find? k = some v ∧ p (k, v) = true := by
  rw [find?_iff, find?_iff]
  simp [filter, List.mem_filter]

theorem entries_nil_iff {α} (m : OMap α) : m.entries = [] ↔ ∀ k, m.find? k = none := by
  constructor
  · intro h k; rw [find?_none]; simp [h]
  · intro h
    cases he : m.entries with
    | nil => rfl
    | cons x l =>
      obtain ⟨k, v⟩ := x
      have := (m.find?_iff k v).2 (by simp [he])
      rw [h k] at this; cases this

end OMap
end Mirakc
