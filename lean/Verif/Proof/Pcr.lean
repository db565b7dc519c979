import Verif.Model.Clock
import Verif.Proof.Basic
/-
Helper lemmas for the PCR arithmetic.
-/
namespace Mirakc

theorem upper_val : pcrUpperBound = 2576980377600 := by decide
theorem maxPcr_val : maxPcr = 2576980377599 := by decide
theorem ticks_val : pcrTicksPerMs = 27000 := by decide
theorem sec_val : pcrTicksPerSec = 27000000 := by decide

theorem isValidPcr_iff (p : Int) : isValidPcr p = true ↔ 0 ≤ p ∧ p < 2576980377600 := by
  simp [isValidPcr, maxPcr_val]; omega

theorem liftNegative_spec (p : Int) :
    0 ≤ liftNegative p ∧ liftNegative p % 2576980377600 = p % 2576980377600 ∧
    (0 ≤ p → liftNegative p = p) ∧ (p < 0 → liftNegative p < 2576980377600) := by
  fun_induction liftNegative p with
  | case1 p h ih =>
    rw [upper_val] at ih ⊢
    refine ⟨ih.1, ?_, by omega, ?_⟩
    · rw [ih.2.1]; omega
    · intro _
      by_cases h' : p + 2576980377600 < 0
      · exact ih.2.2.2 h'
      · rw [ih.2.2.1 (by omega)]; omega
  | case2 p h => exact ⟨by omega, rfl, fun _ => rfl, by omega⟩

theorem tmod_nonneg_eq (a b : Int) (h : 0 ≤ a) : a.tmod b = a % b := Int.tmod_eq_emod_of_nonneg h

/-- Decimal digits of `n`, exactly `w` of them. -/
def fixedDigits : Nat → Nat → List Char
  | 0, _ => []
  | w + 1, n => fixedDigits w (n / 10) ++ [(n % 10).digitChar]

theorem fixedDigits_length (w n : Nat) : (fixedDigits w n).length = w := by
  induction w generalizing n with
  | zero => rfl
  | succ w ih => simp [fixedDigits, ih]

theorem fixedDigits_isDigit (w n : Nat) : ∀ c ∈ fixedDigits w n, c.isDigit := by
  induction w generalizing n with
  | zero => simp [fixedDigits]
  | succ w ih =>
    intro c hc
    simp only [fixedDigits, List.mem_append, List.mem_singleton] at hc
    rcases hc with hc | hc
    · exact ih _ _ hc
    · subst hc
      rw [Nat.isDigit_digitChar]
      simp; omega

theorem fixedDigits_zero (w : Nat) : fixedDigits w 0 = List.replicate w '0' := by
  induction w with
  | zero => rfl
  | succ w ih =>
    rw [fixedDigits, ih, List.replicate_succ']
    rfl

theorem fmtPadded_eq (w n : Nat) (hw : 0 < w) (h : n < 10 ^ w) : fmtPadded w n = fixedDigits w n := by
  unfold fmtPadded
  induction w generalizing n with
  | zero => omega
  | succ w ih =>
    rw [fixedDigits, List.leftpad]
    by_cases hn : n < 10
    · rw [Nat.toDigits_of_lt_base hn]
      have : n / 10 = 0 := by omega
      rw [this, fixedDigits_zero, Nat.mod_eq_of_lt hn]
      rfl
    · have hw' : 0 < w := by
        cases w with
        | zero => simp at h; omega
        | succ w => omega
      have h' : n / 10 < 10 ^ w := by rw [Nat.pow_succ] at h; omega
      rw [Nat.toDigits_of_base_le (by omega) (by omega), ← ih _ hw' h', List.leftpad,
        List.length_append, List.length_singleton, ← List.append_assoc]
      congr 3
      omega

theorem lex_append_iff {l1 l2 m1 m2 : List Char} (h : l1.length = l2.length) :
    (l1 ++ m1 < l2 ++ m2) ↔ (l1 < l2 ∨ (l1 = l2 ∧ m1 < m2)) := by
  induction l1 generalizing l2 with
  | nil => cases l2 with
    | nil => simp
    | cons => simp at h
  | cons a l1 ih =>
    cases l2 with
    | nil => simp at h
    | cons b l2 =>
      simp only [List.length_cons, Nat.add_right_cancel_iff] at h
      simp only [List.cons_append, List.cons_lt_cons_iff, List.cons.injEq, ih h]
      constructor
      · rintro (h | ⟨h1, h2 | ⟨h2, h3⟩⟩)
        · exact .inl (.inl h)
        · exact .inl (.inr ⟨h1, h2⟩)
        · exact .inr ⟨⟨h1, h2⟩, h3⟩
      · rintro ((h | ⟨h1, h2⟩) | ⟨⟨h1, h2⟩, h3⟩)
        · exact .inl h
        · exact .inr ⟨h1, .inl h2⟩
        · exact .inr ⟨h1, .inr ⟨h2, h3⟩⟩

theorem digitChar_lt_iff {a b : Nat} (ha : a < 10) (hb : b < 10) :
    a.digitChar < b.digitChar ↔ a < b := by
  rw [Char.lt_def, UInt32.lt_iff_toNat_lt]
  have h1 := Nat.toNat_digitChar_of_lt_ten ha
  have h2 := Nat.toNat_digitChar_of_lt_ten hb
  simp only [Char.toNat] at h1 h2
  omega

theorem fixedDigits_inj {w m n : Nat} (hm : m < 10 ^ w) (hn : n < 10 ^ w)
    (h : fixedDigits w m = fixedDigits w n) : m = n := by
  induction w generalizing m n with
  | zero => simp at hm hn; omega
  | succ w ih =>
    rw [Nat.pow_succ] at hm hn
    have := List.append_inj h (by simp [fixedDigits_length])
    have h1 := ih (by omega) (by omega) this.1
    have h2 : (m % 10).digitChar = (n % 10).digitChar := by simpa using this.2
    have h3 := congrArg Char.toNat h2
    rw [Nat.toNat_digitChar_of_lt_ten (by omega), Nat.toNat_digitChar_of_lt_ten (by omega)] at h3
    omega

theorem fixedDigits_lt_iff {w m n : Nat} (hm : m < 10 ^ w) (hn : n < 10 ^ w) :
    fixedDigits w m < fixedDigits w n ↔ m < n := by
  induction w generalizing m n with
  | zero => simp at hm hn; subst hm; subst hn; simp [fixedDigits]
  | succ w ih =>
    rw [Nat.pow_succ] at hm hn
    rw [fixedDigits, fixedDigits, lex_append_iff (by simp [fixedDigits_length]),
      ih (by omega) (by omega)]
    simp only [List.cons_lt_cons_iff, List.not_lt_nil, and_false, or_false,
      digitChar_lt_iff (Nat.mod_lt m (by omega)) (Nat.mod_lt n (by omega))]
    constructor
    · rintro (h | ⟨h1, h2⟩)
      · omega
      · have := fixedDigits_inj (w := w) (by omega) (by omega) h1
        omega
    · intro h
      by_cases h1 : m / 10 < n / 10
      · exact .inl h1
      · have : m / 10 = n / 10 := by omega
        exact .inr ⟨by rw [this], by omega⟩

theorem formatPcr_eq (p : Int) (h : isValidPcr p = true) :
    formatPcr p = .ok (String.ofList
      (fixedDigits 10 (p.toNat / 300) ++ ['+'] ++ fixedDigits 3 (p.toNat % 300))) := by
  have h' := (isValidPcr_iff p).1 h
  have e1 : (p.tdiv maxPcrExt).toNat = p.toNat / 300 := by
    rw [Int.tdiv_eq_ediv_of_nonneg h'.1]; simp [maxPcrExt]; omega
  have e2 : (p.tmod maxPcrExt).toNat = p.toNat % 300 := by
    rw [tmod_nonneg_eq _ _ h'.1]; simp [maxPcrExt]; omega
  simp only [formatPcr, h, assert_true, ok_bind, e1, e2]
  rw [fmtPadded_eq 10 _ (by omega) (by omega), fmtPadded_eq 3 _ (by omega) (by omega)]

end Mirakc
