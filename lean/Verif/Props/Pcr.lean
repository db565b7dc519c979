import Verif.Proof.Pcr
import Verif.Proof.Basic
/-
Properties C14, C15, C18 and C19: PCR arithmetic and time conversions.
-/
namespace Mirakc.Props
open Mirakc.Spec

/-- **C14, full statement.**  If `lhs` is the PCR reached from `rhs` after a true
distance of `d` ticks, less than half a wrap period, the comparison has the sign
of `d`. -/
def C14_claim : Prop :=
  ∀ rhs d : Int, 0 ≤ rhs → rhs < 2 ^ 33 * 300 → 2 * d.natAbs < 2 ^ 33 * 300 →
    ∃ r, comparePcr ((rhs + d) % (2 ^ 33 * 300)) rhs = .ok r ∧ r.sign = d.sign

/-- **C14** is false: a PCR 20 ticks later, just after the wrap-around, compares
as earlier. -/
theorem C14_claim_false : ¬ C14_claim := by
  intro h
  obtain ⟨r, h1, h2⟩ := h (2 ^ 33 * 300 - 10) 20 (by decide) (by decide) (by decide)
  have : comparePcr ((2 ^ 33 * 300 - 10 + 20) % (2 ^ 33 * 300)) (2 ^ 33 * 300 - 10) =
      .ok (20 - 2 ^ 33 * 300) := by decide
  rw [this] at h1
  cases h1
  revert h2
  decide

/-- **C14, what holds.**  The comparison returns the true distance, except
exactly when `lhs` lies ahead of `rhs` across the wrap-around (then it returns
the distance minus one wrap period, which is negative).  Missing from the full
statement: that case. -/
theorem C14_compare_pcr_partial (rhs d : Int) (h0 : 0 ≤ rhs) (h1 : rhs < 2 ^ 33 * 300)
    (hd : 2 * d.natAbs < 2 ^ 33 * 300) :
    comparePcr ((rhs + d) % (2 ^ 33 * 300)) rhs =
      .ok (if rhs + d < 2 ^ 33 * 300 then d else d - 2 ^ 33 * 300) := by
  have e : (2 : Int) ^ 33 * 300 = 2576980377600 := by decide
  have e' : 2 ^ 33 * 300 = 2576980377600 := by decide
  rw [e] at h1 ⊢
  rw [e'] at hd
  have v1 : isValidPcr ((rhs + d) % 2576980377600) = true := by
    rw [isValidPcr_iff]; omega
  have v2 : isValidPcr rhs = true := by rw [isValidPcr_iff]; omega
  simp only [comparePcr, v1, v2, assert_true, ok_bind, upper_val]
  split <;> split <;> congr 1 <;> omega

/-- Non-trivial case for C14: a PCR 20 ticks *before* the other, across the wrap. -/
example : comparePcr ((10 + (-20)) % (2 ^ 33 * 300)) 10 = .ok (-20) :=
  C14_compare_pcr_partial 10 (-20) (by decide) (by decide) (by decide)

/-- **C15**  The PCR for a time relative to a baseline is a valid PCR congruent
to baseline + 27000 per millisecond, for times before and after the baseline, exactly if
the computation can be done with 64 bits; otherwise it overflows.  The computation ends (it is a
total function) and no assertion fails. -/
theorem C15_time_to_pcr (b : ClockBaseline) (hr : b.isReady = true) (t : Int) :
    (Convertible b.time b.pcr t → ∃ r, b.timeToPcr t = .ok r ∧ 0 ≤ r ∧ r < 2 ^ 33 * 300 ∧
      r % (2 ^ 33 * 300) = (b.pcr + 27000 * (t - b.time)) % (2 ^ 33 * 300)) ∧
    (¬ Convertible b.time b.pcr t → b.timeToPcr t = .error .overflow) := by
  constructor
  · intro hc
    have h := liftNegative_spec (b.pcr + (t - b.time) * 27000)
    have e0 : decide (liftNegative (b.pcr + (t - b.time) * 27000) ≥ 0) = true := by
      simpa using h.1
    refine ⟨(liftNegative (b.pcr + (t - b.time) * 27000)).tmod pcrUpperBound, ?_, ?_⟩
    · simp only [ClockBaseline.timeToPcr, hr, assert_true, ok_bind, ticks_val, int64_fits hc.1, int64_fits hc.2, e0]
    · rw [tmod_nonneg_eq _ _ h.1, upper_val]
      omega
  · intro hn
    simp only [ClockBaseline.timeToPcr, hr, assert_true, ok_bind, ticks_val]
    by_cases h1 : Fits64 ((t - b.time) * 27000)
    · rw [int64_fits h1]
      simp only [ok_bind]
      rw [int64_unfit (fun h2 => hn ⟨h1, h2⟩)]
      rfl
    · rw [int64_unfit h1]
      rfl

/-- **C15**: that is the case for times within 3·10¹⁴ ms (about 9500 years). -/
theorem C15_within (p0 t0 t : Int) (hv : 0 ≤ p0 ∧ p0 < 2 ^ 33 * 300) (h : (t - t0).natAbs ≤ 3 * 10 ^ 14) :
    Convertible t0 p0 t := by
  unfold Convertible Fits64
  omega

/-- Non-trivial case for C15: one second before a baseline PCR of zero. -/
example : (ClockBaseline.mk 5000 0 0x100 true true).timeToPcr 4000 =
    .ok (2 ^ 33 * 300 - 27000000) := by
  obtain ⟨r, h1, h2, h3, h4⟩ :=
    (C15_time_to_pcr (ClockBaseline.mk 5000 0 0x100 true true) rfl 4000).1
      (C15_within _ _ _ (by decide) (by decide))
  rw [h1]
  congr 1
  simp only at h4
  omega

/-- **C18**  The conversions are inverse to each other, shift by nine hours
(32 400 000 ms) and preserve order and differences. -/
theorem C18_unix_jst :
    (∀ t, jstToUnix (unixToJst t) = t) ∧ (∀ t, unixToJst (jstToUnix t) = t) ∧
    (∀ t, unixToJst t = t + 9 * 60 * 60 * 1000) ∧
    (∀ a b, unixToJst a < unixToJst b ↔ a < b) ∧
    (∀ a b, unixToJst a - unixToJst b = a - b) := by
  simp only [jstToUnix, unixToJst, jstTzOffset]
  refine ⟨?_, ?_, ?_, ?_, ?_⟩ <;> intros <;> omega

/-- Non-trivial case for C18: 1970-01-01 00:00 UTC is 09:00 JST. -/
example : unixToJst 0 = 32400000 ∧ jstToUnix (unixToJst 1700000000123) = 1700000000123 := by
  decide

/-- **C19**  The text of a valid PCR is ten digits, `+`, three digits, and the
lexicographic order of texts is the numeric order of PCRs (so distinct PCRs have
distinct texts). -/
theorem C19_format_pcr :
    (∀ p : Int, 0 ≤ p → p < 2 ^ 33 * 300 → ∃ s, formatPcr p = .ok s ∧ s.toList.length = 14 ∧
      s.toList[10]? = some '+' ∧
      ∀ i c, i ≠ 10 → s.toList[i]? = some c → c.isDigit = true) ∧
    (∀ (p q : Int) (s t : String), formatPcr p = .ok s → formatPcr q = .ok t →
      (s.toList < t.toList ↔ p < q) ∧ (s = t → p = q)) := by
  have e : (2 : Int) ^ 33 * 300 = 2576980377600 := by decide
  rw [e]
  constructor
  · intro p h0 h1
    refine ⟨_, formatPcr_eq p ((isValidPcr_iff p).2 ⟨h0, h1⟩), ?_, ?_, ?_⟩
    · simp [fixedDigits_length]
    · simp [fixedDigits_length, List.getElem?_append]
    · intro i c hi hc
      simp only [String.toList_ofList, List.getElem?_append, fixedDigits_length,
        List.length_append, List.length_singleton] at hc
      split at hc
      · split at hc
        · exact fixedDigits_isDigit _ _ _ (List.mem_of_getElem? hc)
        · rw [List.getElem?_singleton] at hc
          split at hc
          · omega
          · cases hc
      · exact fixedDigits_isDigit _ _ _ (List.mem_of_getElem? hc)
  · intro p q s t hs ht
    have val : ∀ (p : Int) s, formatPcr p = .ok s → isValidPcr p = true := by
      intro p s h
      simp only [formatPcr] at h
      obtain ⟨_, h1, _⟩ := bind_eq_ok h
      exact assert_ok h1
    have vp := val p s hs
    have vq := val q t ht
    rw [formatPcr_eq p vp] at hs
    rw [formatPcr_eq q vq] at ht
    rw [isValidPcr_iff] at vp vq
    cases hs; cases ht
    have key : (fixedDigits 10 (p.toNat / 300) ++ ['+'] ++ fixedDigits 3 (p.toNat % 300) <
        fixedDigits 10 (q.toNat / 300) ++ ['+'] ++ fixedDigits 3 (q.toNat % 300)) ↔ p < q := by
      rw [lex_append_iff (by simp [fixedDigits_length]),
        lex_append_iff (by simp [fixedDigits_length]),
        fixedDigits_lt_iff (by omega) (by omega), fixedDigits_lt_iff (by omega) (by omega)]
      constructor
      · rintro ((h | ⟨_, h⟩) | ⟨h, h'⟩)
        · omega
        · exact absurd h (by decide)
        · have := fixedDigits_inj (w := 10) (by omega) (by omega)
            (List.append_inj_left h (by simp [fixedDigits_length]))
          omega
      · intro h
        by_cases h1 : p.toNat / 300 < q.toNat / 300
        · exact .inl (.inl h1)
        · have : p.toNat / 300 = q.toNat / 300 := by omega
          exact .inr ⟨by rw [this], by omega⟩
    refine ⟨by simpa using key, ?_⟩
    intro h
    have h' := congrArg String.toList h
    simp only [String.toList_ofList] at h'
    have h1 := List.append_inj h' (by simp [fixedDigits_length])
    have h2 := fixedDigits_inj (w := 10) (by omega) (by omega)
      (List.append_inj_left h1.1 (by simp [fixedDigits_length]))
    have h3 := fixedDigits_inj (w := 3) (by omega) (by omega) h1.2
    omega

/-- Non-trivial case for C19. -/
example : formatPcr 2576980377599 = .ok "8589934591+299" ∧
    formatPcr 301 = .ok "0000000001+001" := by decide +kernel

end Mirakc.Props
