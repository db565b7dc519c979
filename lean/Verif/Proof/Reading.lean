import Verif.Spec.Reading
import Verif.Proof.Clock
/-
Lemmas: what the stream clock shows after any calls.
-/
set_option linter.unusedSimpArgs false
namespace Mirakc.Clock
open Mirakc.Spec

/-- A clock and what matters of its calls. -/
structure Views (c : Clock) (v : View) : Prop where
  some : ∀ x, v.last = .some x → c.ready = true ∧ c.lastPcr = x ∧ c.baseline.pcrReady = true ∧
    0 ≤ x ∧ x < 2576980377600
  none : v.last = .none → c.ready = false ∧ c.baseline.pcrReady = false
  time : c.baseline.timeReady = v.time
  jumps : c.gapCount = v.jumps % 256
  tot : (c.baseline.time, c.localTime) = v.tot
  ticks : ∀ x, v.last = .some x → v.time = true →
    c.baseline.pcr + v.ticks = x + v.wraps * 2576980377600 ∧ (c.wrapped = true ↔ 0 < v.wraps) ∧
    0 ≤ c.baseline.pcr ∧ c.baseline.pcr < 2576980377600 ∧ 0 ≤ v.ticks

theorem Views.init : Views {} {} :=
  ⟨fun _ h => (by cases h), fun _ => ⟨rfl, rfl⟩, rfl, rfl, rfl, fun _ h => (by cases h)⟩

theorem Views.isReady {c : Clock} {v : View} (h : Views c v) : c.isReady = (v.last.isSome && v.time) := by
  cases hl : v.last with
  | none => simp [Clock.isReady, (h.none hl).1]
  | some x =>
    obtain ⟨h1, _, h3, _⟩ := h.some x hl
    simp [Clock.isReady, ClockBaseline.isReady, h1, h3, h.time]

private theorem valid {p : Int} (h1 : 0 ≤ p) (h2 : p < 2576980377600) : isValidPcr p = true := by
  unfold isValidPcr maxPcr maxPcrExt; simp; omega

/-- Accepting a PCR while the base is not ready. -/
private theorem accept_unready {c : Clock} (hb : c.baseline.isReady = false) {p : Int} (h1 : 0 ≤ p)
    (h2 : p < 2576980377600) :
    acceptPcr c p = .ok { c with baseline := { c.baseline with pcr := p, pcrReady := true }
                                 lastPcr := p, ready := true, wrapped := false } := by
  unfold acceptPcr
  by_cases k : p < c.lastPcr <;> simp [k, hb, syncPcr, ClockBaseline.setPcr, valid h1 h2, assertThat]

theorem Views.step {c : Clock} {v : View} (h : Views c v) (o : Op)
    (hv : ∀ p, o = .pcr p → 0 ≤ p ∧ p < 2576980377600) :
    ∃ c', c.step o = .ok c' ∧ Views c' (v.step o) := by
  cases o with
  | setPid pid =>
    exact ⟨_, rfl, by simp [View.step], by simp [View.step, setPid, ClockBaseline.setPid], rfl, h.jumps, h.tot, by simp [View.step]⟩
  | time t l =>
    cases hl : v.last with
    | none =>
      have := h.none hl
      refine ⟨{ c with baseline := c.baseline.setTime t, localTime := l }, ?_, ?_, ?_, rfl, h.jumps, rfl, ?_⟩
      · simp [Clock.step, updateTime, this.1]
      · simp [View.step, hl]
      · intro _; exact this
      · simp [View.step, hl]
    | some x =>
      obtain ⟨h1, h2, h3, h4, h5⟩ := h.some x hl
      refine ⟨{ c with baseline := { c.baseline.setTime t with pcr := x, pcrReady := true }, localTime := l,
                       wrapped := false }, ?_, ?_, ?_, rfl, h.jumps, rfl, ?_⟩
      · simp [Clock.step, updateTime, h1, syncPcr, ClockBaseline.setPcr, h2, valid h4 h5, assertThat]
      · intro y hy
        simp only [View.step, hl] at hy
        cases hy
        exact ⟨h1, h2, rfl, h4, h5⟩
      · simp [View.step, hl]
      · intro y hy _
        simp only [View.step, hl] at hy
        cases hy
        refine ⟨?_, ?_, h4, h5, Int.le_refl _⟩
        · show x + 0 = x + ((0 : Nat) : Int) * 2576980377600; omega
        · simp [View.step]
  | pcr p =>
    obtain ⟨v1, v2⟩ := hv p rfl
    have hr := h.isReady
    by_cases hR : c.isReady = true
    · obtain ⟨x, hx⟩ : ∃ x, v.last = .some x := by
        rw [hR] at hr
        cases hl : v.last with
        | none => simp [hl] at hr
        | some x => exact ⟨x, rfl⟩
      have ht : v.time = true := by rw [hR, hx] at hr; simpa using hr.symm
      obtain ⟨h1, h2, h3, h4, h5⟩ := h.some x hx
      obtain ⟨k1, k2, k3, k4, k5⟩ := h.ticks x hx ht
      have gap : computeDelta p c.lastPcr = (p - x) % 2576980377600 := by
        unfold computeDelta pcrUpperBound maxPcr maxPcrExt; rw [h2]; split <;> omega
      have hB : c.baseline.isReady = true := by
        simp only [Clock.isReady, Bool.and_eq_true] at hR; exact hR.2
      simp only [Clock.step, updatePcr, valid v1 v2, hR, if_true, gap, View.step, hx, ht, two_pow, pcrTicksPerSec]
      have g0 : decide ((p - x) % 2576980377600 ≥ 0) = true := by simp; omega
      simp only [g0, assertThat, if_true, ok_bind]
      by_cases hg : (p - x) % 2576980377600 < 27000000
      · rw [if_neg (by omega), if_pos hg]
        refine ⟨{ c with gapCount := 0, lastPcr := p, ready := true, wrapped := c.wrapped || decide (p < x) }, ?_, ?_⟩
        · unfold acceptPcr
          by_cases k : p < x <;> simp [k, h2, hB]
        · refine ⟨?_, by simp, ?_, rfl, h.tot, ?_⟩
          · intro y hy; cases hy; exact ⟨rfl, rfl, h3, v1, v2⟩
          · exact h.time.trans ht
          · intro y hy _
            cases hy
            refine ⟨?_, ?_, k3, k4, (by dsimp only; omega)⟩
            · dsimp only
              split
              · rw [Int.natCast_add, Int.natCast_one, Int.add_mul]; omega
              · omega
            · dsimp only
              rw [Bool.or_eq_true, decide_eq_true_eq, k2]
              split <;> omega
      · rw [if_pos (by omega), if_neg hg]
        have hj : (c.gapCount + 1) % 256 = (v.jumps + 1) % 256 := by rw [h.jumps]; omega
        simp only [hj, gapCountThreshold]
        by_cases k : (v.jumps + 1) % 256 ≤ 4
        · rw [if_pos k, if_pos k]
          exact ⟨_, rfl, fun y hy => h.some y (by rw [hx]; exact hy), by simp [hx], h.time.trans ht, rfl, h.tot,
            fun y hy _ => h.ticks y (by rw [hx]; exact hy) ht⟩
        · rw [if_neg k, if_neg k]
          exact ⟨_, rfl, by simp, fun _ => ⟨rfl, rfl⟩, rfl, rfl, h.tot, by simp⟩
    · have hR : c.isReady = false := by simpa using hR
      have hv : v.step (.pcr p) = { v with last := Option.some p, ticks := 0, wraps := 0 } := by
        rw [hR] at hr
        unfold View.step
        cases hl : v.last with
        | none => rfl
        | some x =>
          cases ht : v.time with
          | false => rfl
          | true => rw [hl, ht] at hr; simp at hr
      rw [hv]
      by_cases hB : c.baseline.isReady = true
      · exfalso
        simp only [ClockBaseline.isReady, Bool.and_eq_true] at hB
        cases hl : v.last with
        | none => rw [(h.none hl).2] at hB; cases hB.1
        | some x =>
          rw [hR, hl, ← h.time, hB.2] at hr
          cases hr
      · have hB : c.baseline.isReady = false := by simpa using hB
        refine ⟨_, by simp only [Clock.step, updatePcr, valid v1 v2, hR]; exact accept_unready hB v1 v2, ?_⟩
        refine ⟨?_, by simp, h.time, h.jumps, h.tot, ?_⟩
        · intro y hy; cases hy; exact ⟨rfl, rfl, rfl, v1, v2⟩
        · intro y hy _
          cases hy
          refine ⟨?_, by simp, v1, v2, Int.le_refl _⟩
          show p + 0 = p + ((0 : Nat) : Int) * 2576980377600; omega

theorem Views.run {c : Clock} {v : View} (h : Views c v) (ops : List Op)
    (hv : ∀ p, .pcr p ∈ ops → 0 ≤ p ∧ p < 2576980377600) :
    ∃ c', c.run ops = .ok c' ∧ Views c' (ops.foldl View.step v) := by
  induction ops generalizing c v with
  | nil => exact ⟨c, rfl, h⟩
  | cons o os ih =>
    obtain ⟨c1, e1, h1⟩ := h.step o (by rintro p rfl; exact hv p (by simp))
    obtain ⟨c2, e2, h2⟩ := ih h1 (fun p hp => hv p (by simp [hp]))
    exact ⟨c2, by simp only [Clock.run, e1, ok_bind, e2], h2⟩

theorem Views.now {c : Clock} {v : View} (h : Views c v) (l : Int) : c.now l = .ok (v.shown l) := by
  have ht := h.tot
  have hr := h.isReady
  unfold Clock.now View.shown
  rw [two_pow]
  by_cases hR : c.isReady = true
  · rw [hR] at hr
    simp only [hR, if_true]
    rw [if_pos (show v.last.isSome = true ∧ v.time = true by simpa using hr.symm)]
    have hr' : v.last.isSome = true ∧ v.time = true := by simpa using hr.symm
    obtain ⟨x, hx⟩ := Option.isSome_iff_exists.1 hr'.1
    obtain ⟨h1, h2, h3, h4, h5⟩ := h.some x hx
    obtain ⟨k1, k2, k3, k4, k5⟩ := h.ticks x hx hr'.2
    have hB : c.baseline.isReady = true := by
      simp only [Clock.isReady, Bool.and_eq_true] at hR; exact hR.2
    have e : ∀ y, c.baseline.pcrToTime y = .ok (v.tot.1 + (y - c.baseline.pcr).tdiv 27000) := by
      intro y
      rw [← ht]
      simp only [ClockBaseline.pcrToTime, hB, assertThat, if_true, ok_bind]
      rfl
    have hu : pcrUpperBound = 2576980377600 := rfl
    simp only [e, h2, hu]
    by_cases hw : c.wrapped = true
    · have := k2.1 hw
      have hp : decide (x + 2576980377600 > 0) = true := by simp; omega
      simp only [hw, if_true, hp, assertThat, ok_bind]
      rw [Int.tdiv_eq_ediv_of_nonneg (by omega)]
      have e2 : ((v.wraps - 1 : Nat) : Int) = v.wraps - 1 := by omega
      rw [e2, Int.sub_mul]
      congr 3
      omega
    · have hw0 : v.wraps = 0 := by
        have := mt k2.2 hw; omega
      simp only [hw, if_false, Bool.false_eq_true]
      rw [hw0] at k1 ⊢
      rw [Int.tdiv_eq_ediv_of_nonneg (by omega)]
      congr 3
      omega
  · rw [if_neg hR, if_neg]
    · rw [← ht]
    · intro hc
      rw [hc.1, hc.2] at hr
      exact hR hr

theorem view_tot (a b : List Op) (t l : Int) (hb : ∀ t l, .time t l ∉ b) :
    (view (a ++ .time t l :: b)).tot = (t, l) := by
  unfold view
  rw [List.foldl_append, List.foldl_cons]
  have : ∀ (b : List Op) (v : View), (∀ t l, .time t l ∉ b) → (b.foldl View.step v).tot = v.tot := by
    intro b
    induction b with
    | nil => intro v _; rfl
    | cons o b ih =>
      intro v hb
      rw [List.foldl_cons, ih _ (fun t l h => hb t l (List.mem_cons_of_mem _ h))]
      cases o with
      | setPid pid => rfl
      | time t l => exact absurd List.mem_cons_self (hb t l)
      | pcr p =>
        unfold View.step
        dsimp only
        repeat' split
        all_goals rfl
  rw [this b _ hb]
  rfl

theorem view_unready (before after : List Op) (pid : Nat)
    (hn : (∀ p, .pcr p ∉ after) ∨ ∀ t l, .time t l ∉ after) :
    ¬ ((view (before ++ .setPid pid :: after)).last.isSome = true ∧
      (view (before ++ .setPid pid :: after)).time = true) := by
  unfold view
  rw [List.foldl_append, List.foldl_cons]
  rcases hn with hn | hn
  · have : ∀ (b : List Op) (v : View), (∀ p, .pcr p ∉ b) → v.last = none → (b.foldl View.step v).last = none := by
      intro b
      induction b with
      | nil => intro v _ h; exact h
      | cons o b ih =>
        intro v hb hl
        rw [List.foldl_cons]
        refine ih _ (fun p h => hb p (List.mem_cons_of_mem _ h)) ?_
        cases o with
        | setPid pid => rfl
        | time t l => exact hl
        | pcr p => exact absurd List.mem_cons_self (hb p)
    rw [this after _ hn rfl]
    simp
  · have : ∀ (b : List Op) (v : View), (∀ t l, .time t l ∉ b) → v.time = false → (b.foldl View.step v).time = false := by
      intro b
      induction b with
      | nil => intro v _ h; exact h
      | cons o b ih =>
        intro v hb hl
        rw [List.foldl_cons]
        refine ih _ (fun t l h => hb t l (List.mem_cons_of_mem _ h)) ?_
        cases o with
        | setPid pid => rfl
        | time t l => exact absurd List.mem_cons_self (hb t l)
        | pcr p =>
          unfold View.step
          dsimp only
          repeat' split
          all_goals first | exact hl | rfl
    rw [this after _ hn rfl]
    simp

end Mirakc.Clock
