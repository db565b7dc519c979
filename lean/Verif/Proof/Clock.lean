import Verif.Proof.Pcr
import Verif.Spec.Clock
/-
Invariants of `Clock`.
-/
set_option linter.unusedSimpArgs false

namespace Mirakc.Clock
open Mirakc.Spec

theorem run_append (c : Clock) (a b : List Op) :
    c.run (a ++ b) = (c.run a >>= fun c' => c'.run b) := by
  induction a generalizing c with
  | nil => rfl
  | cons o a ih =>
    simp only [List.cons_append, run]
    cases c.step o with
    | error e => rfl
    | ok c' => simp only [ok_bind]; exact ih c'

theorem valid_mod (x : Int) : isValidPcr (x % 2576980377600) = true := by
  rw [isValidPcr_iff]; omega

/-- The clock has seen a PCR with counter `x`, and none of the later ones was a jump. -/
structure Seen (c : Clock) (x : Int) : Prop where
  ready : c.ready = true
  last : c.lastPcr = x % 2576980377600
  pcrReady : c.baseline.pcrReady = true

/-- No PCR seen since `SetPid`. -/
structure Fresh (c : Clock) : Prop where
  ready : c.ready = false
  pcrReady : c.baseline.pcrReady = false

/-- Synchronised at time `t`, counter `x0`; the last counter value is `x`. -/
structure Synced (c : Clock) (t x0 x : Int) : Prop extends Seen c x where
  timeReady : c.baseline.timeReady = true
  time : c.baseline.time = t
  base : c.baseline.pcr = x0 % 2576980377600
  wrapped : c.wrapped = decide (x0 / 2576980377600 < x / 2576980377600)

theorem Fresh.pcr {c : Clock} (h : Fresh c) (x : Int) :
    ∃ c', c.updatePcr (x % 2576980377600) = .ok c' ∧ Seen c' x ∧
      (c.baseline.timeReady = true → Synced c' c.baseline.time x x) ∧
      c'.baseline.timeReady = c.baseline.timeReady ∧ c'.baseline.time = c.baseline.time ∧
      c'.gapCount = c.gapCount := by
  obtain ⟨⟨bt, bp, bid, bpr, btr⟩, lt, lp, g, r, w⟩ := c
  obtain ⟨h1, h2⟩ := h
  simp only at h1 h2
  subst h1; subst h2
  refine ⟨⟨⟨bt, x % 2576980377600, bid, true, btr⟩, lt, x % 2576980377600, g, true, false⟩, ?_, ?_, ?_, ?_, ?_, ?_⟩
  · simp only [updatePcr, acceptPcr, syncPcr, ClockBaseline.setPcr, isReady,
      ClockBaseline.isReady, valid_mod, assert_true, ok_bind, Bool.false_and, Bool.and_false,
      Bool.false_eq_true, if_false, Bool.not_false]
    split <;> simp only [Bool.false_and, Bool.not_false, if_true, valid_mod, assert_true, ok_bind]
  · exact ⟨rfl, rfl, rfl⟩
  · intro h; exact ⟨⟨rfl, rfl, rfl⟩, h, rfl, rfl, by simp⟩
  · rfl
  · rfl
  · rfl

theorem delta_eq {x y : Int} (h1 : x ≤ y) (h2 : y < x + 27000000) :
    computeDelta (y % 2576980377600) (x % 2576980377600) = y - x := by
  unfold computeDelta
  rw [upper_val]
  split <;> omega

theorem Seen.pcr {c : Clock} {x : Int} (h : Seen c x) (y : Int) (h1 : x ≤ y)
    (h2 : y < x + 27000000) :
    ∃ c', c.updatePcr (y % 2576980377600) = .ok c' ∧ Seen c' y ∧
      (∀ t x0, x0 ≤ x → Synced c t x0 x → Synced c' t x0 y) ∧
      c'.baseline.timeReady = c.baseline.timeReady ∧ c'.baseline.time = c.baseline.time ∧
      (c.baseline.timeReady = true → c'.gapCount = 0) := by
  obtain ⟨⟨bt, bp, bid, bpr, btr⟩, lt, lp, g, r, w⟩ := c
  obtain ⟨h3, h4, h5⟩ := h
  simp only at h3 h4 h5
  subst h3; subst h4; subst h5
  cases btr with
  | false =>
    refine ⟨⟨⟨bt, y % 2576980377600, bid, true, false⟩, lt, y % 2576980377600, g, true, false⟩, ?_, ⟨rfl, rfl, rfl⟩, ?_, rfl, rfl, by simp⟩
    · simp only [updatePcr, acceptPcr, syncPcr, ClockBaseline.setPcr, isReady,
        ClockBaseline.isReady, valid_mod, assert_true, ok_bind, Bool.and_false,
        Bool.false_eq_true, if_false, Bool.not_false]
      split <;> simp only [Bool.and_false, Bool.not_false, if_true, valid_mod, assert_true, ok_bind]
    · intro t x0 _ hs
      have := hs.timeReady
      simp at this
  | true =>
    have d := delta_eq h1 h2
    refine ⟨⟨⟨bt, bp, bid, true, true⟩, lt, y % 2576980377600, 0, true,
      w || decide (y % 2576980377600 < x % 2576980377600)⟩, ?_, ⟨rfl, rfl, rfl⟩, ?_, rfl, rfl, fun _ => rfl⟩
    · simp only [updatePcr, acceptPcr, isReady, ClockBaseline.isReady, valid_mod, assert_true,
        ok_bind, Bool.and_true, if_true, d, sec_val]
      rw [assert_of (by simp; omega), ok_bind, if_neg (by omega)]
      by_cases hlt : y % 2576980377600 < x % 2576980377600
      · simp [hlt]
      · simp [hlt]
    · intro t x0 h0 hs
      obtain ⟨_, _, s1, s2, s3⟩ := hs
      simp only at s1 s2 s3
      subst s1; subst s2
      refine ⟨⟨rfl, rfl, rfl⟩, rfl, rfl, rfl, ?_⟩
      rw [s3, Bool.eq_iff_iff]
      simp only [Bool.or_eq_true, decide_eq_true_eq]
      omega

theorem Seen.tot {c : Clock} {x : Int} (h : Seen c x) (t l : Int) :
    ∃ c', c.updateTime t l = .ok c' ∧ Synced c' t x x ∧ c'.gapCount = c.gapCount := by
  obtain ⟨⟨bt, bp, bid, bpr, btr⟩, lt, lp, g, r, w⟩ := c
  obtain ⟨h3, h4, h5⟩ := h
  simp only at h3 h4 h5
  subst h3; subst h4; subst h5
  refine ⟨⟨⟨t, x % 2576980377600, bid, true, true⟩, l, x % 2576980377600, g, true, false⟩, ?_,
    ⟨⟨rfl, rfl, rfl⟩, rfl, rfl, rfl, by simp⟩, rfl⟩
  simp only [updateTime, syncPcr, ClockBaseline.setTime, ClockBaseline.setPcr, if_true, valid_mod,
    assert_true, ok_bind]

theorem Fresh.tot {c : Clock} (h : Fresh c) (t l : Int) :
    ∃ c', c.updateTime t l = .ok c' ∧ Fresh c' ∧ c'.baseline.timeReady = true ∧
      c'.baseline.time = t := by
  obtain ⟨h1, h2⟩ := h
  refine ⟨{ c with baseline := c.baseline.setTime t, localTime := l }, ?_, ⟨h1, h2⟩, rfl, rfl⟩
  simp only [updateTime, h1, Bool.false_eq_true, if_false]

theorem two_pow : (2 : Int) ^ 33 * 300 = 2576980377600 := by decide

theorem getLast?_cons_ne {α} (a : α) {l : List α} {b : α} (h : l.getLast? = some b) :
    (a :: l).getLast? = some b := by
  cases l with
  | nil => simp at h
  | cons c l => simpa using h

/-- Histories that start after a PCR was seen. -/
theorem Seen.history {c : Clock} {x : Int} (h : Seen c x) (es : List Ev)
    (hs : Steady (x :: counters es)) :
    ∃ c' x', c.run (calls es) = .ok c' ∧ (x :: counters es).getLast? = some x' ∧ Seen c' x' ∧
      (c.baseline.timeReady = true → c'.baseline.timeReady = true) ∧
      ((∃ t l, .tot t l ∈ es) → c'.baseline.timeReady = true) := by
  induction es generalizing c x with
  | nil => exact ⟨c, x, rfl, rfl, h, id, by simp⟩
  | cons e es ih =>
    cases e with
    | pcr y =>
      simp only [counters, Steady] at hs
      obtain ⟨c1, e1, s1, _, k1, _⟩ := h.pcr y hs.1 hs.2.1
      obtain ⟨c2, x2, e2, l2, s2, t2, t3⟩ := ih s1 hs.2.2
      refine ⟨c2, x2, ?_, ?_, s2, ?_, ?_⟩
      · simp only [calls, run, step, two_pow, e1, ok_bind, e2]
      · exact getLast?_cons_ne _ l2
      · intro h; exact t2 (by rw [k1, h])
      · rintro ⟨t, l, hm⟩
        simp at hm
        exact t3 ⟨t, l, hm⟩
    | tot t l =>
      obtain ⟨c1, e1, s1, _⟩ := h.tot t l
      obtain ⟨c2, x2, e2, l2, s2, t2, t3⟩ := ih s1.toSeen hs
      refine ⟨c2, x2, ?_, l2, s2, fun _ => t2 s1.timeReady, fun _ => t2 s1.timeReady⟩
      simp only [calls, run, step, e1, ok_bind, e2]

theorem calls_append (a b : List Ev) : calls (a ++ b) = calls a ++ calls b := by
  induction a with
  | nil => rfl
  | cons e a ih => cases e <;> simp [calls, ih]

theorem counters_append (a b : List Ev) : counters (a ++ b) = counters a ++ counters b := by
  induction a with
  | nil => rfl
  | cons e a ih => cases e <;> simp [counters, ih]

theorem _root_.Mirakc.Spec.Steady.tail {x : Int} {l : List Int} (h : Steady (x :: l)) : Steady l := by
  cases l with
  | nil => trivial
  | cons y l => exact h.2.2

theorem _root_.Mirakc.Spec.Steady.left {a b : List Int} (h : Steady (a ++ b)) : Steady a := by
  induction a with
  | nil => trivial
  | cons x a ih =>
    cases a with
    | nil => trivial
    | cons y a => exact ⟨h.1, h.2.1, ih h.2.2⟩

theorem _root_.Mirakc.Spec.Steady.from_last {a b : List Int} {x : Int} (h : Steady (a ++ b))
    (hx : a.getLast? = some x) : Steady (x :: b) := by
  induction a with
  | nil => simp at hx
  | cons y a ih =>
    cases a with
    | nil => simp at hx; subst hx; exact h
    | cons z a => exact ih h.2.2 (by simpa using hx)

/-- Histories that start right after `SetPid`. -/
theorem Fresh.history {c : Clock} (h : Fresh c) (es : List Ev) (hs : Steady (counters es)) :
    ∃ c', c.run (calls es) = .ok c' ∧
      ((counters es = [] ∧ Fresh c' ∧
          (∀ t l, es.getLast? = some (.tot t l) → c'.baseline.timeReady = true ∧ c'.baseline.time = t)) ∨
       ∃ x, (counters es).getLast? = some x ∧ Seen c' x) ∧
      (c.baseline.timeReady = true → c'.baseline.timeReady = true) ∧
      ((∃ t l, .tot t l ∈ es) → c'.baseline.timeReady = true) := by
  induction es generalizing c with
  | nil => exact ⟨c, rfl, .inl ⟨rfl, h, by simp⟩, id, by simp⟩
  | cons e es ih =>
    cases e with
    | pcr y =>
      obtain ⟨c1, e1, s1, _, k1, _⟩ := h.pcr y
      obtain ⟨c2, x2, e2, l2, s2, t2, t3⟩ := s1.history es hs
      refine ⟨c2, ?_, .inr ⟨x2, l2, s2⟩, ?_, ?_⟩
      · simp only [calls, run, step, two_pow, e1, ok_bind, e2]
      · intro h; exact t2 (by rw [k1, h])
      · rintro ⟨t, l, hm⟩
        simp at hm
        exact t3 ⟨t, l, hm⟩
    | tot t l =>
      obtain ⟨c1, e1, s1, k1, k2⟩ := h.tot t l
      obtain ⟨c2, e2, d, t2, t3⟩ := ih s1 hs
      refine ⟨c2, by simp only [calls, run, step, e1, ok_bind, e2], ?_, fun _ => t2 k1, fun _ => t2 k1⟩
      rcases d with ⟨d1, d2, d3⟩ | d
      · refine .inl ⟨d1, d2, ?_⟩
        intro t' l' hl
        cases es with
        | nil =>
          simp at hl
          cases e2
          obtain ⟨rfl, rfl⟩ := hl
          exact ⟨k1, k2⟩
        | cons e es => exact d3 t' l' (by simpa using hl)
      · exact .inr d

/-- PCR-only continuation of a synchronised clock. -/
theorem Synced.pcrs {c : Clock} {t x0 x : Int} (h : Synced c t x0 x) (h0 : x0 ≤ x) (xs : List Int)
    (hs : Steady (x :: xs)) :
    ∃ c' x', c.run (calls (xs.map .pcr)) = .ok c' ∧ (x :: xs).getLast? = some x' ∧
      Synced c' t x0 x' ∧ x0 ≤ x' := by
  induction xs generalizing c x with
  | nil => exact ⟨c, x, rfl, rfl, h, h0⟩
  | cons y xs ih =>
    obtain ⟨c1, e1, s1, k1, _⟩ := h.toSeen.pcr y hs.1 hs.2.1
    have hx := hs.1
    obtain ⟨c2, x2, e2, l2, s2, o2⟩ := ih (k1 t x0 h0 h) (by omega) hs.2.2
    refine ⟨c2, x2, ?_, getLast?_cons_ne _ l2, s2, o2⟩
    simp only [List.map_cons, calls, run, step, two_pow, e1, ok_bind, e2]

theorem Synced.isReady {c : Clock} {t x0 x : Int} (h : Synced c t x0 x) : c.isReady = true := by
  simp [Clock.isReady, ClockBaseline.isReady, h.ready, h.pcrReady, h.timeReady]

/-- What a synchronised clock shows. -/
theorem Synced.now {c : Clock} {t x0 x : Int} (h : Synced c t x0 x) (l : Int) :
    c.now l = .ok (t + (x % 2576980377600 +
        (if x0 / 2576980377600 < x / 2576980377600 then 2576980377600 else 0) -
        x0 % 2576980377600).tdiv 27000) := by
  have hb : c.baseline.isReady = true := by simp [ClockBaseline.isReady, h.pcrReady, h.timeReady]
  simp only [Clock.now, h.isReady, if_true, h.wrapped, h.last, ClockBaseline.pcrToTime, hb,
    assert_true, ok_bind, h.time, h.base, ticks_val, upper_val]
  by_cases hw : x0 / 2576980377600 < x / 2576980377600
  · rw [if_pos hw, if_pos (by simpa using hw), assert_of (by simp; omega), ok_bind]
  · rw [if_neg hw, if_neg (by simpa using hw), Int.add_zero]

/-- A jump seen by a ready clock. -/
theorem jump {c : Clock} {x : Int} (h : Seen c x) (ht : c.baseline.timeReady = true) (p : Int)
    (h0 : 0 ≤ p) (h1 : p < 2576980377600) (hj : 27000000 ≤ (p - x) % 2576980377600)
    (hg : c.gapCount < 255) :
    c.updatePcr p = .ok (if c.gapCount < 4 then { c with gapCount := c.gapCount + 1 } else
      invalidate { c with gapCount := c.gapCount + 1 }) := by
  obtain ⟨⟨bt, bp, bid, bpr, btr⟩, lt, lp, g, r, w⟩ := c
  obtain ⟨h3, h4, h5⟩ := h
  simp only at h3 h4 h5 ht hg
  subst h3; subst h4; subst h5; subst ht
  have d : computeDelta p (x % 2576980377600) = (p - x) % 2576980377600 := by
    unfold computeDelta
    rw [upper_val]
    split <;> omega
  simp only [updatePcr, isReady, ClockBaseline.isReady, (isValidPcr_iff p).2 ⟨h0, h1⟩, assert_true,
    ok_bind, Bool.and_true, if_true, d, sec_val]
  rw [assert_of (by simp; omega), ok_bind, if_pos (by omega),
    show (g + 1) % 256 = g + 1 by omega]
  have hgc : gapCountThreshold = 4 := rfl
  by_cases hg4 : g < 4
  · rw [if_pos (by omega), if_pos hg4]
  · rw [if_neg (by omega), if_neg hg4]

/-- A regular step seen by a ready clock. -/
theorem regular {c : Clock} {x y : Int} (h : Seen c x) (ht : c.baseline.timeReady = true)
    (h1 : x ≤ y) (h2 : y < x + 27000000) :
    c.updatePcr (y % 2576980377600) = acceptPcr { c with gapCount := 0 } (y % 2576980377600) := by
  have d := delta_eq h1 h2
  have hr : c.isReady = true := by
    simp [isReady, ClockBaseline.isReady, h.ready, h.pcrReady, ht]
  simp only [updatePcr, valid_mod, assert_true, ok_bind, hr, if_true, h.last, d, sec_val]
  rw [assert_of (by simp; omega), ok_bind, if_neg (by omega)]

theorem jumps {c : Clock} {x : Int} (h : Seen c x) (ht : c.baseline.timeReady = true)
    (ps : List Int)
    (hp : ∀ p ∈ ps, 0 ≤ p ∧ p < 2576980377600 ∧ 27000000 ≤ (p - x) % 2576980377600)
    (hg : c.gapCount + ps.length ≤ 4) :
    c.run (ps.map .pcr) = .ok { c with gapCount := c.gapCount + ps.length } := by
  induction ps generalizing c with
  | nil => rfl
  | cons p ps ih =>
    simp only [List.length_cons] at hg
    obtain ⟨a1, a2, a3⟩ := hp p (by simp)
    have := jump h ht p a1 a2 a3 (by omega)
    rw [if_pos (by omega)] at this
    simp only [List.map_cons, run, step, this, ok_bind]
    rw [ih (c := { c with gapCount := c.gapCount + 1 }) ⟨h.ready, h.last, h.pcrReady⟩ ht (fun q hq => hp q (by simp [hq])) (by simp; omega)]
    simp only [List.length_cons]
    congr 2
    omega

theorem acceptPcr_ready {c : Clock} (h : c.baseline.isReady = true) (p : Int) :
    acceptPcr c p = .ok { c with lastPcr := p, ready := true, wrapped := c.wrapped || decide (p < c.lastPcr) } := by
  unfold acceptPcr
  by_cases hp : p < c.lastPcr <;> simp [hp, h]

theorem acceptPcr_unready {c : Clock} (h : c.baseline.isReady = false) (p : Int)
    (hv : isValidPcr p = true) :
    acceptPcr c p = .ok { c with
      baseline := { c.baseline with pcr := p, pcrReady := true }, lastPcr := p, ready := true,
      wrapped := false } := by
  unfold acceptPcr
  by_cases hp : p < c.lastPcr <;> simp [hp, h, syncPcr, ClockBaseline.setPcr, hv]

theorem not_time_ready {c : Clock} (h : c.baseline.timeReady = false) (ops : List Op)
    (ho : ∀ t l, .time t l ∉ ops) {c' : Clock} (hr : c.run ops = .ok c') :
    c'.baseline.timeReady = false := by
  induction ops generalizing c with
  | nil => cases hr; exact h
  | cons o ops ih =>
    obtain ⟨c1, e1, e2⟩ := bind_eq_ok hr
    refine ih ?_ (fun t l hm => ho t l (by simp [hm])) e2
    cases o with
    | setPid p => cases e1; rfl
    | time t l => exact absurd (by simp) (ho t l)
    | pcr p =>
      simp only [step, updatePcr] at e1
      obtain ⟨_, hv, e1⟩ := bind_eq_ok e1
      rw [if_neg (by simp [isReady, ClockBaseline.isReady, h]),
        acceptPcr_unready (by simp [ClockBaseline.isReady, h]) p (assert_ok hv)] at e1
      cases e1; exact h

theorem not_pcr_ready {c : Clock} (h : c.ready = false) (ops : List Op)
    (ho : ∀ p, .pcr p ∉ ops) {c' : Clock} (hr : c.run ops = .ok c') : c'.ready = false := by
  induction ops generalizing c with
  | nil => cases hr; exact h
  | cons o ops ih =>
    obtain ⟨c1, e1, e2⟩ := bind_eq_ok hr
    refine ih ?_ (fun t hm => ho t (by simp [hm])) e2
    cases o with
    | setPid p => cases e1; rfl
    | time t l =>
      simp only [step, updateTime, h, Bool.false_eq_true, if_false] at e1
      cases e1; rfl
    | pcr p => exact absurd (by simp) (ho p)

/-- The only way a ready clock loses readiness on a PCR is an invalidation. -/
theorem lost_ready {c : Clock} {p : Int} {c' : Clock} (h : c.isReady = true)
    (hs : c.updatePcr p = .ok c') (h' : c'.isReady = false) :
    c'.ready = false ∧ c'.baseline.pcrReady = false ∧ c'.baseline.timeReady = false := by
  simp only [updatePcr] at hs
  obtain ⟨_, _, hs⟩ := bind_eq_ok hs
  rw [if_pos h] at hs
  obtain ⟨_, _, hs⟩ := bind_eq_ok hs
  simp only [isReady, Bool.and_eq_true] at h
  split at hs
  · split at hs
    · cases hs; simp [isReady, h] at h'
    · cases hs; exact ⟨rfl, rfl, rfl⟩
  · rw [acceptPcr_ready (by exact h.2)] at hs
    cases hs
    simp [isReady, h.2] at h'

theorem setPid_fresh (c : Clock) (pid : Nat) : Fresh (c.setPid pid) := ⟨rfl, rfl⟩

end Mirakc.Clock
