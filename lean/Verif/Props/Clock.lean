import Verif.Proof.Clock
/-
Properties C16 and C17: the stream clock.
-/
set_option linter.unusedSimpArgs false

namespace Mirakc.Props
open Mirakc.Spec Mirakc.Clock

/-- **C16, full statement.**  A clock (in any state) is switched to a PCR PID,
then sees a steady history containing a PCR, then a TOT with time `t` when the
counter was `x0`, then steady PCRs up to counter value `x`: it shows
`t + (x - x0)` in milliseconds, rounded down. -/
def C16_claim : Prop :=
  ∀ (c : Clock) (pid : Nat) (before : List Ev) (t l : Int) (after : List Int) (x0 x : Int),
    Steady (counters before ++ after) → (counters before).getLast? = some x0 →
    (x0 :: after).getLast? = some x →
    ∃ c', c.run (.setPid pid :: calls (before ++ [.tot t l] ++ after.map .pcr)) = .ok c' ∧
      c'.isReady = true ∧ ∀ l', c'.now l' = .ok (t + (x - x0) / 27000)

/-- The exact reading in the situation of C16. -/
private theorem c16_exact (c : Clock) (pid : Nat) (before : List Ev) (t l : Int) (after : List Int)
    (x0 x : Int) (hs : Steady (counters before ++ after))
    (h0 : (counters before).getLast? = some x0) (hx : (x0 :: after).getLast? = some x) :
    ∃ c', c.run (.setPid pid :: calls (before ++ [.tot t l] ++ after.map .pcr)) = .ok c' ∧
      Synced c' t x0 x ∧ x0 ≤ x := by
  obtain ⟨c1, e1, d, _⟩ := (setPid_fresh c pid).history before hs.left
  obtain ⟨x1, hx1, s1⟩ : ∃ x, (counters before).getLast? = some x ∧ Seen c1 x := by
    rcases d with ⟨d, _⟩ | d
    · rw [d] at h0; simp at h0
    · exact d
  rw [h0] at hx1; cases hx1
  obtain ⟨c2, e2, s2, _⟩ := s1.tot t l
  obtain ⟨c3, x3, e3, l3, s3, o3⟩ := s2.pcrs (by omega) after (hs.from_last h0)
  rw [hx] at l3; cases l3
  refine ⟨c3, ?_, s3, o3⟩
  simp only [calls_append, calls, run, step, run_append, ok_bind, e1, e2, e3]

private theorem steady_map (d : Int) (h0 : 0 ≤ d) (h1 : d < 27000000) (n s : Nat) :
    Steady ((List.range' s n).map fun i : Nat => d * (i : Int)) := by
  induction n generalizing s with
  | zero => trivial
  | succ n ih =>
    cases n with
    | zero => trivial
    | succ n =>
      have := ih (s + 1)
      simp only [List.range'_succ, List.map_cons] at this ⊢
      have e : d * ((s + 1 : Nat) : Int) = d * (s : Int) + d := by
        rw [show ((s + 1 : Nat) : Int) = (s : Int) + 1 by omega, Int.mul_add, Int.mul_one]
      exact ⟨by omega, by omega, this⟩

/-- **C16** is false without a bound on the number of wraps: with two
wrap-arounds since the last TOT the clock lags a whole wrap period. -/
theorem C16_claim_false : ¬ C16_claim := by
  intro h
  have hs : Steady (counters [.pcr 0] ++
      (List.range' 1 257699).map fun i : Nat => 20000000 * (i : Int)) := by
    have := steady_map 20000000 (by decide) (by decide) 257700 0
    rw [List.range'_succ] at this
    exact this
  have hl : (0 :: (List.range' 1 257699).map fun i : Nat => 20000000 * (i : Int)).getLast? =
      some 5153980000000 := by
    rw [List.getLast?_cons, List.getLast?_map, List.getLast?_range']
    rfl
  obtain ⟨c', e1, _, h2⟩ := h {} 1 [.pcr 0] 0 0 _ 0 _ hs rfl hl
  obtain ⟨c'', e2, s, _⟩ := c16_exact {} 1 [.pcr 0] 0 0 _ 0 _ hs rfl hl
  rw [e1] at e2
  cases e2
  have h3 := h2 0
  rw [s.now 0] at h3
  revert h3
  decide

/-- **C16, what holds.**  The reading is the TOT time plus the true elapsed PCR
time, rounded down to milliseconds, across at most one wrap-around since the last
TOT.  First part: the TOT comes while PCRs are running (`x0` is the counter of
the last PCR before it).  Second part: the first PCR comes after the TOT (`x0` is
its counter).  Missing from the full statement: two or more wrap-arounds (more
than 26 hours) without a TOT. -/
theorem C16_clock_now_partial (c : Clock) (pid : Nat) (before : List Ev) (t l x0 x : Int)
    (after : List Int) (hx : (x0 :: after).getLast? = some x)
    (hwrap : x < (x0 / (2 ^ 33 * 300) + 2) * (2 ^ 33 * 300)) :
    (Steady (counters before ++ after) → (counters before).getLast? = some x0 →
      ∃ c', c.run (.setPid pid :: calls (before ++ [.tot t l] ++ after.map .pcr)) = .ok c' ∧
        c'.isReady = true ∧ ∀ l', c'.now l' = .ok (t + (x - x0) / 27000)) ∧
    (Steady (x0 :: after) → counters before = [] →
      ∃ c', c.run (.setPid pid :: calls (before ++ [.tot t l] ++ (x0 :: after).map .pcr)) = .ok c' ∧
        c'.isReady = true ∧ ∀ l', c'.now l' = .ok (t + (x - x0) / 27000)) := by
  rw [two_pow] at hwrap
  have read : ∀ c', Synced c' t x0 x → x0 ≤ x →
      c'.isReady = true ∧ ∀ l', c'.now l' = .ok (t + (x - x0) / 27000) := by
    intro c' s o
    refine ⟨s.isReady, fun l' => ?_⟩
    rw [s.now l']
    have : (x % 2576980377600 +
        (if x0 / 2576980377600 < x / 2576980377600 then 2576980377600 else 0) -
        x0 % 2576980377600) = x - x0 := by split <;> omega
    rw [this, Int.tdiv_eq_ediv_of_nonneg (by omega)]
  constructor
  · intro hs h0
    obtain ⟨c', e, s, o⟩ := c16_exact c pid before t l after x0 x hs h0 hx
    exact ⟨c', e, read c' s o⟩
  · intro hs h0
    have h1 : counters (before ++ [.tot t l]) = [] := by simp [counters_append, h0, counters]
    obtain ⟨c1, e1, d, _⟩ := (setPid_fresh c pid).history (before ++ [.tot t l]) (by rw [h1]; trivial)
    rcases d with ⟨_, f1, k⟩ | ⟨y, hy, _⟩
    · obtain ⟨k1, k2⟩ := k t l (by simp)
      obtain ⟨c2, e2, _, s2, _⟩ := f1.pcr x0
      have s2 := s2 k1
      rw [k2] at s2
      obtain ⟨c3, x3, e3, l3, s3, o3⟩ := s2.pcrs (by omega) after hs
      rw [hx] at l3; cases l3
      refine ⟨c3, ?_, read c3 s3 o3⟩
      rw [calls_append, ← List.singleton_append, run_append]
      simp only [run, step, ok_bind, run_append, e1, List.map_cons, calls, two_pow, e2, e3]
    · rw [h1] at hy; simp at hy

/-- Non-trivial case for C16: the counter wraps between the TOT and the reading. -/
example : ∃ c', ({} : Clock).run (.setPid 0x100 ::
      calls ([.pcr 2576980000000] ++ [.tot 1000000 0] ++ [2576990000000, 2577000000000].map .pcr)) =
        .ok c' ∧
    c'.isReady = true ∧ ∀ l', c'.now l' = .ok (1000000 + 740) := by
  have h := (C16_clock_now_partial {} 0x100 [.pcr 2576980000000] 1000000 0 2576980000000
    2577000000000 [2576990000000, 2577000000000] rfl (by decide)).1
    ⟨by decide, by decide, by decide, by decide, trivial⟩ rfl
  exact h

/-- **C16, any number of wrap-arounds.**  In the situation of C16 the clock is ready and shows the
TOT time plus the elapsed PCR time, less one period of the PCR (26.5 hours) for every
wrap-around since the TOT after the first. -/
theorem C16_any_wraps (c : Clock) (pid : Nat) (before : List Ev) (t l x0 x : Int)
    (after : List Int) (hx : (x0 :: after).getLast? = some x)
    (h : Steady (counters before ++ after) ∧ (counters before).getLast? = some x0) :
    ∃ c' : Clock, c.run (.setPid pid :: calls (before ++ [.tot t l] ++ after.map .pcr)) = .ok c' ∧
      c'.isReady = true ∧ ∃ wraps : Nat, (wraps : Int) = x / (2 ^ 33 * 300) - x0 / (2 ^ 33 * 300) ∧
        ∀ l', c'.now l' = .ok (t + (x - x0 - (wraps - 1 : Nat) * (2 ^ 33 * 300)) / 27000) := by
  obtain ⟨c', e, s, o⟩ := c16_exact c pid before t l after x0 x h.1 h.2 hx
  rw [two_pow]
  refine ⟨c', e, s.isReady, (x / 2576980377600 - x0 / 2576980377600).toNat, by omega, fun l' => ?_⟩
  rw [s.now l']
  have : (x % 2576980377600 +
      (if x0 / 2576980377600 < x / 2576980377600 then 2576980377600 else 0) -
      x0 % 2576980377600) =
      x - x0 - (((x / 2576980377600 - x0 / 2576980377600).toNat - 1 : Nat) : Int) * 2576980377600 := by
    split <;> omega
  rw [this, Int.tdiv_eq_ediv_of_nonneg (by split at this <;> omega)]

/-- Two wrap-arounds: the counter goes from 0 to 5153980000000 in steps of less than a second, and the
clock is a whole period late. -/
example : ∃ c' : Clock, ({} : Clock).run (.setPid 1 ::
      calls ([.pcr 0] ++ [.tot 7 0] ++ ((List.range' 1 257699).map fun i : Nat => 20000000 * (i : Int)).map .pcr)) =
        .ok c' ∧
    ∀ l', c'.now l' = .ok (7 + (5153980000000 - 2576980377600) / 27000) := by
  have hs : Steady (counters [.pcr 0] ++
      (List.range' 1 257699).map fun i : Nat => 20000000 * (i : Int)) := by
    have := steady_map 20000000 (by decide) (by decide) 257700 0
    rw [List.range'_succ] at this
    exact this
  have hl : (0 :: (List.range' 1 257699).map fun i : Nat => 20000000 * (i : Int)).getLast? =
      some 5153980000000 := by
    rw [List.getLast?_cons, List.getLast?_map, List.getLast?_range']
    rfl
  obtain ⟨c', e, _, w, hw, hn⟩ := C16_any_wraps {} 1 [.pcr 0] 7 0 0 _ _ hl ⟨hs, rfl⟩
  refine ⟨c', e, fun l' => ?_⟩
  rw [hn]
  obtain rfl : w = 2 := by rw [two_pow] at hw; omega
  rfl

/-- **C17, full statement** (the part about tolerated jumps).  A clock that has
just become ready by accepting the PCR `x` ignores a jump, i.e. a PCR at a forward
distance of at least one second from `x`. -/
def C17_claim : Prop :=
  ∀ (h : List Clock.Op) (x p : Int) (c c' : Clock),
    ({} : Clock).run (h ++ [.pcr x]) = .ok c → c.isReady = true →
    (∀ c0, ({} : Clock).run h = .ok c0 → c0.isReady = false) →
    0 ≤ p → p < 2 ^ 33 * 300 → 27000000 ≤ (p - x) % (2 ^ 33 * 300) →
    c.updatePcr p = .ok c' → c'.isReady = true

/-- **C17** is false in general: the jump counter survives an invalidation, so
after a resync the very first jump invalidates the clock again. -/
theorem C17_claim_false : ¬ C17_claim := by
  intro h
  have := h
    ([.setPid 1, .pcr 0, .time 0 0] ++ List.replicate 5 (.pcr 100000000) ++ [.time 5 0])
    200000000 300000000
    { baseline := ⟨5, 200000000, 1, true, true⟩, lastPcr := 200000000, gapCount := 5, ready := true }
    { baseline := ⟨5, 200000000, 1, false, false⟩, lastPcr := 0, gapCount := 6, ready := false }
    (by decide) (by decide)
    (by
      intro c0 h0
      have : ({} : Clock).run ([.setPid 1, .pcr 0, .time 0 0] ++
        List.replicate 5 (.pcr 100000000) ++ [.time 5 0]) =
        .ok { baseline := ⟨5, 0, 1, false, true⟩, lastPcr := 0, gapCount := 5 } := by decide
      rw [this] at h0
      cases h0
      decide)
    (by decide) (by decide) (by decide) (by decide)
  revert this
  decide

/-- **C17, what holds.**  A clock in any state is switched to a PCR PID and sees a
steady history with a TOT and a PCR, and then one more steady PCR `x`.
1. Up to four jumps in a row change neither readiness nor the time shown, and a
   following regular PCR leads to exactly the state it would have led to without
   the jumps.
2. A fifth jump invalidates the clock.
3. Whenever a PCR makes a ready clock unready, it stays unready as long as no TOT
   arrives and as long as no PCR arrives, and one TOT and one valid PCR (in either
   order) make it ready again.
Missing from the full statement: the four-jump tolerance right after a
resynchronisation, before a regular PCR step. -/
theorem C17_jumps_partial :
    (∀ (c : Clock) (pid : Nat) (es : List Ev) (x : Int) (js : List Int),
      Steady (counters (es ++ [.pcr x])) → counters es ≠ [] → (∃ t l, .tot t l ∈ es) →
      (∀ p ∈ js, 0 ≤ p ∧ p < 2 ^ 33 * 300 ∧ 27000000 ≤ (p - x) % (2 ^ 33 * 300)) →
      ∃ c1, c.run (.setPid pid :: calls (es ++ [.pcr x])) = .ok c1 ∧ c1.isReady = true ∧
        (js.length ≤ 4 → ∃ c2, c1.run (js.map .pcr) = .ok c2 ∧ c2.isReady = true ∧
          (∀ l, c2.now l = c1.now l) ∧
          ∀ y, x ≤ y → y < x + 27000000 →
            c2.updatePcr (y % (2 ^ 33 * 300)) = c1.updatePcr (y % (2 ^ 33 * 300))) ∧
        (js.length = 5 → ∃ c2, c1.run (js.map .pcr) = .ok c2 ∧ c2.isReady = false)) ∧
    (∀ (c c' : Clock) (p : Int), c.isReady = true → c.updatePcr p = .ok c' → c'.isReady = false →
      (∀ ops c'', c'.run ops = .ok c'' → c''.isReady = true →
        (∃ t l, .time t l ∈ ops) ∧ (∃ q, .pcr q ∈ ops)) ∧
      (∀ t l q, 0 ≤ q → q < 2 ^ 33 * 300 →
        (∃ c'', c'.run [.time t l, .pcr q] = .ok c'' ∧ c''.isReady = true) ∧
        (∃ c'', c'.run [.pcr q, .time t l] = .ok c'' ∧ c''.isReady = true))) := by
  rw [two_pow]
  constructor
  · intro c pid es x js hs hne ⟨t, l, ht⟩ hj
    rw [counters_append] at hs
    obtain ⟨c0, e0, d, _, k⟩ := (setPid_fresh c pid).history es hs.left
    have k := k ⟨t, l, ht⟩
    rcases d with ⟨d, _⟩ | ⟨y, hy, s0⟩
    · exact absurd d hne
    have hy' := hs.from_last hy
    simp only [counters, Steady] at hy'
    obtain ⟨c1, e1, s1, _, k1, _, g1⟩ := s0.pcr x hy'.1 hy'.2.1
    have k1 : c1.baseline.timeReady = true := by rw [k1, k]
    have g1 := g1 k
    have r1 : c1.isReady = true := by
      simp [Clock.isReady, ClockBaseline.isReady, s1.ready, s1.pcrReady, k1]
    refine ⟨c1, ?_, r1, ?_, ?_⟩
    · simp only [calls_append, calls, run, step, run_append, ok_bind, e0, two_pow, e1]
    · intro hl
      refine ⟨_, jumps s1 k1 js hj (by omega), r1, fun l => rfl, ?_⟩
      intro y hy1 hy2
      rw [regular s1 k1 hy1 hy2]
      exact regular (c := { c1 with gapCount := c1.gapCount + js.length })
        ⟨s1.ready, s1.last, s1.pcrReady⟩ k1 hy1 hy2
    · intro hl
      obtain ⟨js', p, rfl⟩ : ∃ js' p, js = js' ++ [p] := by
        have : js ≠ [] := by intro h; simp [h] at hl
        exact ⟨_, _, (List.dropLast_concat_getLast this).symm⟩
      simp only [List.length_append, List.length_singleton] at hl
      have e2 := jumps s1 k1 js' (fun q hq => hj q (by simp [hq])) (by omega)
      obtain ⟨a1, a2, a3⟩ := hj p (by simp)
      have e3 := jump (c := { c1 with gapCount := c1.gapCount + js'.length })
        ⟨s1.ready, s1.last, s1.pcrReady⟩ k1 p a1 a2 a3 (by simp; omega)
      rw [if_neg (by simp; omega)] at e3
      refine ⟨invalidate { c1 with gapCount := c1.gapCount + js'.length + 1 }, ?_, rfl⟩
      simp only [List.map_append, run_append, e2, ok_bind, List.map_cons, List.map_nil, run, step, e3]
  · intro c c' p h1 h2 h3
    obtain ⟨q1, q2, q3⟩ := lost_ready h1 h2 h3
    refine ⟨?_, ?_⟩
    · intro ops c'' hr hr'
      simp only [isReady, ClockBaseline.isReady, Bool.and_eq_true] at hr'
      constructor
      · apply Classical.byContradiction
        intro hn
        have := not_time_ready q3 ops (fun t l hm => hn ⟨t, l, hm⟩) hr
        rw [this] at hr'; simp at hr'
      · apply Classical.byContradiction
        intro hn
        have := not_pcr_ready q1 ops (fun t hm => hn ⟨t, hm⟩) hr
        rw [this] at hr'; simp at hr'
    · intro t l q hq1 hq2
      have hq : q % 2576980377600 = q := by omega
      constructor
      · obtain ⟨c1, e1, f1, k1, _⟩ := (Fresh.mk q1 q2).tot t l
        obtain ⟨c2, e2, s2, k2, _⟩ := f1.pcr q
        rw [hq] at e2
        refine ⟨c2, ?_, (k2 k1).isReady⟩
        simp only [run, step, e1, ok_bind, e2]
      · obtain ⟨c1, e1, s1, _⟩ := (Fresh.mk q1 q2).pcr q
        rw [hq] at e1
        obtain ⟨c2, e2, s2, _⟩ := s1.tot t l
        refine ⟨c2, ?_, s2.isReady⟩
        simp only [run, step, e1, ok_bind, e2]

/-- Non-trivial case for C17: two jumps in a row on a settled clock. -/
example : ∃ c1, ({} : Clock).run (.setPid 1 :: calls ([.pcr 0, .tot 5 0] ++ [.pcr 1000])) = .ok c1 ∧
    c1.isReady = true ∧ ∃ c2, c1.run ([900000000, 800000000].map .pcr) = .ok c2 ∧
      c2.isReady = true ∧ ∀ l, c2.now l = c1.now l := by
  obtain ⟨c1, h1, h2, h3, _⟩ := C17_jumps_partial.1 {} 1 [.pcr 0, .tot 5 0] 1000
    [900000000, 800000000] ⟨by decide, by decide, trivial⟩ (by simp [counters])
    ⟨5, 0, by simp⟩ (by decide)
  obtain ⟨c2, h4, h5, h6, _⟩ := h3 (by decide)
  exact ⟨c1, h1, h2, c2, h4, h5, h6⟩

/-- Non-trivial case for C17, part 3: a ready clock that a jump makes unready. -/
example : ∃ c c' : Clock, c.isReady = true ∧ c.updatePcr 900000000 = .ok c' ∧ c'.isReady = false :=
  ⟨{ baseline := ⟨0, 0, 1, true, true⟩, ready := true, gapCount := 4 }, _, by decide, rfl, by decide⟩

/-- What a clock remembers of the calls so far: the PCR it follows, whether it has the time, and the number of
jumps it saw since it last followed a PCR step below one second. -/
structure Sight where
  last : Option Int := none
  time : Bool := false
  jumps : Nat := 0
deriving DecidableEq

/-- Effect of one call.  A jump is a PCR at a forward distance of one second or more from
the PCR followed, while the clock has the time.  It is ignored, or it makes the clock forget the PCR and the time:
it does the latter if it is the fifth to the 255th, the 261st to the 511th, ... in a row. -/
def Sight.step (s : Sight) : Clock.Op → Sight
  | .setPid _ => { s with last := none, time := false }
  | .time _ _ => { s with time := true }
  | .pcr p =>
    match s.last, s.time with
    | some x, true =>
      if (p - x) % (2 ^ 33 * 300) < 27000000 then { s with last := some p, jumps := 0 }
      else if (s.jumps + 1) % 256 ≤ 4 then { s with jumps := s.jumps + 1 }
      else { last := none, time := false, jumps := s.jumps + 1 }
    | _, _ => { s with last := some p }

/-- What a clock remembers after some calls. -/
def sight (ops : List Clock.Op) : Sight := ops.foldl Sight.step {}

/-- A clock with this memory. -/
private structure Sees (c : Clock) (s : Sight) : Prop where
  some : ∀ x, s.last = .some x → c.ready = true ∧ c.lastPcr = x ∧ c.baseline.pcrReady = true ∧ 0 ≤ x ∧ x < 2576980377600
  none : s.last = .none → c.ready = false
  time : c.baseline.timeReady = s.time
  jumps : c.gapCount = s.jumps % 256

private theorem Sees.isReady {c : Clock} {s : Sight} (h : Sees c s) :
    c.isReady = (s.last.isSome && s.time) := by
  cases hl : s.last with
  | none => simp [Clock.isReady, h.none hl]
  | some x =>
    obtain ⟨h1, _, h3, _⟩ := h.some x hl
    simp [Clock.isReady, ClockBaseline.isReady, h1, h3, h.time]

private theorem Sees.step {c : Clock} {s : Sight} (h : Sees c s) (o : Clock.Op)
    (hv : ∀ p, o = .pcr p → 0 ≤ p ∧ p < 2576980377600) :
    ∃ c', c.step o = .ok c' ∧ Sees c' (s.step o) := by
  cases o with
  | setPid pid => exact ⟨_, rfl, by simp [Sight.step], by simp [Sight.step, setPid], rfl, h.jumps⟩
  | time t l =>
    cases hl : s.last with
    | none =>
      have := h.none hl
      refine ⟨{ c with baseline := c.baseline.setTime t, localTime := l }, ?_, ?_, ?_, rfl, h.jumps⟩
      · simp [Clock.step, updateTime, this]
      · simp [Sight.step, hl]
      · intro _; exact this
    | some x =>
      obtain ⟨h1, h2, h3, h4, h5⟩ := h.some x hl
      have hv : isValidPcr x = true := by
        unfold isValidPcr maxPcr maxPcrExt; simp; omega
      refine ⟨{ c with baseline := { c.baseline.setTime t with pcr := x, pcrReady := true }, localTime := l,
                       wrapped := false }, ?_, ?_, ?_, rfl, h.jumps⟩
      · simp [Clock.step, updateTime, h1, syncPcr, ClockBaseline.setPcr, h2, hv, assertThat]
      · intro y hy
        simp only [Sight.step, hl] at hy
        cases hy
        exact ⟨h1, h2, rfl, h4, h5⟩
      · simp [Sight.step, hl]
  | pcr p =>
    obtain ⟨v1, v2⟩ := hv p rfl
    have hv : isValidPcr p = true := by
        unfold isValidPcr maxPcr maxPcrExt; simp; omega
    have hr := h.isReady
    have accept : ∀ d : Clock, d.baseline = c.baseline → (c.isReady = true → d.baseline.isReady = true) →
        ∃ c', acceptPcr d p = .ok c' ∧ c'.ready = true ∧ c'.lastPcr = p ∧ c'.baseline.pcrReady = true ∧
          c'.baseline.timeReady = c.baseline.timeReady ∧ c'.gapCount = d.gapCount := by
      intro d hd _
      unfold acceptPcr
      have hb : ∀ b : Clock, b.baseline = c.baseline → b.lastPcr = p → b.ready = true → b.gapCount = d.gapCount →
          ∃ c', (if !b.baseline.isReady then b.syncPcr else .ok b) = .ok c' ∧ c'.ready = true ∧ c'.lastPcr = p ∧
            c'.baseline.pcrReady = true ∧
            c'.baseline.timeReady = c.baseline.timeReady ∧ c'.gapCount = d.gapCount := by
        intro b b1 b2 b3 b4
        cases hi : b.baseline.isReady with
        | true =>
          refine ⟨b, rfl, b3, b2, ?_, by rw [b1], b4⟩
          simp only [ClockBaseline.isReady, Bool.and_eq_true] at hi
          exact hi.1
        | false =>
          refine ⟨{ b with baseline := { b.baseline with pcr := p, pcrReady := true }, wrapped := false },
            ?_, b3, b2, rfl, ?_, b4⟩
          · simp [syncPcr, ClockBaseline.setPcr, b2, hv, assertThat]
          · simp [b1]
      apply hb
      · by_cases k : p < d.lastPcr <;> simp [k, hd]
      · rfl
      · rfl
      · by_cases k : p < d.lastPcr <;> simp [k]
    by_cases hR : c.isReady = true
    · obtain ⟨x, hx⟩ : ∃ x, s.last = .some x := by
        rw [hR] at hr
        cases hl : s.last with
        | none => simp [hl] at hr
        | some x => exact ⟨x, rfl⟩
      have ht : s.time = true := by rw [hR, hx] at hr; simpa using hr.symm
      obtain ⟨h1, h2, h3, h4, h5⟩ := h.some x hx
      have gap : computeDelta p c.lastPcr = (p - x) % 2576980377600 := by
        unfold computeDelta pcrUpperBound maxPcr maxPcrExt; rw [h2]; split <;> omega
      have hR' : c.baseline.isReady = true := by
        simp only [Clock.isReady, Bool.and_eq_true] at hR; exact hR.2
      simp only [Clock.step, updatePcr, hv, hR, if_true, gap, Sight.step, hx, ht, two_pow, pcrTicksPerSec]
      have g0 : decide ((p - x) % 2576980377600 ≥ 0) = true := by simp; omega
      simp only [g0, assertThat, if_true, ok_bind]
      by_cases hg : (p - x) % 2576980377600 < 27000000
      · rw [if_neg (by omega), if_pos hg]
        obtain ⟨c', e, k1, k2, k3, k4, k5⟩ := accept { c with gapCount := 0 } rfl (fun _ => hR')
        refine ⟨c', e, ?_, by simp, by rw [k4, h.time, ht], by rw [k5]; rfl⟩
        intro y hy; cases hy; exact ⟨k1, k2, k3, v1, v2⟩
      · rw [if_pos (by omega), if_neg hg]
        have hj : (c.gapCount + 1) % 256 = (s.jumps + 1) % 256 := by rw [h.jumps]; omega
        simp only [hj, gapCountThreshold]
        by_cases k : (s.jumps + 1) % 256 ≤ 4
        · rw [if_pos k, if_pos k]
          exact ⟨_, rfl, fun y hy => h.some y (by rw [hx]; exact hy), by simp, by rw [← h.time] at ht; exact ht, rfl⟩
        · rw [if_neg k, if_neg k]
          exact ⟨_, rfl, by simp, fun _ => rfl, rfl, rfl⟩
    · have hR : c.isReady = false := by simpa using hR
      obtain ⟨c', e, k1, k2, k3, k4, k5⟩ := accept c rfl (fun h => by rw [hR] at h; cases h)
      refine ⟨c', by simp only [Clock.step, updatePcr, hv, hR]; exact e, ?_⟩
      have : s.step (.pcr p) = { s with last := Option.some p } := by
        rw [hR] at hr
        unfold Sight.step
        cases hl : s.last with
        | none => rfl
        | some x =>
          cases ht : s.time with
          | false => rfl
          | true => rw [hl, ht] at hr; simp at hr
      rw [this]
      refine ⟨?_, by simp, by rw [k4, h.time], by rw [k5, h.jumps]⟩
      intro y hy; cases hy; exact ⟨k1, k2, k3, v1, v2⟩

private theorem Sees.run {c : Clock} {s : Sight} (h : Sees c s) (ops : List Clock.Op)
    (hv : ∀ p, .pcr p ∈ ops → 0 ≤ p ∧ p < 2576980377600) :
    ∃ c', c.run ops = .ok c' ∧ Sees c' (ops.foldl Sight.step s) := by
  induction ops generalizing c s with
  | nil => exact ⟨c, rfl, h⟩
  | cons o os ih =>
    obtain ⟨c1, e1, h1⟩ := h.step o (by rintro p rfl; exact hv p (by simp))
    obtain ⟨c2, e2, h2⟩ := ih h1 (fun p hp => hv p (by simp [hp]))
    exact ⟨c2, by simp only [Clock.run, e1, ok_bind, e2], h2⟩

/-- **C17**, all calls: after any calls with valid PCRs the clock is ready exactly if it follows a PCR and has the
time, as told by `sight`.  So a jump right after a resynchronisation invalidates the clock
again if it was invalidated by one before, until a PCR step below one second. -/
theorem C17_any (ops : List Clock.Op) (hv : ∀ p, .pcr p ∈ ops → 0 ≤ p ∧ p < 2 ^ 33 * 300) :
    ∃ c, ({} : Clock).run ops = .ok c ∧ (c.isReady = true ↔ (∃ x, (sight ops).last = some x) ∧ (sight ops).time = true) := by
  rw [two_pow] at hv
  obtain ⟨c, e, h⟩ := Sees.run (c := {}) (s := {}) ⟨by simp, by simp, rfl, rfl⟩ ops hv
  refine ⟨c, e, ?_⟩
  rw [h.isReady]
  simp only [Bool.and_eq_true, Option.isSome_iff_exists]
  rfl

/-- Non-trivial case for C17: the fifth jump invalidates; after a resynchronisation the first one does. -/
example : (∃ c, ({} : Clock).run ([.setPid 1, .pcr 0, .time 0 0] ++ List.replicate 4 (.pcr 100000000)) = .ok c ∧ c.isReady = true) ∧
    (∃ c, ({} : Clock).run ([.setPid 1, .pcr 0, .time 0 0] ++ List.replicate 5 (.pcr 100000000) ++
      [.time 5 0, .pcr 200000000]) = .ok c ∧ c.isReady = true) ∧
    ∃ c, ({} : Clock).run ([.setPid 1, .pcr 0, .time 0 0] ++ List.replicate 5 (.pcr 100000000) ++
      [.time 5 0, .pcr 200000000, .pcr 300000000]) = .ok c ∧ ¬ c.isReady = true := by
  refine ⟨?_, ?_, ?_⟩
  · obtain ⟨c, e, h⟩ := C17_any ([.setPid 1, .pcr 0, .time 0 0] ++ List.replicate 4 (.pcr 100000000)) (by
      intro p hp; simp at hp; omega)
    exact ⟨c, e, h.2 ⟨⟨0, by decide⟩, by decide⟩⟩
  · obtain ⟨c, e, h⟩ := C17_any ([.setPid 1, .pcr 0, .time 0 0] ++ List.replicate 5 (.pcr 100000000) ++
      [.time 5 0, .pcr 200000000]) (by intro p hp; simp at hp; omega)
    exact ⟨c, e, h.2 ⟨⟨200000000, by decide⟩, by decide⟩⟩
  · obtain ⟨c, e, h⟩ := C17_any ([.setPid 1, .pcr 0, .time 0 0] ++ List.replicate 5 (.pcr 100000000) ++
      [.time 5 0, .pcr 200000000, .pcr 300000000]) (by intro p hp; simp at hp; omega)
    exact ⟨c, e, fun k => absurd (h.1 k).2 (by decide)⟩

end Mirakc.Props
