import Verif.Proof.PesPrinter
/-
Properties C60, C81, C82: print-pes.
-/
namespace Mirakc.Props
open Mirakc.Spec Mirakc.Spec.PesPrinter

namespace C60ex

/-- A PMT PID 0x100 for service 1. -/
def pat : Table := { sourcePid := 0, body := .pat { tsId := 7, pmts := ⟨[(1, 0x100)], by decide⟩ } }
/-- A PAT without services. -/
def patEmpty : Table := { sourcePid := 0, body := .pat { tsId := 7, pmts := .empty } }
/-- The clock is on PID 0x110, a stream on PID 0x111. -/
def pmt : Table :=
  { sourcePid := 0x100
    body := .pmt { serviceId := 1, pcrPid := 0x110, streams := ⟨[(0x111, { isVideo := true })], by decide⟩ } }
/-- A TOT. -/
def tot (t : Int) : Table := { sourcePid := 0x14, body := .tot t }
/-- A packet that completes the table. -/
def tab (t : Table) : Input := ⟨{ pid := t.sourcePid }, [t]⟩
/-- A packet with a PCR. -/
def pcr (v : Int) : Input := ⟨{ pid := 0x110, pcr := some v }, []⟩
/-- A packet of the stream with PTS and DTS. -/
def pes (p d : Int) : Input := ⟨{ pid := 0x111, pts := some p, dts := some d }, []⟩

/-- The PCR wraps around after the TOT. -/
def wrap : List Input := [tab pat, tab pmt, pcr 2576980377599, tab (tot 1000000), pcr 26999]

/-- Within the same round. -/
def noWrap : List Input := [tab pat, tab pmt, pcr 27000000, tab (tot 1000000), pcr 27054000, pes 90400 90300]

/-- A run that ended normally, and its last packet. -/
theorem last_of {is : List Input} (P : List (Line Input PesPrinter.Did) → Line Input PesPrinter.Did → Bool)
    (h : checkRun PesPrinter.sink { st := {} } is (fun c h => decide (c = 0) &&
      match h.items.getLast? with
      | some x => P h.items.dropLast x
      | none => false) = true) :
    ∃ h a x, Printed is 0 h ∧ h.items = a ++ [x] ∧ P a x = true := by
  obtain ⟨c, h, hr, hp⟩ := ran_of_check h
  simp only [Bool.and_eq_true, decide_eq_true_eq] at hp
  obtain ⟨h1, h2⟩ := hp
  cases hl : h.items.getLast? with
  | none => rw [hl] at h2; cases h2
  | some x =>
    rw [hl] at h2
    refine ⟨h, h.items.dropLast, x, h1 ▸ hr, ?_, h2⟩
    exact eq_dropLast_append hl

end C60ex

/-- **C60, full statement.**  Packet `x` of a run, and a clock that is in sync: at the TOT
with the time `t` the counter was `x0`, and by now it is `y`.  A PCR of the clock is shown
with the time `t` plus the time since the TOT.  A PTS or DTS of a stream with the clock, for
a counter `z`, is shown with the time for `z` (`z` is a few seconds later than `y`). -/
def C60_claim : Prop :=
  ∀ (is : List Input) (code : Nat) (h : PesPrinter.Hist) (a : List (Line Input PesPrinter.Did))
    (x : Line Input PesPrinter.Did) (b : List (Line Input PesPrinter.Did)) (q : Nat) (t x0 y : Int),
    Printed is code h → h.items = a ++ x :: b → HasClock q (log a) →
    InSync (observed q (sinceClock q (log a ++ [.pkt x.input.packet]))) t x0 y →
    (∀ v, x.input.packet.pid = q → x.input.packet.pcr = some v →
      timesOf x.did.lines (.pcr q) = [some (t + (y - x0) / 27000)]) ∧
    ∀ z, y ≤ z → z < y + 10 * 27000000 → streamClock x.input.packet.pid (log a) = some q →
      (∀ v, x.input.packet.pts = some v → 300 * v = z % (2 ^ 33 * 300) →
        timesOf x.did.lines (.pts x.input.packet.pid) = [some (t + (z - x0) / 27000)]) ∧
      (∀ v, x.input.packet.dts = some v → 300 * v = z % (2 ^ 33 * 300) →
        timesOf x.did.lines (.dts x.input.packet.pid) = [some (t + (z - x0) / 27000)])

/-- **C60** is false: after the PCR has wrapped around, and until the next TOT, the times
shown are 26.5 hours too early. -/
theorem C60_claim_false : ¬ C60_claim := by
  intro hc
  obtain ⟨h, a, x, hr, e, hp⟩ := C60ex.last_of (is := C60ex.wrap)
    (fun a x => decide (x.input = C60ex.pcr 26999 ∧ HasClock 0x110 (log a) ∧
      observed 0x110 (sinceClock 0x110 (log a ++ [.pkt x.input.packet])) =
        calls ([.pcr 2576980377599] ++ [.tot 1000000 0] ++ [2576980404599].map .pcr) ∧
      timesOf x.did.lines (.pcr 0x110) = [some (-94443716)])) (by decide +kernel)
  obtain ⟨h1, h2, h3, h4⟩ := of_decide_eq_true hp
  have := (hc _ _ h a x [] 0x110 1000000 2576980377599 2576980404599 hr e h2
    ⟨[.pcr 2576980377599], [2576980404599], rfl, .inl ⟨⟨by decide, by decide, trivial⟩, rfl, h3⟩⟩).1 26999
    (by rw [h1]; rfl) (by rw [h1]; rfl)
  rw [h4] at this
  exact absurd this (by decide)

/-- **C60, what holds.**  Within the same round of the PCR as the TOT (26.5 hours, from 0 to
the maximum), the time shown for a PCR is `t` plus the time since the TOT, in ms, rounded
down; the time shown for a PTS or DTS is right, too, rounded down if it is after the TOT.
No time is shown as long as there was no TOT since the PMT, and for the PTS and DTS of a
stream without a clock.  Missing from the full statement: times after a wrap-around. -/
theorem C60_times_partial (is : List Input) (code : Nat) (h : PesPrinter.Hist)
    (a : List (Line Input PesPrinter.Did)) (x : Line Input PesPrinter.Did)
    (b : List (Line Input PesPrinter.Did)) (hr : Printed is code h) (he : h.items = a ++ x :: b) :
    (∀ q t x0 y, HasClock q (log a) →
      InSync (observed q (sinceClock q (log a ++ [.pkt x.input.packet]))) t x0 y →
      (∀ v, x.input.packet.pid = q → x.input.packet.pcr = some v → v = y % (2 ^ 33 * 300) →
        y / (2 ^ 33 * 300) = x0 / (2 ^ 33 * 300) →
        timesOf x.did.lines (.pcr q) = [some (t + (y - x0) / 27000)]) ∧
      ∀ z, z / (2 ^ 33 * 300) = x0 / (2 ^ 33 * 300) → streamClock x.input.packet.pid (log a) = some q →
        (∀ v, x.input.packet.pts = some v → 300 * v = z % (2 ^ 33 * 300) →
          timesOf x.did.lines (.pts x.input.packet.pid) = [some (t + (z - x0).tdiv 27000)]) ∧
        (∀ v, x.input.packet.dts = some v → 300 * v = z % (2 ^ 33 * 300) →
          timesOf x.did.lines (.dts x.input.packet.pid) = [some (t + (z - x0).tdiv 27000)])) ∧
    (∀ q, HasClock q (log a) →
      (∀ t l, .time t l ∉ observed q (sinceClock q (log a ++ [.pkt x.input.packet]))) →
      (x.input.packet.pid = q → ∀ tm ∈ timesOf x.did.lines (.pcr q), tm = none) ∧
      (streamClock x.input.packet.pid (log a) = some q →
        (∀ tm ∈ timesOf x.did.lines (.pts x.input.packet.pid), tm = none) ∧
        ∀ tm ∈ timesOf x.did.lines (.dts x.input.packet.pid), tm = none)) ∧
    ((∀ q, streamClock x.input.packet.pid (log a) = some q → ¬ HasClock q (log a)) →
      (∀ tm ∈ timesOf x.did.lines (.pts x.input.packet.pid), tm = none) ∧
      ∀ tm ∈ timesOf x.did.lines (.dts x.input.packet.pid), tm = none) := by
  obtain ⟨s, s', hs⟩ := PesPrinter.printed_spec hr he
  have clock : ∀ q c, HasClock q (log a) →
      ({} : Clock).run (.setPid q :: observed q (sinceClock q (log a ++ [.pkt x.input.packet]))) = .ok c →
      PesPrinter.ClockIs q (log a ++ [.pkt x.input.packet]) c :=
    fun q c h1 h2 => ⟨PesPrinter.hasClock_snoc.2 (.inl h1), h2⟩
  have some_pcr : ∀ q, HasClock q (log a) → ∃ c, PesPrinter.ClockIs q (log a ++ [.pkt x.input.packet]) c := by
    intro q hq
    obtain ⟨s0, k0, _⟩ := Ran.reach hr
    obtain ⟨s1, s2, k1, _, k2, _⟩ := k0.split a x b he
    have hi := PesPrinter.reach_inv k1
    unfold PesPrinter.step at k2
    obtain ⟨s3, k3, _⟩ := bind_eq_ok k2
    obtain ⟨_, _, _, hi3, _⟩ := PesPrinter.handlePcr_spec hi k3
    obtain ⟨c, hc⟩ := hi3.some_clock q (PesPrinter.hasClock_snoc.2 (.inl hq))
    exact ⟨c, (hi3.clocks q c).1 hc⟩
  -- nothing is shown without the stamp
  have absent : ∀ m, (∀ v, (v, m) ∉ stamps (log a) x.input.packet) → timesOf x.did.lines m = [] := by
    intro m hm
    unfold timesOf
    rw [List.map_eq_nil_iff, List.filter_eq_nil_iff]
    intro ln hl hk
    simp only [Bool.and_eq_true, beq_iff_eq, Option.isSome_iff_exists] at hk
    obtain ⟨⟨v, hv⟩, hk⟩ := hk
    apply hm v
    rw [← hs.shown]
    unfold shown
    rw [List.mem_filterMap]
    exact ⟨ln, hl, by simp [hv, hk]⟩
  have no_pts : x.input.packet.pts = none → timesOf x.did.lines (.pts x.input.packet.pid) = [] := by
    intro hn
    apply absent
    intro v hv
    unfold stamps at hv
    split at hv <;> simp [hn] at hv
  have no_dts : x.input.packet.dts = none → timesOf x.did.lines (.dts x.input.packet.pid) = [] := by
    intro hn
    apply absent
    intro v hv
    unfold stamps at hv
    split at hv <;> simp [hn] at hv
  have no_pcr : x.input.packet.pcr = none → timesOf x.did.lines (.pcr x.input.packet.pid) = [] := by
    intro hn
    apply absent
    intro v hv
    unfold stamps at hv
    split at hv <;> simp [hn] at hv
  refine ⟨?_, ?_, ?_⟩
  · intro q t x0 y hq hsync
    obtain ⟨c, hc, hsy, hle⟩ := PesPrinter.inSync (q := q) hsync
    have hcl := clock q c hq hc
    rw [Clock.two_pow]
    refine ⟨?_, ?_⟩
    · rintro v rfl hv rfl hw
      rw [hs.pcr _ c hv hcl, PesPrinter.showTime_synced hsy hw, Int.tdiv_eq_ediv_of_nonneg (by omega)]
    · intro z hz hst
      refine ⟨fun v hv hvz => ?_, fun v hv hvz => ?_⟩
      · rw [hs.pts v c q hv hst hcl, hvz, PesPrinter.showTime_synced hsy hz]
      · rw [hs.dts v c q hv hst hcl, hvz, PesPrinter.showTime_synced hsy hz]
  · intro q hq hno
    obtain ⟨c, hc⟩ := some_pcr q hq
    have hn : ∀ v, PesPrinter.showTime c v = none := fun v => PesPrinter.showTime_no_tot hno v hc.2
    refine ⟨?_, fun hst => ⟨?_, ?_⟩⟩
    · rintro rfl tm htm
      cases hv : x.input.packet.pcr with
      | none => rw [no_pcr hv] at htm; cases htm
      | some v => rw [hs.pcr v c hv hc, hn] at htm; simpa using htm
    · intro tm htm
      cases hv : x.input.packet.pts with
      | none => rw [no_pts hv] at htm; cases htm
      | some v => rw [hs.pts v c q hv hst hc, hn] at htm; simpa using htm
    · intro tm htm
      cases hv : x.input.packet.dts with
      | none => rw [no_dts hv] at htm; cases htm
      | some v => rw [hs.dts v c q hv hst hc, hn] at htm; simpa using htm
  · intro hno
    refine ⟨?_, ?_⟩
    · intro tm htm
      cases hv : x.input.packet.pts with
      | none => rw [no_pts hv] at htm; cases htm
      | some v => rw [hs.no_pts v hv hno] at htm; simpa using htm
    · intro tm htm
      cases hv : x.input.packet.dts with
      | none => rw [no_dts hv] at htm; cases htm
      | some v => rw [hs.no_dts v hv hno] at htm; simpa using htm

/-- Non-trivial case for C60: a PTS 66000 and a DTS 36000 ticks after the PCR that is 2 ms
after the TOT. -/
example : ∃ h a x, Printed C60ex.noWrap 0 h ∧ h.items = a ++ [x] ∧
    timesOf x.did.lines (.pts 0x111) = [some (1000000 + 4)] ∧
    timesOf x.did.lines (.dts 0x111) = [some (1000000 + 3)] := by
  obtain ⟨h, a, x, hr, e, hp⟩ := C60ex.last_of (is := C60ex.noWrap)
    (fun a x => decide (x.input = C60ex.pes 90400 90300 ∧ HasClock 0x110 (log a) ∧
      streamClock 0x111 (log a) = some 0x110 ∧
      observed 0x110 (sinceClock 0x110 (log a ++ [.pkt x.input.packet])) =
        calls ([.pcr 27000000] ++ [.tot 1000000 0] ++ [27054000].map .pcr))) (by decide +kernel)
  obtain ⟨h1, h2, h3, h4⟩ := of_decide_eq_true hp
  have k := ((C60_times_partial _ _ h a x [] hr e).1 0x110 1000000 27000000 27054000 h2
    ⟨[.pcr 27000000], [27054000], rfl, .inl ⟨⟨by decide, by decide, trivial⟩, rfl, h4⟩⟩).2
  have k1 := (k 27120000 (by decide) (by rw [h1]; exact h3)).1 90400 (by rw [h1]; rfl) (by decide)
  have k2 := (k 27090000 (by decide) (by rw [h1]; exact h3)).2 90300 (by rw [h1]; rfl) (by decide)
  rw [h1] at k1 k2
  exact ⟨h, a, x, hr, e, k1, k2⟩

/-- **C60**, also across wrap-arounds: with a clock in sync, the time shown for a PCR, PTS or DTS is that of
the instant in the round of the PCR in which the TOT was received, at which the PCR had the value shown. -/
theorem C60_any (is : List Input) (code : Nat) (h : PesPrinter.Hist)
    (a : List (Line Input PesPrinter.Did)) (x : Line Input PesPrinter.Did)
    (b : List (Line Input PesPrinter.Did)) (hr : Printed is code h) (he : h.items = a ++ x :: b)
    (q : Nat) (t x0 y : Int) (hq : HasClock q (log a))
    (hsync : InSync (observed q (sinceClock q (log a ++ [.pkt x.input.packet]))) t x0 y) :
    (∀ v, x.input.packet.pid = q → x.input.packet.pcr = some v →
      timesOf x.did.lines (.pcr q) = [some (t + (v - x0 % (2 ^ 33 * 300)).tdiv 27000)]) ∧
    (streamClock x.input.packet.pid (log a) = some q →
      (∀ v, x.input.packet.pts = some v →
        timesOf x.did.lines (.pts x.input.packet.pid) = [some (t + (300 * v - x0 % (2 ^ 33 * 300)).tdiv 27000)]) ∧
      (∀ v, x.input.packet.dts = some v →
        timesOf x.did.lines (.dts x.input.packet.pid) = [some (t + (300 * v - x0 % (2 ^ 33 * 300)).tdiv 27000)])) := by
  obtain ⟨s, s', hs⟩ := PesPrinter.printed_spec hr he
  obtain ⟨c, hc, hsy, hle⟩ := PesPrinter.inSync (q := q) hsync
  have hcl : PesPrinter.ClockIs q (log a ++ [.pkt x.input.packet]) c := ⟨PesPrinter.hasClock_snoc.2 (.inl hq), hc⟩
  have hv : ∀ v, PesPrinter.showTime c v = some (t + (v - x0 % (2 ^ 33 * 300)).tdiv 27000) := by
    intro v
    rw [Clock.two_pow]
    unfold PesPrinter.showTime
    rw [hsy.isReady, hsy.time, hsy.base]
    rfl
  refine ⟨?_, fun hst => ⟨fun v k => ?_, fun v k => ?_⟩⟩
  · rintro v rfl k
    rw [hs.pcr _ c k hcl, hv]
  · rw [hs.pts v c q k hst hcl, hv]
  · rw [hs.dts v c q k hst hcl, hv]

/-- Non-trivial case for C60: the PCR has wrapped around since the TOT. -/
example : ∃ h a x, Printed C60ex.wrap 0 h ∧ h.items = a ++ [x] ∧
    timesOf x.did.lines (.pcr 0x110) = [some (1000000 + (26999 - 2576980377599 : Int).tdiv 27000)] := by
  obtain ⟨h, a, x, hr, e, hp⟩ := C60ex.last_of (is := C60ex.wrap)
    (fun a x => decide (x.input = C60ex.pcr 26999 ∧ HasClock 0x110 (log a) ∧
      observed 0x110 (sinceClock 0x110 (log a ++ [.pkt x.input.packet])) =
        calls ([.pcr 2576980377599] ++ [.tot 1000000 0] ++ [2576980404599].map .pcr))) (by decide +kernel)
  obtain ⟨h1, h2, h3⟩ := of_decide_eq_true hp
  exact ⟨h, a, x, hr, e, (C60_any _ _ h a x [] hr e 0x110 1000000 2576980377599 2576980404599 h2
    ⟨[.pcr 2576980377599], [2576980404599], rfl, .inl ⟨⟨by decide, by decide, trivial⟩, rfl, h3⟩⟩).1 26999
      (by rw [h1]; rfl) (by rw [h1]; rfl)⟩

/-- **C81, full statement.**  print-pes never aborts, and shows exactly the PCRs of the
clocks, the PTSs and the DTSs. -/
def C81_claim : Prop :=
  ∀ is : List Input, (∀ i ∈ is, Stamps33 i.packet) → ∃ h, Printed is 0 h ∧
    ∀ a x b, h.items = a ++ x :: b → shown x.did.lines = stamps (log a) x.input.packet

/-- **C81** is false: print-pes aborts when a clock has a PCR that is out of range (an
extension of 300 or more, with the greatest base). -/
theorem C81_claim_false : ¬ C81_claim := by
  intro hc
  obtain ⟨h, hr, _⟩ := hc [C60ex.tab C60ex.pat, C60ex.tab C60ex.pmt, C60ex.pcr (2 ^ 33 * 300)] (by
    intro i hi
    refine ⟨fun v hv => ?_, fun v hv => ?_⟩ <;>
    · simp only [List.mem_cons, List.not_mem_nil, or_false] at hi
      rcases hi with rfl | rfl | rfl <;> simp [C60ex.tab, C60ex.pcr] at hv)
  rw [Printed, ran_iff] at hr
  have : (feedPackets listSource PesPrinter.sink
      ([C60ex.tab C60ex.pat, C60ex.tab C60ex.pmt, C60ex.pcr (2 ^ 33 * 300)].length + 1)
      [C60ex.tab C60ex.pat, C60ex.tab C60ex.pmt, C60ex.pcr (2 ^ 33 * 300)] { st := {} }).toOption.isNone = true := by
    decide +kernel
  rw [hr] at this
  cases this

/-- **C81, what holds.**  If the PCRs are in range, print-pes does not abort.  In any run,
it ends with 0, and shows with every packet its PCR if there is a clock on the PID, then its
PTS, then its DTS, in units of the PCR, and nothing else.  Missing from the full statement:
PCRs that are out of range. -/
theorem C81_stamps_partial (is : List Input) :
    ((∀ i ∈ is, Stamps33 i.packet ∧ PcrInRange i.packet) →
      ∀ (τ : Type) (src : Source Input τ) (t : τ) (fuel : Nat), Yields src t is → is.length < fuel →
        ∃ r, feedPackets src PesPrinter.sink fuel t { st := {} } = .ok r) ∧
    ∀ (code : Nat) (h : PesPrinter.Hist), Printed is code h → code = 0 ∧
      ∀ a x b, h.items = a ++ x :: b → shown x.did.lines = stamps (log a) x.input.packet := by
  refine ⟨fun hin τ src t fuel hy hl => ?_, fun code h hr => ⟨?_, fun a x b e => ?_⟩⟩
  · refine ran_total PesPrinter.Sane (fun s hs i hi => ?_) (fun s _ => ⟨s, rfl⟩) ?_ src t fuel hy hl
    · exact PesPrinter.step_total hs (hin i hi).2 (hin i hi).1
    · intro pid c hf
      simp [OMap.find?_empty] at hf
  · obtain ⟨s, _, _, h3, _⟩ := Ran.reach hr
    exact h3
  · obtain ⟨s, s', hs⟩ := PesPrinter.printed_spec hr e
    exact hs.shown

/-- Non-trivial case for C81: a packet with PTS and DTS. -/
example : ∃ h a x, Printed C60ex.noWrap 0 h ∧ h.items = a ++ [x] ∧
    shown x.did.lines = [(27120000, .pts 0x111), (27090000, .dts 0x111)] := by
  obtain ⟨h, a, x, hr, e, hp⟩ := C60ex.last_of (is := C60ex.noWrap)
    (fun a x => decide (stamps (log a) x.input.packet = [(27120000, .pts 0x111), (27090000, .dts 0x111)]))
    (by decide +kernel)
  exact ⟨h, a, x, hr, e, by
    rw [((C81_stamps_partial _).2 _ h hr).2 a x [] e]; exact of_decide_eq_true hp⟩

/-- **C82, full statement.**  print-pes looks at the tables of PAT, CAT, EIT and TOT and at
the PMTs of the latest PAT, and at no others.  It ends with the first packet after which the
latest PAT lists no services, otherwise with the input. -/
def C82_claim : Prop :=
  ∀ (is : List Input) (code : Nat) (h : PesPrinter.Hist), Printed is code h → Followed h ∧ EndsInTime is h

namespace C82ex

/-- A PAT on the PID for the CAT: the services of the PAT are lost. -/
def strange : Table := { sourcePid := 1, body := .pat { tsId := 7, pmts := ⟨[(1, 0x100)], by decide⟩ } }
/-- The PMT is no longer looked at. -/
def lost : List Input := [C60ex.tab C60ex.pat, C60ex.tab strange, C60ex.tab C60ex.pmt]
/-- The services leave. -/
def regular : List Input :=
  [C60ex.tab C60ex.pmt, C60ex.tab C60ex.pat, C60ex.tab C60ex.pmt, C60ex.tab C60ex.patEmpty, C60ex.tab C60ex.pmt]

end C82ex

/-- **C82** is false: after a PAT on another PID, e.g. that for the CAT, the PMTs are no
longer looked at, though print-pes lists the services of that PAT. -/
theorem C82_claim_false : ¬ C82_claim := by
  intro hc
  obtain ⟨h, a, x, hr, e, hp⟩ := C60ex.last_of (is := C82ex.lost)
    (fun a x => decide (x.input = C60ex.tab C60ex.pmt ∧ x.did.tables = [] ∧
      (latestPat (received (a.map (·.input)))).bind (·.pmts.find? 1) = some 0x100)) (by decide +kernel)
  obtain ⟨h1, h2, h3⟩ := of_decide_eq_true hp
  have := ((hc _ _ h hr).1 a x [] e).1 (.inr (by
    cases hl : latestPat (received (a.map (·.input))) with
    | none => rw [hl] at h3; cases h3
    | some pat => exact ⟨pat, rfl, 1, by rw [hl] at h3; rw [h1]; exact h3⟩))
  rw [h1, h2] at this
  revert this
  decide

/-- **C82, what holds.**  If PATs come on their PID, and the PMTs are on other PIDs than
those of PAT, CAT, EIT and TOT: print-pes looks at the tables of PAT, CAT, EIT and TOT and at
the PMTs of the latest PAT, and at no others.  It ends with the first packet after which the
latest PAT lists no services, otherwise with the input.  Missing from the full statement: PATs
and PMTs on unusual PIDs. -/
theorem C82_followed_partial (is : List Input) (hreg : Regular is) (code : Nat) (h : PesPrinter.Hist)
    (hr : Printed is code h) : Followed h ∧ EndsInTime is h := by
  obtain ⟨s, h1, _, _, h4, h5⟩ := Ran.reach hr
  obtain ⟨rest, hrest⟩ := h4
  have hreg' : Regular (h.items.map (·.input)) := by
    rw [← hrest] at hreg
    exact (PesPrinter.regular_append.1 hreg).1
  have at_ : ∀ a x b, h.items = a ++ x :: b → ∃ s', PesPrinter.Follow s' (received ((a ++ [x]).map (·.input))) ∧
      (Interesting (received (a.map (·.input))) x.input.packet.pid → x.did.tables = received [x.input]) ∧
      (¬ Interesting (received (a.map (·.input))) x.input.packet.pid → x.did.tables = []) ∧
      x.more = !s'.done := by
    intro a x b e
    obtain ⟨s1, s2, k1, _, k2, _⟩ := h1.split a x b e
    rw [e, List.map_append, List.map_cons,
      show x.input :: b.map (·.input) = [x.input] ++ b.map (·.input) from rfl, PesPrinter.regular_append,
      PesPrinter.regular_append] at hreg'
    obtain ⟨j1, j2, j3, j4⟩ := PesPrinter.step_follow (PesPrinter.reach_follow k1 hreg'.1) hreg'.2.1 k2
    refine ⟨s2, ?_, j2, j3, j4⟩
    rw [List.map_append, received_append]; exact j1
  -- while print-pes goes on, there are services
  have going : ∀ l tl, h.items = l ++ tl → (∀ x ∈ l, x.more = true) → ∀ k,
      Served (received ((l.map (·.input)).take k)) := by
    intro l tl e hm k pat hp
    rw [← List.map_take] at hp
    rcases List.eq_nil_or_concat (l.take k) with hn | ⟨a, x, hx⟩
    · rw [hn] at hp; cases hp
    · rw [List.concat_eq_append] at hx
      have el : h.items = a ++ x :: (l.drop k ++ tl) := by
        rw [e]
        conv => lhs; rw [← List.take_append_drop k l, hx]
        simp
      obtain ⟨s', f, _, _, hmore⟩ := at_ a x _ el
      have hxl : x ∈ l := List.mem_of_mem_take (i := k) (by rw [hx]; simp)
      rw [hm x hxl] at hmore
      have hd : s'.done = false := by cases hd : s'.done <;> simp [hd] at hmore ⊢
      rw [hx] at hp
      have hnot : ¬ ∀ sid, pat.pmts.find? sid = none := fun hall => by
        have := f.done.2 ⟨pat, hp, hall⟩
        rw [hd] at this; cases this
      obtain ⟨sid, hsid⟩ := Classical.not_forall.1 hnot
      cases hf : pat.pmts.find? sid with
      | none => exact absurd hf hsid
      | some pid => exact ⟨sid, pid, hf⟩
  refine ⟨fun a x b e => ?_, ?_⟩
  · obtain ⟨_, _, k1, k2, _⟩ := at_ a x b e
    exact ⟨k1, k2⟩
  · rcases h5 with ⟨h5, h6⟩ | ⟨x, h5, h6⟩
    · left
      refine ⟨h5, ?_⟩
      rw [← h5]
      exact going h.items [] (by simp) h6
    · right
      have e : h.items = h.items.dropLast ++ [x] := eq_dropLast_append h5
      obtain ⟨_, _, _, hall, _⟩ := h1.split _ x [] e
      refine ⟨h.items.dropLast.map (·.input), x.input, rest, ?_, ?_, going _ [x] e hall, ?_⟩
      · rw [← hrest]
        conv => lhs; rw [e]
        simp
      · conv => lhs; rw [e]
        simp
      · obtain ⟨s', f, _, _, hmore⟩ := at_ _ x [] e
        rw [h6] at hmore
        have hd : s'.done = true := by cases hd : s'.done <;> simp [hd] at hmore ⊢
        obtain ⟨pat, hp, hall⟩ := f.done.1 hd
        rw [List.map_append] at hp
        intro hs
        obtain ⟨sid, pid, hk⟩ := hs pat hp
        rw [hall sid] at hk; cases hk

/-- Non-trivial case for C82: the PMT is looked at only after the PAT, and print-pes ends
when there are no more services. -/
example : Regular C82ex.regular ∧ ∃ h, Printed C82ex.regular 0 h ∧
    h.items.map (·.did.tables) = [[], [C60ex.pat], [C60ex.pmt], [C60ex.patEmpty]] := by
  refine ⟨?_, ?_⟩
  · intro t ht pid pat hp
    have hm : t ∈ [C60ex.pmt, C60ex.pat, C60ex.pmt, C60ex.patEmpty, C60ex.pmt] := ht
    simp only [List.mem_cons, List.not_mem_nil, or_false] at hm
    rcases hm with rfl | rfl | rfl | rfl | rfl
    · cases hp
    · cases hp
      refine ⟨rfl, fun sid p hf => ?_⟩
      rw [OMap.find?_iff] at hf
      simp only [List.mem_singleton, Prod.mk.injEq] at hf
      rw [hf.2]; decide
    · cases hp
    · cases hp
      exact ⟨rfl, fun sid p hf => by cases hf⟩
    · cases hp
  · obtain ⟨c, h, hr, hp⟩ := ran_of_check (snk := PesPrinter.sink) (s0 := { st := {} })
      (is := C82ex.regular) (P := fun c h => decide (c = 0 ∧
        h.items.map (·.did.tables) = [[], [C60ex.pat], [C60ex.pmt], [C60ex.patEmpty]]))
      (by decide +kernel)
    obtain ⟨h1, h2⟩ := of_decide_eq_true hp
    exact ⟨h, h1 ▸ hr, h2⟩

end Mirakc.Props
