import Verif.Spec.PesPrinter
import Verif.Proof.History
import Verif.Proof.OMap
import Verif.Proof.Received
import Verif.Proof.Clock
/-
The state of print-pes as a function of what was received.
-/
set_option linter.unusedSimpArgs false
namespace Mirakc.PesPrinter
open Mirakc.Spec Mirakc.Spec.PesPrinter

theorem none_of_not {α : Type} {x : Option α} (h : ∀ a, x ≠ some a) : x = none := by
  cases x with
  | none => rfl
  | some a => exact absurd rfl (h a)

theorem pmtOf_some {e : PEv} {x : Pmt} : pmtOf e = some x ↔
    ∃ t : Table, e = .tab t ∧ t.valid = true ∧ t.body = .pmt x := by
  constructor
  · intro h
    unfold pmtOf at h
    split at h
    · cases h; exact ⟨_, rfl, rfl, rfl⟩
    · cases h
  · rintro ⟨⟨a, b, c, d⟩, rfl, h1, h2⟩
    simp only at h1 h2
    subst h1 h2
    rfl

theorem totOf_some {e : PEv} {x : Int} : totOf e = some x ↔
    ∃ t : Table, e = .tab t ∧ t.valid = true ∧ t.body = .tot x := by
  constructor
  · intro h
    unfold totOf at h
    split at h
    · cases h; exact ⟨_, rfl, rfl, rfl⟩
    · cases h
  · rintro ⟨⟨a, b, c, d⟩, rfl, h1, h2⟩
    simp only at h1 h2
    subst h1 h2
    rfl

theorem pmtOf_pkt (p : Packet) : pmtOf (.pkt p) = none := rfl
theorem totOf_pkt (p : Packet) : totOf (.pkt p) = none := rfl

theorem names_none {pid : Nat} {e : PEv} (h : pmtOf e = none) : ¬ NamesClock pid e := by
  simp [NamesClock, h]

theorem hasClock_snoc {pid : Nat} {l : List PEv} {e : PEv} :
    HasClock pid (l ++ [e]) ↔ HasClock pid l ∨ NamesClock pid e := by
  unfold HasClock
  constructor
  · rintro ⟨x, hx, hn⟩
    rcases List.mem_append.1 hx with hx | hx
    · exact .inl ⟨x, hx, hn⟩
    · rw [List.mem_singleton] at hx; exact .inr (hx ▸ hn)
  · rintro (⟨x, hx, hn⟩ | hn)
    · exact ⟨x, by simp [hx], hn⟩
    · exact ⟨e, by simp, hn⟩

theorem sinceClock_names {pid : Nat} {l : List PEv} {e : PEv} (h : NamesClock pid e) :
    sinceClock pid (l ++ [e]) = [] := by
  simp [sinceClock, h]

theorem sinceClock_not {pid : Nat} {l : List PEv} {e : PEv} (h : ¬ NamesClock pid e) :
    sinceClock pid (l ++ [e]) = sinceClock pid l ++ [e] := by
  simp [sinceClock, h]

theorem observed_append {pid : Nat} (a b : List PEv) :
    observed pid (a ++ b) = observed pid a ++ observed pid b := by
  simp [observed]

theorem streamClock_snoc {pid : Nat} {l : List PEv} {e : PEv} :
    streamClock pid (l ++ [e]) = match pmtOf e with
      | some x => if (x.streams.find? pid).isSome then some x.pcrPid else streamClock pid l
      | none => streamClock pid l := by
  unfold streamClock
  rw [List.filterMap_append, List.filter_append]
  cases h : pmtOf e with
  | none => simp [h]
  | some x =>
    simp only [List.filterMap_cons, List.filterMap_nil, h, List.filter_cons, List.filter_nil]
    split <;> simp

/-- The clock on a PID after the log. -/
def ClockIs (pid : Nat) (l : List PEv) (c : Clock) : Prop :=
  HasClock pid l ∧ ({} : Clock).run (.setPid pid :: observed pid (sinceClock pid l)) = .ok c

/-- What the state means. -/
structure Inv (s : St) (l : List PEv) : Prop where
  clocks : ∀ pid c, s.clockMap.find? pid = some c ↔ ClockIs pid l c
  some_clock : ∀ pid, HasClock pid l → ∃ c, s.clockMap.find? pid = some c
  streams : ∀ pid, s.streamMap.find? pid = streamClock pid l

theorem inv_init : Inv {} [] := by
  refine ⟨?_, ?_, ?_⟩
  · intro pid c
    simp [OMap.find?_empty, ClockIs, HasClock]
  · rintro pid ⟨e, he, _⟩; simp at he
  · intro pid; rfl

/-- The clocks and streams are all that matters. -/
theorem Inv.congr {s s' : St} {l : List PEv} (h : Inv s l) (h1 : s'.clockMap = s.clockMap)
    (h2 : s'.streamMap = s.streamMap) : Inv s' l :=
  ⟨by rw [h1]; exact h.clocks, by rw [h1]; exact h.some_clock, by rw [h2]; exact h.streams⟩

/-- An event that is neither a PMT nor observed by the clock. -/
theorem clockIs_same {pid : Nat} {l : List PEv} {e : PEv} {c : Clock} (h : pmtOf e = none)
    (ho : observed pid [e] = []) : ClockIs pid (l ++ [e]) c ↔ ClockIs pid l c := by
  unfold ClockIs
  rw [hasClock_snoc, sinceClock_not (names_none h), observed_append, ho, List.append_nil]
  simp [names_none h]

theorem run_snoc (c : Clock) (ops : List Clock.Op) (o : Clock.Op) {c' : Clock} :
    c.run (ops ++ [o]) = .ok c' ↔ ∃ c1, c.run ops = .ok c1 ∧ c1.step o = .ok c' := by
  rw [Clock.run_append]
  cases h : c.run ops with
  | error f => simp
  | ok c1 =>
    simp only [ok_bind, Clock.run, Except.ok.injEq, exists_eq_left']
    cases h2 : c1.step o with
    | error f => simp
    | ok c2 => simp

/-- An event observed by the clock. -/
theorem clockIs_op {pid : Nat} {l : List PEv} {e : PEv} {c : Clock} {o : Clock.Op} (h : pmtOf e = none)
    (ho : observed pid [e] = [o]) :
    ClockIs pid (l ++ [e]) c ↔ ∃ c1, ClockIs pid l c1 ∧ c1.step o = .ok c := by
  unfold ClockIs
  rw [hasClock_snoc, sinceClock_not (names_none h), observed_append, ho,
    show Clock.Op.setPid pid :: (observed pid (sinceClock pid l) ++ [o]) =
      (Clock.Op.setPid pid :: observed pid (sinceClock pid l)) ++ [o] from rfl, run_snoc]
  simp only [names_none h, or_false]
  constructor
  · rintro ⟨h1, c1, h2, h3⟩; exact ⟨c1, ⟨h1, h2⟩, h3⟩
  · rintro ⟨c1, ⟨h1, h2⟩, h3⟩; exact ⟨h1, c1, h2, h3⟩

theorem clockIs_unique {pid : Nat} {l : List PEv} {a b : Clock} (ha : ClockIs pid l a) (hb : ClockIs pid l b) :
    a = b := Except.ok.inj (ha.2.symm.trans hb.2)

/-! ### Printing -/

theorem formatPcr_ok {v : Int} (h : isValidPcr v = true) : ∃ r, formatPcr v = .ok r := by
  unfold formatPcr
  rw [h]
  simp only [assert_true, ok_bind]
  exact ⟨_, rfl⟩

theorem formatPcr_valid {v : Int} {r} (h : formatPcr v = .ok r) : isValidPcr v = true := by
  unfold formatPcr at h
  obtain ⟨_, h1, _⟩ := bind_eq_ok h
  exact assert_ok h1

/-- The time shown by a clock. -/
def showTime (c : Clock) (v : Int) : Option Int :=
  if c.isReady then some (c.baseline.time + (v - c.baseline.pcr).tdiv 27000) else none

theorem printPcr_ok {s : St} {pcrPid : Nat} {v : Int} {m : Msg} {lb : Option Kind} (hv : isValidPcr v = true) :
    printPcr s pcrPid v m lb = .ok { s with out := s.out ++
      [{ time := (s.clockMap.find? pcrPid).bind (showTime · v), pcr := some v, msg := m, label := lb }] } := by
  obtain ⟨r, hr⟩ := formatPcr_ok hv
  unfold printPcr
  cases hc : s.clockMap.find? pcrPid with
  | none => simp [hr]
  | some c =>
    simp only [Option.bind_some, showTime]
    by_cases hrd : c.isReady = true
    · have hb : c.baseline.isReady = true := by
        unfold Clock.isReady at hrd
        simp only [Bool.and_eq_true] at hrd
        exact hrd.2
      simp only [hrd, if_true, Clock.pcrToTime, hv, assert_true, ok_bind, ClockBaseline.pcrToTime, hb, hr]
      rfl
    · simp [hrd, hr]

theorem printPcr_valid {s s' : St} {pcrPid : Nat} {v : Int} {m : Msg} {lb : Option Kind}
    (h : printPcr s pcrPid v m lb = .ok s') :
    isValidPcr v = true := by
  unfold printPcr at h
  split at h
  · split at h
    · obtain ⟨_, _, h⟩ := bind_eq_ok h
      obtain ⟨_, h1, _⟩ := bind_eq_ok h
      exact formatPcr_valid h1
    · obtain ⟨_, h1, _⟩ := bind_eq_ok h
      exact formatPcr_valid h1
  · obtain ⟨_, h1, _⟩ := bind_eq_ok h
    exact formatPcr_valid h1

/-- What a PTS or DTS does. -/
theorem handleStamp_spec {s s' : St} {pid : Nat} {v : Option Int} {m : Msg} {l : List PEv} (hi : Inv s l)
    (h : handleStamp s pid v m = .ok s') :
    ∃ ls, s' = { s with out := s.out ++ ls } ∧ shown ls = v.toList.map (300 * ·, m) ∧
      (∀ ln ∈ ls, ln.msg = m) ∧
      (∀ x c pcrPid, v = some x → streamClock pid l = some pcrPid → ClockIs pcrPid l c →
        ls.map (·.time) = [showTime c (300 * x)]) ∧
      ∀ x, v = some x → (∀ q, streamClock pid l = some q → ¬ HasClock q l) → ls.map (·.time) = [none] := by
  unfold handleStamp at h
  cases v with
  | none => cases h; exact ⟨[], by simp, rfl, by simp, by simp, by simp⟩
  | some x =>
    simp only at h
    obtain ⟨_, h1, h2⟩ := bind_eq_ok h
    clear h
    have hv := assert_ok h1
    have e300 : x * maxPcrExt = 300 * x := by rw [Int.mul_comm]; rfl
    rw [e300] at h2 hv
    cases hs : s.streamMap.find? pid with
    | some pcrPid =>
      rw [hs] at h2
      simp only at h2
      rw [printPcr_ok hv] at h2
      cases h2
      refine ⟨_, rfl, by simp [shown], by simp, ?_, ?_⟩
      · intro y c pcrPid' hy hst hc
        cases hy
        rw [hi.streams, hst] at hs
        cases hs
        simp [(hi.clocks _ _).2 hc]
      · intro y hy hno
        rw [hi.streams] at hs
        have : s.clockMap.find? pcrPid = none := none_of_not fun c hc => hno _ hs ((hi.clocks _ _).1 hc).1
        simp [this]
    | none =>
      rw [hs] at h2
      simp only at h2
      rw [printPcr_ok hv] at h2
      cases h2
      refine ⟨_, rfl, by simp [shown], by simp, ?_, ?_⟩
      · intro y c pcrPid' hy hst hc
        rw [hi.streams, hst] at hs
        cases hs
      · intro y hy hno
        have : s.clockMap.find? pidNull = none := none_of_not fun c hc => by
          obtain ⟨e, _, he, _⟩ := ((hi.clocks _ _).1 hc).1
          exact he rfl
        simp [this]

/-- What the packet itself does. -/
theorem handlePcr_spec {s s' : St} {p : Packet} {l : List PEv} (hi : Inv s l) (h : handlePcr s p = .ok s') :
    ∃ ls cm, s' = { s with clockMap := cm, out := s.out ++ ls } ∧ Inv s' (l ++ [.pkt p]) ∧
      shown ls = (if HasClock p.pid l then p.pcr.toList.map (·, .pcr p.pid) else []) ∧
      (∀ ln ∈ ls, ln.msg = .pcr p.pid) ∧
      ∀ v c, p.pcr = some v → ClockIs p.pid (l ++ [.pkt p]) c → ls.map (·.time) = [showTime c v] := by
  have stay : ∀ cm, (∀ pid c, cm.find? pid = some c ↔ ClockIs pid (l ++ [.pkt p]) c) →
      (∀ pid, HasClock pid l → ∃ c, cm.find? pid = some c) → ∀ ls,
      Inv { s with clockMap := cm, out := s.out ++ ls } (l ++ [.pkt p]) := by
    intro cm h1 h2 ls
    refine ⟨h1, fun pid hp => ?_, fun pid => ?_⟩
    · rw [hasClock_snoc] at hp
      exact h2 pid (hp.resolve_right (names_none (pmtOf_pkt p)))
    · rw [streamClock_snoc, pmtOf_pkt]; exact hi.streams pid
  unfold handlePcr at h
  split at h
  · next hp =>
    cases h
    refine ⟨[], s.clockMap, by simp, ?_, by simp [shown, hp], by simp, by simp [hp]⟩
    have := stay s.clockMap (fun pid c => by
      rw [clockIs_same (pmtOf_pkt p) (by simp [observed, hp])]; exact hi.clocks pid c) hi.some_clock []
    exact this.congr rfl rfl
  · next v hp =>
    split at h
    · next hc =>
      cases h
      have hno : ¬ HasClock p.pid l := fun k => by
        obtain ⟨c, k⟩ := hi.some_clock _ k
        rw [hc] at k; cases k
      refine ⟨[], s.clockMap, by simp, ?_, by simp [shown, hno], by simp, ?_⟩
      · have := stay s.clockMap (fun pid c => by
          by_cases hpid : p.pid = pid
          · subst hpid
            rw [hc]
            simp only [reduceCtorEq, false_iff]
            intro k
            have := k.1
            rw [hasClock_snoc] at this
            exact hno (this.resolve_right (names_none (pmtOf_pkt p)))
          · rw [clockIs_same (pmtOf_pkt p) (by simp [observed, hpid])]; exact hi.clocks pid c) hi.some_clock []
        exact this.congr rfl rfl
      · intro v' c _ k
        have := k.1
        rw [hasClock_snoc] at this
        exact absurd (this.resolve_right (names_none (pmtOf_pkt p))) hno
    · next c0 hc =>
      obtain ⟨c1, h1, h2⟩ := bind_eq_ok h
      clear h
      have hv := printPcr_valid h2
      rw [printPcr_ok hv] at h2
      cases h2
      have hc0 := (hi.clocks _ _).1 hc
      have hobs : observed p.pid [.pkt p] = [.pcr v] := by simp [observed, hp]
      have hc1 : ClockIs p.pid (l ++ [.pkt p]) c1 := (clockIs_op (pmtOf_pkt p) hobs).2 ⟨c0, hc0, h1⟩
      refine ⟨_, s.clockMap.set p.pid c1, rfl, ?_, ?_, by simp, ?_⟩
      · apply stay
        · intro pid c
          rw [OMap.find?_set]
          by_cases hpid : pid = p.pid
          · subst hpid
            simp only [if_true, Option.some.injEq]
            exact ⟨fun e => e ▸ hc1, fun k => clockIs_unique hc1 k⟩
          · rw [if_neg hpid, clockIs_same (pmtOf_pkt p) (by simp [observed]; intro e; exact absurd e.symm hpid)]
            exact hi.clocks pid c
        · intro pid hk
          rw [OMap.find?_set]
          split
          · exact ⟨_, rfl⟩
          · exact hi.some_clock pid hk
      · rw [if_pos hc0.1]
        simp [shown, hp]
      · intro v' c e k
        rw [hp] at e
        cases e
        cases clockIs_unique hc1 k
        simp [OMap.find?_set]

/-! ### Tables -/

/-- Printing lines without a stamp. -/
def Silent (ls : List PLine) : Prop := ∀ ln ∈ ls, ln.pcr = none

theorem shown_silent {ls : List PLine} (h : Silent ls) : shown ls = [] := by
  unfold shown
  rw [List.filterMap_eq_nil_iff]
  intro ln hl
  simp [h ln hl]

/-- Only lines without a stamp are added, and the clocks and streams stay as they are. -/
def Quiet (s s' : St) : Prop :=
  s'.clockMap = s.clockMap ∧ s'.streamMap = s.streamMap ∧ ∃ ls, s'.out = s.out ++ ls ∧ Silent ls

theorem Quiet.refl (s : St) : Quiet s s := ⟨rfl, rfl, [], by simp, by simp [Silent]⟩

theorem Quiet.trans {a b c : St} (h1 : Quiet a b) (h2 : Quiet b c) : Quiet a c := by
  obtain ⟨e1, e2, l1, e3, q1⟩ := h1
  obtain ⟨f1, f2, l2, f3, q2⟩ := h2
  refine ⟨f1.trans e1, f2.trans e2, l1 ++ l2, by rw [f3, e3, List.append_assoc], ?_⟩
  intro ln hl
  rcases List.mem_append.1 hl with hl | hl
  · exact q1 ln hl
  · exact q2 ln hl

theorem print_quiet (s : St) (m : Msg) : Quiet s (print s m) :=
  ⟨rfl, rfl, [{ msg := m }], rfl, by simp [Silent]⟩

theorem addPmts_quiet (l : List (Nat × Nat)) : ∀ s, Quiet s (addPmts l s) := by
  induction l with
  | nil => exact Quiet.refl
  | cons a l ih =>
    intro s
    obtain ⟨sid, pid⟩ := a
    unfold addPmts
    refine Quiet.trans (print_quiet s (.service sid pid)) (Quiet.trans ?_ (ih _))
    exact ⟨rfl, rfl, [], by simp, by simp [Silent]⟩

theorem printPmts_quiet (l : List (Nat × Nat)) : ∀ s, Quiet s (printPmts l s) := by
  induction l with
  | nil => exact Quiet.refl
  | cons a l ih =>
    intro s
    obtain ⟨sid, pid⟩ := a
    unfold printPmts
    exact Quiet.trans (print_quiet s (.service sid pid)) (ih _)

theorem printEvents_quiet (l : List Event) : ∀ n s, Quiet s (printEvents n l s) := by
  induction l with
  | nil => exact fun _ => Quiet.refl
  | cons a l ih =>
    intro n s
    unfold printEvents
    exact Quiet.trans (print_quiet s _) (ih _ _)

theorem resetStates_quiet (s : St) : Quiet s (resetStates s) := ⟨rfl, rfl, [], by simp [resetStates], by simp [Silent]⟩

theorem handlePat_quiet (s : St) (t : Table) (pat : Pat) : Quiet s (handlePat s t pat) := by
  unfold handlePat
  split
  · exact Quiet.refl s
  · have h1 := (resetStates_quiet s).trans (print_quiet _ (.pat t.version t.sourcePid))
    simp only
    split
    · have h2 := h1.trans (addPmts_quiet pat.pmts.entries _)
      split
      · exact h2.trans ⟨rfl, rfl, [], by simp, by simp [Silent]⟩
      · exact h2
    · exact h1.trans (printPmts_quiet _ _)

theorem handleCat_quiet (s : St) (t : Table) : Quiet s (handleCat s t) := by
  unfold handleCat
  split
  · exact Quiet.refl s
  · exact print_quiet s _

theorem handleEit_quiet (s : St) (t : Table) (eit : Eit) : Quiet s (handleEit s t eit) := by
  unfold handleEit
  split
  · exact Quiet.refl s
  · split
    · exact Quiet.refl s
    · exact (print_quiet s _).trans (printEvents_quiet _ _ _)

theorem addStreams_spec (pcrPid : Nat) (l : List (Nat × Stream)) : ∀ s,
    (addStreams pcrPid l s).clockMap = s.clockMap ∧
    (∀ pid, (addStreams pcrPid l s).streamMap.find? pid =
      if pid ∈ l.map (·.1) then some pcrPid else s.streamMap.find? pid) ∧
    ∃ ls, (addStreams pcrPid l s).out = s.out ++ ls ∧ Silent ls := by
  induction l with
  | nil => intro s; exact ⟨rfl, by simp [addStreams], [], by simp [addStreams], by simp [Silent]⟩
  | cons a l ih =>
    intro s
    obtain ⟨pid, x⟩ := a
    unfold addStreams
    obtain ⟨h1, h2, ls, h3, h4⟩ := ih (print
      { s with streamMap := s.streamMap.set pid pcrPid, kinds := s.kinds.set pid (kindOf x) } (.stream pid (kindOf x) x.streamType))
    refine ⟨h1, fun q => ?_, { msg := .stream pid (kindOf x) x.streamType } :: ls, by rw [h3]; simp [print], ?_⟩
    · rw [h2]
      simp only [print, OMap.find?_set, List.map_cons, List.mem_cons]
      by_cases hq : q ∈ l.map (·.1)
      · simp [hq]
      · by_cases hq2 : q = pid
        · simp [hq2]
        · simp [hq, hq2]
    · intro ln hl
      rcases List.mem_cons.1 hl with rfl | hl
      · rfl
      · exact h4 ln hl

/-- The clocks after a TOT. -/
theorem updateTimes_spec (time : Int) : ∀ (l : List (Nat × Clock)) (m m' : OMap Clock),
    l.Pairwise (fun a b => a.1 < b.1) → updateTimes time l m = .ok m' →
    ∀ pid, (pid ∉ l.map (·.1) → m'.find? pid = m.find? pid) ∧
      ∀ c, (pid, c) ∈ l → ∃ c', c.updateTime time 0 = .ok c' ∧ m'.find? pid = some c' := by
  intro l
  induction l with
  | nil =>
    intro m m' _ h pid
    cases h
    exact ⟨fun _ => rfl, by simp⟩
  | cons a l ih =>
    intro m m' hs h pid
    obtain ⟨q, c0⟩ := a
    unfold updateTimes at h
    obtain ⟨c1, h1, h2⟩ := bind_eq_ok h
    clear h
    obtain ⟨k1, k2⟩ := List.pairwise_cons.1 hs
    obtain ⟨j1, j2⟩ := ih _ _ k2 h2 pid
    have hnot : ∀ y, y ∈ l.map (·.1) → q < y := by
      intro y hy
      obtain ⟨z, hz, rfl⟩ := List.mem_map.1 hy
      exact k1 z hz
    constructor
    · intro hn
      simp only [List.map_cons, List.mem_cons, not_or] at hn
      rw [j1 hn.2, OMap.find?_set, if_neg hn.1]
    · intro c hc
      rcases List.mem_cons.1 hc with e | hc
      · cases e
        refine ⟨c1, h1, ?_⟩
        rw [j1 (fun hm => Nat.lt_irrefl _ (hnot _ hm)), OMap.find?_set, if_pos rfl]
      · exact j2 c hc

/-- A table that is neither PMT nor TOT. -/
theorem inv_quiet {s s' : St} {l : List PEv} {t : Table} (hi : Inv s l) (hq : Quiet s s')
    (h1 : pmtOf (.tab t) = none) (h2 : totOf (.tab t) = none) : Inv s' (l ++ [.tab t]) := by
  obtain ⟨q1, q2, _⟩ := hq
  refine ⟨fun pid c => ?_, fun pid hp => ?_, fun pid => ?_⟩
  · rw [q1, clockIs_same h1 (by simp [observed, h2])]
    exact hi.clocks pid c
  · rw [hasClock_snoc] at hp
    rw [q1]
    exact hi.some_clock pid (hp.resolve_right (names_none h1))
  · rw [q2, streamClock_snoc, h1]
    exact hi.streams pid

theorem handlePmt_inv {s : St} {l : List PEv} {t : Table} {x : Pmt} (hi : Inv s l) (hb : t.body = .pmt x)
    (hv : t.valid = true) : Inv (handlePmt s t x) (l ++ [.tab t]) := by
  have hp : pmtOf (.tab t) = some x := pmtOf_some.2 ⟨t, rfl, hv, hb⟩
  have ht : totOf (.tab t) = none := none_of_not fun y hy => by
    obtain ⟨_, e, _, h2⟩ := totOf_some.1 hy; cases e; rw [hb] at h2; cases h2
  have hnames : ∀ pid, NamesClock pid (.tab t) ↔ pid ≠ 0x1FFF ∧ x.pcrPid = pid := by
    intro pid; simp [NamesClock, hp]
  unfold handlePmt
  rw [if_neg (by simp [hv])]
  simp only
  -- the streams
  have hstreams : ∀ pid, (pid ∈ x.streams.entries.map (·.1)) ↔ (x.streams.find? pid).isSome := by
    intro pid
    rw [show x.streams.entries.map (·.1) = x.streams.keys from rfl, OMap.mem_keys, Option.isSome_iff_exists]
  have hst : ∀ s1 : St, s1.streamMap = s.streamMap → ∀ pid,
      (addStreams x.pcrPid x.streams.entries s1).streamMap.find? pid = streamClock pid (l ++ [.tab t]) := by
    intro s1 hs1 pid
    rw [(addStreams_spec _ _ s1).2.1, hs1, streamClock_snoc, hp, hi.streams]
    by_cases hm : pid ∈ x.streams.entries.map (·.1)
    · rw [if_pos hm]; simp only; rw [if_pos ((hstreams pid).1 hm)]
    · rw [if_neg hm]; simp only; rw [if_neg (fun k => hm ((hstreams pid).2 k))]
  have hother : ∀ pid c, ¬ NamesClock pid (.tab t) → (ClockIs pid (l ++ [.tab t]) c ↔ ClockIs pid l c) := by
    intro pid c hn
    unfold ClockIs
    rw [hasClock_snoc, sinceClock_not hn, observed_append,
      show observed pid [.tab t] = [] by simp [observed, ht], List.append_nil]
    simp [hn]
  by_cases hnull : x.pcrPid = 0x1FFF
  · rw [if_neg (by simp [hnull, pidNull])]
    have hno : ∀ pid, ¬ NamesClock pid (.tab t) := fun pid k => by
      have := (hnames pid).1 k; omega
    refine ⟨fun pid c => ?_, fun pid hp' => ?_, hst _ rfl⟩
    · rw [(addStreams_spec _ _ _).1, hother pid c (hno pid)]
      exact hi.clocks pid c
    · rw [(addStreams_spec _ _ _).1]
      rw [hasClock_snoc] at hp'
      exact hi.some_clock pid (hp'.resolve_right (hno pid))
  · rw [if_pos (by simpa [pidNull] using hnull)]
    refine ⟨fun pid c => ?_, fun pid hp' => ?_, hst _ rfl⟩
    · rw [(addStreams_spec _ _ _).1]
      show (s.clockMap.set x.pcrPid (({} : Clock).setPid x.pcrPid)).find? pid = some c ↔ _
      rw [OMap.find?_set]
      by_cases hpid : pid = x.pcrPid
      · subst hpid
        have hn : NamesClock x.pcrPid (.tab t) := (hnames _).2 ⟨hnull, rfl⟩
        unfold ClockIs
        rw [if_pos rfl, sinceClock_names hn, hasClock_snoc]
        simp [hn, observed, Clock.run, Clock.step]
      · rw [if_neg hpid, hother pid c (fun k => hpid ((hnames pid).1 k).2.symm)]
        exact hi.clocks pid c
    · rw [(addStreams_spec _ _ _).1]
      show ∃ c, (s.clockMap.set x.pcrPid (({} : Clock).setPid x.pcrPid)).find? pid = some c
      rw [OMap.find?_set]
      split
      · exact ⟨_, rfl⟩
      · next hne =>
        rw [hasClock_snoc] at hp'
        exact hi.some_clock pid (hp'.resolve_right fun k => hne ((hnames pid).1 k).2.symm)

theorem handleTot_inv {s s' : St} {l : List PEv} {t : Table} {x : Int} (hi : Inv s l) (hb : t.body = .tot x)
    (hv : t.valid = true) (h : handleTot s t x = .ok s') : Inv s' (l ++ [.tab t]) := by
  have ht : totOf (.tab t) = some x := totOf_some.2 ⟨t, rfl, hv, hb⟩
  have hp : pmtOf (.tab t) = none := none_of_not fun y hy => by
    obtain ⟨_, e, _, h2⟩ := pmtOf_some.1 hy; cases e; rw [hb] at h2; cases h2
  unfold handleTot at h
  rw [if_neg (by simp [hv])] at h
  obtain ⟨m, h1, h2⟩ := bind_eq_ok h
  cases h2
  have hspec := updateTimes_spec x _ _ _ s.clockMap.sorted h1
  have hop : ∀ pid, observed pid [.tab t] = [.time x 0] := by intro pid; simp [observed, ht]
  refine ⟨fun pid c => ?_, fun pid hk => ?_, fun pid => ?_⟩
  · show m.find? pid = some c ↔ _
    rw [clockIs_op hp (hop pid)]
    cases hf : s.clockMap.find? pid with
    | none =>
      have : pid ∉ s.clockMap.entries.map (·.1) := by
        intro hm
        obtain ⟨⟨q, c⟩, hq, rfl⟩ := List.mem_map.1 hm
        exact (OMap.find?_none _ _).1 hf c hq
      rw [(hspec pid).1 this]
      show s.clockMap.find? pid = some c ↔ _
      rw [hf]
      simp only [reduceCtorEq, false_iff]
      rintro ⟨c1, k, _⟩
      rw [(hi.clocks _ _).2 k] at hf; cases hf
    | some c0 =>
      obtain ⟨c', k1, k2⟩ := (hspec pid).2 c0 ((OMap.find?_iff _ _ _).1 hf)
      rw [k2]
      have hc0 := (hi.clocks _ _).1 hf
      simp only [Option.some.injEq]
      constructor
      · rintro rfl; exact ⟨c0, hc0, k1⟩
      · rintro ⟨c1, j1, j2⟩
        cases clockIs_unique hc0 j1
        exact Except.ok.inj (k1.symm.trans j2)
  · show ∃ c, m.find? pid = some c
    rw [hasClock_snoc] at hk
    obtain ⟨c0, hf⟩ := hi.some_clock pid (hk.resolve_right (names_none hp))
    obtain ⟨c', _, k2⟩ := (hspec pid).2 c0 ((OMap.find?_iff _ _ _).1 hf)
    exact ⟨c', k2⟩
  · rw [streamClock_snoc, hp]
    exact hi.streams pid

/-- What a table does. -/
theorem handleTable_spec {s s' : St} {l : List PEv} {t : Table} (hi : Inv s l) (h : handleTable s t = .ok s') :
    Inv s' (l ++ [.tab t]) ∧ ∃ ls, s'.out = s.out ++ ls ∧ Silent ls := by
  have other : (∀ x, t.body ≠ .pmt x) → (∀ x, t.body ≠ .tot x) → Quiet s s' →
      Inv s' (l ++ [.tab t]) ∧ ∃ ls, s'.out = s.out ++ ls ∧ Silent ls := by
    intro h1 h2 hq
    refine ⟨inv_quiet hi hq (none_of_not fun x hx => ?_) (none_of_not fun x hx => ?_), hq.2.2⟩
    · obtain ⟨_, e, _, k⟩ := pmtOf_some.1 hx; cases e; exact h1 x k
    · obtain ⟨_, e, _, k⟩ := totOf_some.1 hx; cases e; exact h2 x k
  have invalid : t.valid = false → s' = s → Inv s' (l ++ [.tab t]) ∧ ∃ ls, s'.out = s.out ++ ls ∧ Silent ls := by
    intro hv e
    subst e
    refine ⟨inv_quiet hi (Quiet.refl _) (none_of_not fun x hx => ?_) (none_of_not fun x hx => ?_),
      (Quiet.refl _).2.2⟩
    · obtain ⟨_, e, k, _⟩ := pmtOf_some.1 hx; cases e; rw [hv] at k; cases k
    · obtain ⟨_, e, k, _⟩ := totOf_some.1 hx; cases e; rw [hv] at k; cases k
  unfold handleTable at h
  split at h
  · next x hb => cases h; exact other (by simp [hb]) (by simp [hb]) (handlePat_quiet s t x)
  · next x hb => cases h; exact other (by simp [hb]) (by simp [hb]) (handleCat_quiet s t)
  · next x hb =>
    cases h
    cases hv : t.valid with
    | false => exact invalid hv (by simp [handlePmt, hv])
    | true =>
      refine ⟨handlePmt_inv hi hb hv, ?_⟩
      unfold handlePmt
      rw [if_neg (by simp [hv])]
      simp only
      split
      all_goals
        obtain ⟨_, _, ls, k1, k2⟩ := addStreams_spec x.pcrPid x.streams.entries _
        refine ⟨{ msg := .pmt x.serviceId x.pcrPid t.version } :: ls, by rw [k1]; simp [print], ?_⟩
        intro ln hl
        rcases List.mem_cons.1 hl with rfl | hl
        · rfl
        · exact k2 ln hl
  · next x hb => cases h; exact other (by simp [hb]) (by simp [hb]) (handleEit_quiet s t x)
  · next x hb =>
    cases hv : t.valid with
    | false =>
      refine invalid hv ?_
      simp [handleTot, hv] at h
      exact h.symm
    | true =>
      refine ⟨handleTot_inv hi hb hv h, ?_⟩
      unfold handleTot at h
      rw [if_neg (by simp [hv])] at h
      obtain ⟨m, _, h2⟩ := bind_eq_ok h
      cases h2
      exact ⟨[{ time := some x, msg := .tot }], rfl, by simp [Silent]⟩
  · next h1 h2 h3 h4 h5 =>
    cases h
    exact other (fun x k => h3 x k) (fun x k => h5 x k) (Quiet.refl _)

/-- What a packet does. -/
structure StepSpec (l : List PEv) (p : Packet) (s s' : St) (d : Did) : Prop where
  inv : Inv s' (l ++ .pkt p :: d.tables.map .tab)
  shown : shown d.lines = stamps l p
  pcr : ∀ v c, p.pcr = some v → ClockIs p.pid (l ++ [.pkt p]) c → timesOf d.lines (.pcr p.pid) = [showTime c v]
  pts : ∀ v c q, p.pts = some v → streamClock p.pid l = some q → ClockIs q (l ++ [.pkt p]) c →
    timesOf d.lines (.pts p.pid) = [showTime c (300 * v)]
  dts : ∀ v c q, p.dts = some v → streamClock p.pid l = some q → ClockIs q (l ++ [.pkt p]) c →
    timesOf d.lines (.dts p.pid) = [showTime c (300 * v)]
  no_pts : ∀ v, p.pts = some v → (∀ q, streamClock p.pid l = some q → ¬ HasClock q l) →
    timesOf d.lines (.pts p.pid) = [none]
  no_dts : ∀ v, p.dts = some v → (∀ q, streamClock p.pid l = some q → ¬ HasClock q l) →
    timesOf d.lines (.dts p.pid) = [none]

theorem timesOf_append (a b : List PLine) (m : Msg) : timesOf (a ++ b) m = timesOf a m ++ timesOf b m := by
  simp [timesOf]

theorem timesOf_silent {a : List PLine} (h : Silent a) (m : Msg) : timesOf a m = [] := by
  unfold timesOf
  rw [List.map_eq_nil_iff, List.filter_eq_nil_iff]
  intro x hx
  simp [h x hx]

theorem timesOf_other {a : List PLine} {m m' : Msg} (h : ∀ x ∈ a, x.msg = m') (hne : m' ≠ m) :
    timesOf a m = [] := by
  unfold timesOf
  rw [List.map_eq_nil_iff, List.filter_eq_nil_iff]
  intro x hx
  simp [h x hx, hne]

theorem timesOf_own {a : List PLine} {m : Msg} {t : Option Int} {v : Int} (h : ∀ x ∈ a, x.msg = m)
    (ht : a.map (·.time) = [t]) (hs : Spec.PesPrinter.shown a = [(v, m)]) : timesOf a m = [t] := by
  cases a with
  | nil => simp at ht
  | cons x a =>
    cases a with
    | cons y a => simp at ht
    | nil =>
      simp only [List.map_cons, List.map_nil, List.cons.injEq, and_true] at ht
      unfold timesOf
      unfold Spec.PesPrinter.shown at hs
      simp only [List.filterMap_cons, List.filterMap_nil] at hs
      cases hp : x.pcr with
      | none => simp [hp] at hs
      | some w => simp [hp, h x (by simp), ht]

theorem shown_append (a b : List PLine) : Spec.PesPrinter.shown (a ++ b) =
    Spec.PesPrinter.shown a ++ Spec.PesPrinter.shown b := by simp [Spec.PesPrinter.shown]

theorem step_spec {s s' : St} {l : List PEv} {i : Input} {d : Did} {more : Bool} (hi : Inv s l)
    (h : step s i = .ok (s', d, more)) : StepSpec l i.packet s s' d ∧ more = !s'.done := by
  unfold step at h
  obtain ⟨s1, h1, h⟩ := bind_eq_ok h
  obtain ⟨s2, h2, h⟩ := bind_eq_ok h
  obtain ⟨s3, h3, h⟩ := bind_eq_ok h
  obtain ⟨⟨s4, log⟩, h4, h⟩ := bind_eq_ok h
  simp only [Except.ok.injEq, Prod.mk.injEq] at h
  obtain ⟨rfl, rfl, rfl⟩ := h
  obtain ⟨l1, cm, e1, hi1, sh1, m1, t1⟩ := handlePcr_spec hi h1
  obtain ⟨l2, e2, sh2, m2, t2, n2⟩ := handleStamp_spec hi1 h2
  have hi2 : Inv s2 (l ++ [.pkt i.packet]) := hi1.congr (by rw [e2]) (by rw [e2])
  obtain ⟨l3, e3, sh3, m3, t3, n3⟩ := handleStamp_spec hi2 h3
  have hi3 : Inv s3 (l ++ [.pkt i.packet]) := hi2.congr (by rw [e3]) (by rw [e3])
  have hfeed : Inv s4 (l ++ [.pkt i.packet] ++ log.map .tab) ∧ ∃ ls, s4.out = s3.out ++ ls ∧ Silent ls := by
    have := feedDemux_inv (watched := St.demux) (handle := handleTable) (pid := i.packet.pid)
      (fun s rs => Inv s (l ++ [.pkt i.packet] ++ rs.map .tab) ∧ ∃ ls, s.out = s3.out ++ ls ∧ Silent ls)
      (by
        rintro a t b rs ⟨k1, ls, k2, k3⟩ _ _ he
        obtain ⟨j1, ls', j2, j3⟩ := handleTable_spec k1 he
        refine ⟨by simpa using j1, ls ++ ls', by rw [j2, k2, List.append_assoc], ?_⟩
        intro ln hl
        rcases List.mem_append.1 hl with hl | hl
        · exact k3 ln hl
        · exact j3 ln hl)
      i.tables s3 s4 log [] ⟨by simpa using hi3, [], by simp, by simp [Silent]⟩ h4
    simpa using this
  obtain ⟨hi4, l4, o4, q4⟩ := hfeed
  have hout : s4.out = s.out ++ (l1 ++ l2 ++ l3 ++ l4) := by
    rw [o4, e3, e2, e1]; simp [List.append_assoc]
  have hlines : s4.out.drop s.out.length = l1 ++ l2 ++ l3 ++ l4 := by rw [hout, List.drop_left]
  have hst : ∀ pid, streamClock pid (l ++ [.pkt i.packet]) = streamClock pid l := by
    intro pid; rw [streamClock_snoc, pmtOf_pkt]
  have hno : (∀ q, streamClock i.packet.pid l = some q → ¬ HasClock q l) →
      ∀ q, streamClock i.packet.pid (l ++ [.pkt i.packet]) = some q → ¬ HasClock q (l ++ [.pkt i.packet]) := by
    intro k q hq hc
    rw [hst] at hq
    rw [hasClock_snoc] at hc
    exact k q hq (hc.resolve_right (names_none (pmtOf_pkt _)))
  refine ⟨⟨?_, ?_, ?_, ?_, ?_, ?_, ?_⟩, ?_⟩
  · simpa using hi4
  · show Spec.PesPrinter.shown (s4.out.drop s.out.length) = _
    rw [hlines, shown_append, shown_append, shown_append, sh1, sh2, sh3, shown_silent q4, List.append_nil]
    rfl
  · intro v c hv hc
    show timesOf (s4.out.drop s.out.length) _ = _
    have hs1 : Spec.PesPrinter.shown l1 = [(v, .pcr i.packet.pid)] := by
      have := hc.1
      rw [hasClock_snoc] at this
      rw [sh1, if_pos (this.resolve_right (names_none (pmtOf_pkt _))), hv]; rfl
    rw [hlines, timesOf_append, timesOf_append, timesOf_append, timesOf_own m1 (t1 v c hv hc) hs1,
      timesOf_other m2 (by simp), timesOf_other m3 (by simp), timesOf_silent q4]
    rfl
  · intro v c q hv hq hc
    show timesOf (s4.out.drop s.out.length) _ = _
    rw [hlines, timesOf_append, timesOf_append, timesOf_append, timesOf_other m1 (by simp),
      timesOf_own m2 (t2 v c q hv (by rw [hst]; exact hq) hc) (by rw [sh2, hv]; rfl),
      timesOf_other m3 (by simp), timesOf_silent q4]
    rfl
  · intro v c q hv hq hc
    show timesOf (s4.out.drop s.out.length) _ = _
    rw [hlines, timesOf_append, timesOf_append, timesOf_append, timesOf_other m1 (by simp),
      timesOf_other m2 (by simp),
      timesOf_own m3 (t3 v c q hv (by rw [hst]; exact hq) hc) (by rw [sh3, hv]; rfl), timesOf_silent q4]
    rfl
  · intro v hv hq
    show timesOf (s4.out.drop s.out.length) _ = _
    rw [hlines, timesOf_append, timesOf_append, timesOf_append, timesOf_other m1 (by simp),
      timesOf_own m2 (n2 v hv (hno hq)) (by rw [sh2, hv]; rfl), timesOf_other m3 (by simp), timesOf_silent q4]
    rfl
  · intro v hv hq
    show timesOf (s4.out.drop s.out.length) _ = _
    rw [hlines, timesOf_append, timesOf_append, timesOf_append, timesOf_other m1 (by simp),
      timesOf_other m2 (by simp), timesOf_own m3 (n3 v hv (hno hq)) (by rw [sh3, hv]; rfl), timesOf_silent q4]
    rfl
  · cases s4.done <;> rfl

theorem log_snoc (items : List (Line Input Did)) (x : Line Input Did) :
    log (items ++ [x]) = log items ++ .pkt x.input.packet :: x.did.tables.map .tab := by
  simp [log]

theorem reach_inv {items : List (Line Input Did)} {s : St} (h : Reach step {} items s) : Inv s (log items) := by
  induction h with
  | nil => exact inv_init
  | @snoc items s i s' a more h1 h2 h3 ih =>
    rw [log_snoc]
    exact (step_spec ih h3).1.inv

/-- Every packet of a run. -/
theorem printed_spec {is : List Input} {code : Nat} {h : Hist} (hr : Printed is code h)
    {a : List (Line Input Did)} {x : Line Input Did} {b : List (Line Input Did)} (e : h.items = a ++ x :: b) :
    ∃ s s', StepSpec (log a) x.input.packet s s' x.did := by
  obtain ⟨s, h1, _⟩ := Ran.reach hr
  obtain ⟨s1, s2, k1, _, k2, _⟩ := h1.split a x b e
  exact ⟨s1, s2, (step_spec (reach_inv k1) k2).1⟩

/-! ### The clocks -/

theorem inSync {q : Nat} {ops : List Clock.Op} {t x0 x : Int} (h : InSync ops t x0 x) :
    ∃ c, ({} : Clock).run (.setPid q :: ops) = .ok c ∧ Clock.Synced c t x0 x ∧ x0 ≤ x := by
  obtain ⟨before, after, hx, ⟨hs, h0, rfl⟩ | ⟨hs, h0, rfl⟩⟩ := h
  · obtain ⟨c1, e1, d, _⟩ := (Clock.setPid_fresh {} q).history before hs.left
    obtain ⟨x1, hx1, s1⟩ : ∃ x, (counters before).getLast? = some x ∧ Clock.Seen c1 x := by
      rcases d with ⟨d, _⟩ | d
      · rw [d] at h0; simp at h0
      · exact d
    rw [h0] at hx1; cases hx1
    obtain ⟨c2, e2, s2, _⟩ := s1.tot t 0
    obtain ⟨c3, x3, e3, l3, s3, o3⟩ := s2.pcrs (by omega) after (hs.from_last h0)
    rw [hx] at l3; cases l3
    refine ⟨c3, ?_, s3, o3⟩
    simp only [Clock.calls_append, calls, Clock.run, Clock.step, Clock.run_append, ok_bind, e1, e2, e3]
  · have h1 : counters (before ++ [.tot t 0]) = [] := by simp [Clock.counters_append, h0, counters]
    obtain ⟨c1, e1, d, _⟩ :=
      (Clock.setPid_fresh {} q).history (before ++ [.tot t 0]) (by rw [h1]; trivial)
    rcases d with ⟨_, f1, k⟩ | ⟨y, hy, _⟩
    · obtain ⟨k1, k2⟩ := k t 0 (by simp)
      obtain ⟨c2, e2, _, s2, _⟩ := f1.pcr x0
      have s2 := s2 k1
      rw [k2] at s2
      obtain ⟨c3, x3, e3, l3, s3, o3⟩ := s2.pcrs (by omega) after hs
      rw [hx] at l3; cases l3
      refine ⟨c3, ?_, s3, o3⟩
      rw [Clock.calls_append, ← List.singleton_append, Clock.run_append]
      simp only [Clock.run, Clock.step, ok_bind, Clock.run_append, e1, List.map_cons, calls, Clock.two_pow, e2, e3]
    · rw [h1] at hy; simp at hy

/-- The time shown by a synchronised clock, within the same round of the PCR. -/
theorem showTime_synced {c : Clock} {t x0 x y : Int} (h : Clock.Synced c t x0 x)
    (hy : y / 2576980377600 = x0 / 2576980377600) :
    showTime c (y % 2576980377600) = some (t + (y - x0).tdiv 27000) := by
  unfold showTime
  rw [h.isReady, h.time, h.base]
  simp only [if_true, Option.some.injEq]
  rw [show y % 2576980377600 - x0 % 2576980377600 = y - x0 by omega]

theorem showTime_no_tot {c : Clock} {q : Nat} {ops : List Clock.Op} (h : ∀ t l, .time t l ∉ ops) (v : Int)
    (hr : ({} : Clock).run (.setPid q :: ops) = .ok c) : showTime c v = none := by
  unfold showTime
  have : c.baseline.timeReady = false := Clock.not_time_ready (c := {}) rfl (.setPid q :: ops)
    (by intro t l hm; simp only [List.mem_cons, reduceCtorEq, false_or] at hm; exact h t l hm) hr
  rw [if_neg]
  simp [Clock.isReady, ClockBaseline.isReady, this]

/-! ### No abort -/

/-- The last PCR of every clock is in range. -/
def Sane (s : St) : Prop := ∀ pid c, s.clockMap.find? pid = some c → isValidPcr c.lastPcr = true

theorem valid_zero : isValidPcr 0 = true := by decide

theorem updateTime_total {c : Clock} (h : isValidPcr c.lastPcr = true) (t l : Int) :
    ∃ c', c.updateTime t l = .ok c' ∧ c'.lastPcr = c.lastPcr := by
  unfold Clock.updateTime
  by_cases hr : c.ready = true
  · simp [hr, Clock.syncPcr, ClockBaseline.setPcr, h]
  · simp [hr]

theorem acceptPcr_total {c : Clock} {p : Int} (h : isValidPcr p = true) :
    ∃ c', Clock.acceptPcr c p = .ok c' ∧ isValidPcr c'.lastPcr = true := by
  cases hb : c.baseline.isReady with
  | true => exact ⟨_, Clock.acceptPcr_ready hb p, h⟩
  | false => exact ⟨_, Clock.acceptPcr_unready hb p h, h⟩

theorem updatePcr_total {c : Clock} {p : Int} (hc : isValidPcr c.lastPcr = true) (h : isValidPcr p = true) :
    ∃ c', c.updatePcr p = .ok c' ∧ isValidPcr c'.lastPcr = true := by
  unfold Clock.updatePcr
  simp only [h, assert_true, ok_bind]
  split
  · have hg : decide (Clock.computeDelta p c.lastPcr ≥ 0) = true := by
      have h1 := (isValidPcr_iff _).1 hc
      have h2 := (isValidPcr_iff _).1 h
      unfold Clock.computeDelta
      rw [decide_eq_true_iff, show pcrUpperBound = 2576980377600 from by decide]
      split <;> omega
    rw [hg]
    simp only [assert_true, ok_bind]
    split
    · split
      · exact ⟨_, rfl, hc⟩
      · exact ⟨_, rfl, valid_zero⟩
    · exact acceptPcr_total h
  · exact acceptPcr_total h

theorem handlePcr_total {s : St} {p : Packet} (hs : Sane s) (h : ∀ v, p.pcr = some v → isValidPcr v = true) :
    ∃ s', handlePcr s p = .ok s' ∧ Sane s' := by
  unfold handlePcr
  cases hp : p.pcr with
  | none => exact ⟨s, rfl, hs⟩
  | some v =>
    simp only
    cases hc : s.clockMap.find? p.pid with
    | none => exact ⟨s, rfl, hs⟩
    | some c =>
      obtain ⟨c', h1, h2⟩ := updatePcr_total (hs _ _ hc) (h v hp)
      simp only [h1, ok_bind, printPcr_ok (h v hp)]
      refine ⟨_, rfl, ?_⟩
      intro pid c1 hf
      change (s.clockMap.set p.pid c').find? pid = some c1 at hf
      rw [OMap.find?_set] at hf
      split at hf
      · cases hf; exact h2
      · exact hs _ _ hf

theorem handleStamp_total {s : St} {pid : Nat} {v : Option Int} {m : Msg} (hs : Sane s)
    (h : ∀ x, v = some x → isValidPcr (300 * x) = true) : ∃ s', handleStamp s pid v m = .ok s' ∧ Sane s' := by
  unfold handleStamp
  cases v with
  | none => exact ⟨s, rfl, hs⟩
  | some x =>
    have hv := h x rfl
    have e300 : x * maxPcrExt = 300 * x := by rw [Int.mul_comm]; rfl
    simp only [e300, hv, assert_true, ok_bind]
    split
    · rw [printPcr_ok hv]; exact ⟨_, rfl, hs⟩
    · rw [printPcr_ok hv]; exact ⟨_, rfl, hs⟩

theorem updateTimes_total (t : Int) : ∀ (l : List (Nat × Clock)) (m : OMap Clock),
    (∀ x ∈ l, isValidPcr x.2.lastPcr = true) → (∀ pid c, m.find? pid = some c → isValidPcr c.lastPcr = true) →
    ∃ m', updateTimes t l m = .ok m' ∧ ∀ pid c, m'.find? pid = some c → isValidPcr c.lastPcr = true := by
  intro l
  induction l with
  | nil => intro m _ hm; exact ⟨m, rfl, hm⟩
  | cons a l ih =>
    intro m hl hm
    obtain ⟨pid, c⟩ := a
    obtain ⟨c', h1, h2⟩ := updateTime_total (hl (pid, c) (by simp)) t 0
    unfold updateTimes
    simp only [h1, ok_bind]
    refine ih _ (fun x hx => hl x (by simp [hx])) ?_
    intro q c1 hf
    rw [OMap.find?_set] at hf
    split at hf
    · cases hf; rw [h2]; exact hl (pid, c) (by simp)
    · exact hm _ _ hf

theorem Sane.quiet {s s' : St} (h : Sane s) (hq : Quiet s s') : Sane s' := by
  unfold Sane; rw [hq.1]; exact h

theorem handleTable_total {s : St} (hs : Sane s) (t : Table) : ∃ s', handleTable s t = .ok s' ∧ Sane s' := by
  unfold handleTable
  split
  · exact ⟨_, rfl, hs.quiet (handlePat_quiet _ _ _)⟩
  · exact ⟨_, rfl, hs.quiet (handleCat_quiet _ _)⟩
  · next x _ =>
    refine ⟨_, rfl, ?_⟩
    unfold handlePmt
    split
    · exact hs
    · intro pid c hf
      rw [(addStreams_spec _ _ _).1] at hf
      split at hf
      · change (s.clockMap.set x.pcrPid (({} : Clock).setPid x.pcrPid)).find? pid = some c at hf
        rw [OMap.find?_set] at hf
        split at hf
        · cases hf; exact valid_zero
        · exact hs _ _ hf
      · exact hs _ _ hf
  · exact ⟨_, rfl, hs.quiet (handleEit_quiet _ _ _)⟩
  · next x _ =>
    unfold handleTot
    split
    · exact ⟨s, rfl, hs⟩
    · obtain ⟨m, h1, h2⟩ := updateTimes_total x s.clockMap.entries s.clockMap
        (fun a ha => hs a.1 a.2 ((OMap.find?_iff _ _ _).2 ha)) hs
      refine ⟨{ printTime s x .tot with clockMap := m }, ?_, h2⟩
      show (do let m ← updateTimes x s.clockMap.entries s.clockMap; _) = _
      rw [h1]; rfl
  · exact ⟨s, rfl, hs⟩

theorem step_total {s : St} {i : Input} (hs : Sane s) (h : PcrInRange i.packet) (h2 : Stamps33 i.packet) :
    ∃ s' d more, step s i = .ok (s', d, more) ∧ Sane s' := by
  have h300 : ∀ x : Int, 0 ≤ x ∧ x < 2 ^ 33 → isValidPcr (300 * x) = true := by
    intro x hx
    rw [isValidPcr_iff]
    rw [show (2 : Int) ^ 33 = 8589934592 from by decide] at hx
    omega
  obtain ⟨s1, e1, k1⟩ := handlePcr_total (p := i.packet) hs (fun v hv => by
    rw [isValidPcr_iff]
    have := h v (by simp [hv])
    rw [Clock.two_pow] at this
    exact this)
  obtain ⟨s2, e2, k2⟩ := handleStamp_total (pid := i.packet.pid) (m := .pts i.packet.pid) (v := i.packet.pts) k1
    (fun x hx => h300 x (h2.1 x (by simp [hx])))
  obtain ⟨s3, e3, k3⟩ := handleStamp_total (pid := i.packet.pid) (m := .dts i.packet.pid) (v := i.packet.dts) k2
    (fun x hx => h300 x (h2.2 x (by simp [hx])))
  obtain ⟨⟨s4, log⟩, e4, k4⟩ := feedDemux_total (watched := St.demux) (handle := handleTable) (pid := i.packet.pid)
    Sane (fun _ => True) (fun s t hs _ _ _ => handleTable_total hs t) i.tables s3 (fun _ _ => trivial) k3
  refine ⟨s4, ⟨log, s4.out.drop s.out.length⟩, if s4.done then false else true, ?_, k4⟩
  unfold step
  simp only [e1, e2, e3, e4, ok_bind]

/-! ### The PMTs that are followed -/

theorem patOf_some {t : Table} {r : Nat × Pat} : patOf t = some r ↔
    t.valid = true ∧ t.body = .pat r.2 ∧ t.sourcePid = r.1 := by
  constructor
  · intro h
    unfold patOf at h
    split at h
    · cases h; exact ⟨rfl, rfl, rfl⟩
    · cases h
  · obtain ⟨a, b, c, d⟩ := t
    rintro ⟨h1, h2, h3⟩
    simp only at h1 h2 h3
    subst h1 h2 h3
    rfl

theorem latestPat_snoc (l : List Table) (t : Table) : latestPat (l ++ [t]) = match patOf t with
    | some r => some r.2
    | none => latestPat l := by
  unfold latestPat
  rw [List.filterMap_append]
  cases h : patOf t with
  | none => simp [h]
  | some r => simp [h]

/-- What the state means. -/
structure Follow (s : St) (l : List Table) : Prop where
  demux : ∀ pid, pid ∈ s.demux ↔ Interesting l pid
  pmts : ∀ pid, pid ∈ s.pmtPids ↔ ∃ pat, latestPat l = some pat ∧ ∃ sid, pat.pmts.find? sid = some pid
  done : s.done = true ↔ ∃ pat, latestPat l = some pat ∧ ∀ sid, pat.pmts.find? sid = none
  away : ∀ pid ∈ s.pmtPids, pid ∉ [0x00, 0x01, 0x12, 0x14]

/-- Demux, PMT PIDs and the end stay as they are. -/
def Same (s s' : St) : Prop := s'.demux = s.demux ∧ s'.pmtPids = s.pmtPids ∧ s'.done = s.done

theorem Same.refl (s : St) : Same s s := ⟨rfl, rfl, rfl⟩
theorem Same.trans {a b c : St} (h1 : Same a b) (h2 : Same b c) : Same a c :=
  ⟨h2.1.trans h1.1, h2.2.1.trans h1.2.1, h2.2.2.trans h1.2.2⟩

theorem addStreams_same (q : Nat) (l : List (Nat × Stream)) : ∀ s, Same s (addStreams q l s) := by
  induction l with
  | nil => exact Same.refl
  | cons a l ih => intro s; unfold addStreams; exact Same.trans ⟨rfl, rfl, rfl⟩ (ih _)

theorem printEvents_same (l : List Event) : ∀ n s, Same s (printEvents n l s) := by
  induction l with
  | nil => exact fun _ => Same.refl
  | cons a l ih => intro n s; unfold printEvents; exact Same.trans ⟨rfl, rfl, rfl⟩ (ih _ _)

theorem addPmts_spec (l : List (Nat × Nat)) : ∀ s,
    (addPmts l s).done = s.done ∧ (addPmts l s).pmtPids = s.pmtPids ++ l.map (·.2) ∧
    ∀ pid, pid ∈ (addPmts l s).demux ↔ pid ∈ s.demux ∨ pid ∈ l.map (·.2) := by
  induction l with
  | nil => intro s; simp [addPmts]
  | cons a l ih =>
    intro s
    obtain ⟨sid, q⟩ := a
    unfold addPmts
    obtain ⟨h1, h2, h3⟩ := ih { print s (.service sid q) with
      demux := (print s (.service sid q)).demux.add q
      sids := sid :: (print s (.service sid q)).sids
      pmtPids := (print s (.service sid q)).pmtPids ++ [q] }
    refine ⟨h1, by rw [h2]; simp [print], fun pid => ?_⟩
    rw [h3]
    simp only [print, PidSet.add, List.mem_cons, List.map_cons]
    grind

theorem mem_removeAll (l : List Nat) : ∀ (d : PidSet) (pid : Nat),
    pid ∈ l.foldl PidSet.remove d ↔ pid ∈ d ∧ pid ∉ l := by
  induction l with
  | nil => simp
  | cons a l ih =>
    intro d pid
    rw [List.foldl_cons, ih]
    simp only [PidSet.remove, List.mem_filter, List.mem_cons, bne_iff_ne, ne_eq]
    grind

theorem follow_init : Follow {} [] := by
  refine ⟨fun pid => ?_, fun pid => ?_, ?_, by simp⟩
  · simp [Interesting, latestPat, pidPat, pidCat, pidEit, pidTot]
  · simp [latestPat]
  · simp [latestPat]

theorem Follow.same {s s' : St} {l : List Table} {t : Table} (h : Follow s l) (hs : Same s s')
    (ht : patOf t = none) : Follow s' (l ++ [t]) := by
  have e : latestPat (l ++ [t]) = latestPat l := by rw [latestPat_snoc, ht]
  refine ⟨fun pid => ?_, fun pid => ?_, ?_, fun pid hp => ?_⟩
  · rw [hs.1]; unfold Interesting; rw [e]; exact h.demux pid
  · rw [hs.2.1, e]; exact h.pmts pid
  · rw [hs.2.2, e]; exact h.done
  · rw [hs.2.1] at hp; exact h.away pid hp

theorem handleTable_follow {s s' : St} {l : List Table} {t : Table} (h : Follow s l)
    (hr : ∀ pid pat, patOf t = some (pid, pat) →
      pid = 0 ∧ ∀ sid p, pat.pmts.find? sid = some p → p ∉ [0x00, 0x01, 0x12, 0x14])
    (he : handleTable s t = .ok s') : Follow s' (l ++ [t]) := by
  have other : (∀ x, t.body ≠ .pat x) → patOf t = none := fun hb => none_of_not fun r hr => hb _ (patOf_some.1 hr).2.1
  unfold handleTable at he
  split at he
  · next x hb =>
    cases he
    unfold handlePat
    cases hv : t.valid with
    | false =>
      refine h.same (Same.refl _) (none_of_not fun r hr => ?_)
      have := (patOf_some.1 hr).1
      rw [hv] at this; cases this
    | true =>
      have hp : patOf t = some (t.sourcePid, x) := patOf_some.2 ⟨hv, hb, rfl⟩
      obtain ⟨h0, haway⟩ := hr _ _ hp
      have e : latestPat (l ++ [t]) = some x := by rw [latestPat_snoc, hp]
      simp only [Bool.not_true, Bool.false_eq_true, if_false]
      rw [if_pos (by simp [h0, pidPat])]
      obtain ⟨k1, k2, k3⟩ := addPmts_spec x.pmts.entries (print (resetStates s) (.pat t.version t.sourcePid))
      have hmem : ∀ pid, pid ∈ x.pmts.entries.map (·.2) ↔ ∃ sid, x.pmts.find? sid = some pid := by
        intro pid
        rw [List.mem_map]
        constructor
        · rintro ⟨⟨a, b⟩, hm, rfl⟩; exact ⟨a, (OMap.find?_iff _ _ _).2 hm⟩
        · rintro ⟨sid, hf⟩; exact ⟨(sid, pid), (OMap.find?_iff _ _ _).1 hf, rfl⟩
      have k2' : (addPmts x.pmts.entries (print (resetStates s) (.pat t.version t.sourcePid))).pmtPids =
          x.pmts.entries.map (·.2) := by rw [k2]; simp [print, resetStates]
      have demux : ∀ pid, pid ∈ (addPmts x.pmts.entries (print (resetStates s) (.pat t.version t.sourcePid))).demux ↔
          Interesting (l ++ [t]) pid := by
        intro pid
        rw [k3, hmem]
        unfold Interesting
        rw [e]
        simp only [print, resetStates, mem_removeAll, Option.some.injEq, exists_eq_left']
        rw [h.demux, h.pmts]
        constructor
        · rintro (⟨hi | hi, hn⟩ | hx)
          · exact .inl hi
          · exact absurd hi hn
          · exact .inr hx
        · rintro (hi | hx)
          · refine .inl ⟨.inl hi, fun hn => ?_⟩
            exact h.away pid ((h.pmts pid).2 hn) hi
          · exact .inr hx
      have pm : ∀ pid, pid ∈ (addPmts x.pmts.entries (print (resetStates s) (.pat t.version t.sourcePid))).pmtPids ↔
          ∃ pat, latestPat (l ++ [t]) = some pat ∧ ∃ sid, pat.pmts.find? sid = some pid := by
        intro pid
        rw [k2', hmem, e]
        simp
      have aw : ∀ pid ∈ (addPmts x.pmts.entries (print (resetStates s) (.pat t.version t.sourcePid))).pmtPids,
          pid ∉ [0x00, 0x01, 0x12, 0x14] := by
        intro pid hp
        rw [k2', hmem] at hp
        obtain ⟨sid, hs⟩ := hp
        exact haway sid pid hs
      have empty : x.pmts.entries.map (·.2) = [] ↔ ∀ sid, x.pmts.find? sid = none := by
        constructor
        · intro hn sid
          exact none_of_not fun p hp => by
            have := (hmem p).2 ⟨sid, hp⟩
            rw [hn] at this; simp at this
        · intro hn
          apply List.eq_nil_iff_forall_not_mem.2
          intro p hp
          obtain ⟨sid, hs⟩ := (hmem p).1 hp
          rw [hn sid] at hs; cases hs
      split
      · next hemp =>
        refine ⟨demux, pm, ?_, aw⟩
        rw [e]
        simp only [Option.some.injEq, exists_eq_left', true_iff]
        rw [k2', List.isEmpty_iff] at hemp
        exact empty.1 hemp
      · next hemp =>
        refine ⟨demux, pm, ?_, aw⟩
        rw [e, k1]
        simp only [print, resetStates, Option.some.injEq, exists_eq_left', Bool.false_eq_true, false_iff]
        rw [k2', List.isEmpty_iff] at hemp
        exact fun k => hemp (empty.2 k)
  · next x hb =>
    cases he
    refine h.same ?_ (other (by simp [hb]))
    unfold handleCat; split
    · exact Same.refl _
    · exact ⟨rfl, rfl, rfl⟩
  · next x hb =>
    cases he
    refine h.same ?_ (other (by simp [hb]))
    unfold handlePmt; split
    · exact Same.refl _
    · simp only
      refine Same.trans (b := if (x.pcrPid != pidNull) = true then _ else _) ?_ (addStreams_same _ _ _)
      split <;> exact ⟨rfl, rfl, rfl⟩
  · next x hb =>
    cases he
    refine h.same ?_ (other (by simp [hb]))
    unfold handleEit; split
    · exact Same.refl _
    · split
      · exact Same.refl _
      · exact Same.trans (b := print s _) ⟨rfl, rfl, rfl⟩ (printEvents_same _ _ _)
  · next x hb =>
    refine h.same ?_ (other (by simp [hb]))
    unfold handleTot at he
    split at he
    · cases he; exact Same.refl _
    · obtain ⟨m, _, h2⟩ := bind_eq_ok he
      cases h2
      exact ⟨rfl, rfl, rfl⟩
  · next h1 _ _ _ _ =>
    cases he
    exact h.same (Same.refl _) (other fun x k => h1 x k)

theorem Follow.skip {s : St} {l : List Table} {t : Table} (h : Follow s l)
    (hr : ∀ pid pat, patOf t = some (pid, pat) → pid = 0) (hw : t.sourcePid ∉ s.demux) : Follow s (l ++ [t]) := by
  refine h.same (Same.refl _) (none_of_not fun r hp => ?_)
  have := hr r.1 r.2 hp
  apply hw
  rw [(patOf_some.1 hp).2.2, this, h.demux]
  exact .inl (by simp)

theorem step_follow {s s' : St} {l : List Table} {i : Input} {d : Did} {more : Bool} (h : Follow s l)
    (hr : Regular [i]) (he : step s i = .ok (s', d, more)) :
    Follow s' (l ++ received [i]) ∧ (Interesting l i.packet.pid → d.tables = received [i]) ∧
      (¬ Interesting l i.packet.pid → d.tables = []) ∧ more = !s'.done := by
  unfold step at he
  obtain ⟨s1, h1, he⟩ := bind_eq_ok he
  obtain ⟨s2, h2, he⟩ := bind_eq_ok he
  obtain ⟨s3, h3, he⟩ := bind_eq_ok he
  obtain ⟨⟨s4, log⟩, h4, he⟩ := bind_eq_ok he
  simp only [Except.ok.injEq, Prod.mk.injEq] at he
  obtain ⟨rfl, rfl, rfl⟩ := he
  have same_print : ∀ {s s' : St} {q v m lb}, printPcr s q v m lb = .ok s' → Same s s' := by
    intro s s' q v m lb h
    rw [printPcr_ok (printPcr_valid h)] at h
    cases h; exact ⟨rfl, rfl, rfl⟩
  have same_stamp : ∀ {s s' : St} {q v m}, handleStamp s q v m = .ok s' → Same s s' := by
    intro s s' q v m h
    unfold handleStamp at h
    split at h
    · cases h; exact Same.refl _
    · obtain ⟨_, _, h⟩ := bind_eq_ok h
      split at h <;> exact same_print h
  have same_pcr : Same s s1 := by
    unfold handlePcr at h1
    split at h1
    · cases h1; exact Same.refl _
    · split at h1
      · cases h1; exact Same.refl _
      · obtain ⟨_, _, h⟩ := bind_eq_ok h1
        have := same_print h
        exact ⟨this.1, this.2.1, this.2.2⟩
  have hs := (same_pcr.trans (same_stamp h2)).trans (same_stamp h3)
  have h3' : Follow s3 l := by
    refine ⟨?_, ?_, ?_, ?_⟩
    · rw [hs.1]; exact h.demux
    · rw [hs.2.1]; exact h.pmts
    · rw [hs.2.2]; exact h.done
    · rw [hs.2.1]; exact h.away
  have hrec : ∀ t ∈ i.tables, t.sourcePid = i.packet.pid → ∀ pid pat, patOf t = some (pid, pat) →
      pid = 0 ∧ ∀ sid p, pat.pmts.find? sid = some p → p ∉ [0x00, 0x01, 0x12, 0x14] :=
    fun t ht hp => hr t (by simp [received, ht, hp])
  have hrecv : received [i] = i.tables.filter (·.sourcePid == i.packet.pid) := by simp [received]
  have gen : ∀ ts, (∀ t ∈ ts, t ∈ i.tables) → ∀ s s' log l, Follow s l →
      feedDemux St.demux handleTable i.packet.pid ts s = .ok (s', log) →
      Follow s' (l ++ ts.filter (·.sourcePid == i.packet.pid)) ∧
      (i.packet.pid ∈ s.demux → log = ts.filter (·.sourcePid == i.packet.pid)) ∧
      (i.packet.pid ∉ s.demux → log = []) := by
    intro ts
    induction ts with
    | nil =>
      intro _ s s' log l hf h
      simp only [feedDemux, Except.ok.injEq, Prod.mk.injEq] at h
      obtain ⟨rfl, rfl⟩ := h
      simpa using hf
    | cons t ts ih =>
      intro hin s s' log l hf h
      simp only [feedDemux] at h
      split at h
      · next hc =>
        simp only [Bool.and_eq_true, beq_iff_eq, List.contains_iff_mem] at hc
        obtain ⟨s1, h1, h⟩ := bind_eq_ok h
        obtain ⟨⟨s2, log2⟩, h2, h⟩ := bind_eq_ok h
        simp only [Except.ok.injEq, Prod.mk.injEq] at h
        obtain ⟨rfl, rfl⟩ := h
        have hreg := hrec t (hin t (by simp)) hc.1
        have hf1 := handleTable_follow hf hreg h1
        have hw : i.packet.pid ∈ s1.demux := by
          rw [hf1.demux]
          have := (hf.demux _).1 hc.2
          cases hp : patOf t with
          | none =>
            unfold Interesting at this ⊢
            rw [latestPat_snoc, hp]; exact this
          | some r =>
            have := (hreg r.1 r.2 hp).1
            refine .inl ?_
            rw [← hc.1, (patOf_some.1 hp).2.2, this]; simp
        obtain ⟨k1, k2, _⟩ := ih (fun x hx => hin x (by simp [hx])) s1 s2 log2 (l ++ [t]) hf1 h2
        rw [List.filter_cons, if_pos (by simp [hc.1])]
        refine ⟨by simpa using k1, fun _ => by rw [k2 hw], fun hn => absurd hc.2 hn⟩
      · next hc =>
        by_cases hp : t.sourcePid = i.packet.pid
        · have hw : i.packet.pid ∉ s.demux := fun hw => hc (by simp [hp, hw])
          obtain ⟨k1, _, k3⟩ := ih (fun x hx => hin x (by simp [hx])) s s' log (l ++ [t])
            (hf.skip (fun pid pat hx => (hrec t (hin t (by simp)) hp pid pat hx).1) (hp ▸ hw)) h
          rw [List.filter_cons, if_pos (by simp [hp])]
          exact ⟨by simpa using k1, fun hn => absurd hn hw, k3⟩
        · rw [List.filter_cons, if_neg (by simp [hp])]
          exact ih (fun x hx => hin x (by simp [hx])) s s' log l hf h
  obtain ⟨k1, k2, k3⟩ := gen i.tables (fun _ h => h) s3 s4 log l h3' h4
  rw [h3'.demux] at k2 k3
  rw [hrecv]
  exact ⟨k1, k2, k3, by cases s4.done <;> rfl⟩

theorem regular_append {a b : List Input} : Regular (a ++ b) ↔ Regular a ∧ Regular b := by
  unfold Regular
  rw [received_append]
  grind

theorem reach_follow {items : List (Line Input Did)} {s : St} (h : Reach step {} items s)
    (hr : Regular (items.map (·.input))) : Follow s (received (items.map (·.input))) := by
  induction h with
  | nil => exact follow_init
  | @snoc items s i s' a more h1 h2 h3 ih =>
    rw [List.map_append, regular_append] at hr
    rw [List.map_append, received_append]
    exact (step_follow (ih hr.1) hr.2 h3).1

end Mirakc.PesPrinter
