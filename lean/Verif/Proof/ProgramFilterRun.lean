import Verif.Proof.ProgramFilterTables
/-
filter-program: histories.
-/
namespace Mirakc.ProgramFilter
open Mirakc.Spec Mirakc.Spec.ProgramFilter
open Mirakc.Spec.ServiceFilter (usablePat validPmt validTot latest)
open Mirakc.ServiceFilter (latest_append latest_some latest_none)
set_option linter.unusedSimpArgs false

/-! PCR comparison. -/

theorem compare_spec {p x c : Int} (h : comparePcr p x = .ok c) : c ≥ 0 ↔ ReachedNoWrap p x := by
  unfold comparePcr at h
  obtain ⟨_, h1, h⟩ := bind_eq_ok h
  obtain ⟨_, h2, h⟩ := bind_eq_ok h
  have h1 := (isValidPcr_iff _).1 (assert_ok h1)
  have h2 := (isValidPcr_iff _).1 (assert_ok h2)
  simp only [upper_val] at h
  unfold ReachedNoWrap
  split at h <;> cases h <;> omega

theorem compare_total {p x : Int} (h1 : isValidPcr p = true) (h2 : isValidPcr x = true) :
    ∃ c, comparePcr p x = .ok c := by
  unfold comparePcr
  rw [assert_of h1, assert_of h2]
  simp only [ok_bind]
  split <;> exact ⟨_, rfl⟩

/-! Spec vocabulary in terms of the state. -/

theorem range_iff {o : Opt} {s : St} {evs : List Ev} (hI : TInv o s evs) (a b : Int) :
    Range o evs a b ↔ s.eventTimeReady = true ∧ needClockSync s = false ∧
      a = s.startPcr ∧ b = s.endPcr := by
  unfold Range
  simp only [hI.clk.sync_iff]
  have he := hI.event
  have hr := hI.range
  constructor
  · rintro ⟨e, t0, p0, h1, ⟨h2, rfl, rfl⟩, rfl, rfl⟩
    rw [h1] at he
    obtain ⟨e1, e2, e3⟩ := he
    simp only [needClockSync, Bool.or_eq_false_iff, Bool.not_eq_false'] at h2
    obtain ⟨r1, r2⟩ := hr e1 h2.1 h2.2
    refine ⟨e1, by simp [needClockSync, h2], ?_, ?_⟩
    · rw [r1, e2]
    · rw [r2, e3]
  · rintro ⟨e1, h2, rfl, rfl⟩
    cases hl : latestEvent o evs with
    | none => rw [hl] at he; simp [EventSt] at he; rw [he] at e1; cases e1
    | some e =>
      rw [hl] at he
      obtain ⟨e1, e2, e3⟩ := he
      have h3 := h2
      simp only [needClockSync, Bool.or_eq_false_iff, Bool.not_eq_false'] at h3
      obtain ⟨r1, r2⟩ := hr e1 h3.1 h3.2
      exact ⟨e, _, _, rfl, ⟨h2, rfl, rfl⟩, by rw [r1, e2], by rw [r2, e3]⟩

theorem event_iff {o : Opt} {s : St} {evs : List Ev} (hI : TInv o s evs) :
    s.eventTimeReady = true ↔ latestEvent o evs ≠ none := by
  have he := hI.event
  cases hl : latestEvent o evs with
  | none => rw [hl] at he; simp [EventSt] at he; simp [he]
  | some e => rw [hl] at he; simp [he.1]

theorem hasPcr_iff {o : Opt} {s : St} {evs : List Ev} (hI : TInv o s evs) (p : Packet) (x : Int) :
    HasPcr o evs p x ↔ s.pcrPidReady = true ∧ p.pid = s.pcrPid ∧ p.pcr = some x := by
  unfold HasPcr
  rw [hI.pcrReady]
  constructor
  · rintro ⟨pmt, h1, h2, h3⟩
    exact ⟨by simp [h1], by rw [hI.pcrPid _ h1]; exact h2, h3⟩
  · rintro ⟨h1, h2, h3⟩
    obtain ⟨pmt, h1⟩ := Option.isSome_iff_exists.1 h1
    exact ⟨pmt, h1, by rw [h2, hI.pcrPid _ h1], h3⟩

theorem clockPid_ready {o : Opt} {s : St} {evs : List Ev} (hI : TInv o s evs)
    (h : s.pcrPidReady = true) : clockPid o evs = s.pcrPid := by
  rw [hI.pcrReady] at h
  obtain ⟨pmt, h1⟩ := Option.isSome_iff_exists.1 h
  rw [hI.pcrPid _ h1]
  simp [clockPid, h1]

/-! Packets. -/

theorem excludedPid_pkt (o : Opt) (evs : List Ev) (p : Packet) (pid : Nat) :
    ExcludedPid o (evs ++ [.pkt p]) pid ↔ ExcludedPid o evs pid := by
  simp [ExcludedPid]

/-- A packet that does not move the clock. -/
theorem tinv_pkt {o : Opt} {s s' : St} {evs : List Ev} (hI : TInv o s evs) (p : Packet)
    (e1 : s'.pcrPidReady = s.pcrPidReady) (e2 : s'.pcrPid = s.pcrPid) (e3 : s'.clockPid = s.clockPid)
    (e4 : s'.black = s.black) (e5 : s'.pk.table = s.pk.table) (e5' : s'.pk.pid = s.pk.pid)
    (e6 : s'.pmtPid = s.pmtPid)
    (e7 : s'.eventTimeReady = s.eventTimeReady) (e8 : s'.eventStart = s.eventStart)
    (e9 : s'.eventEnd = s.eventEnd) (hk : Clk o s' (evs ++ [.pkt p])) (hr : RangeSt s') :
    TInv o s' (evs ++ [.pkt p]) := by
  refine ⟨?_, ?_, ?_, ?_, ?_, ?_, ?_, hk, hr⟩
  · simpa [e1] using hI.pcrReady
  · simpa [e2] using hI.pcrPid
  · rw [clockPid_pkt, e3]; exact hI.clockPid
  · intro pid; rw [excludedPid_pkt, e4]; exact hI.black pid
  · rw [latestPmt_pkt]
    have := hI.pk
    cases hl : latestPmt o evs with
    | none => rw [hl] at this; simpa [PkSt, e5] using this
    | some x => rw [hl] at this; simpa [PkSt, e5, e5'] using this
  · simp only [tables_append, tables_pkt, List.append_nil]
    have := hI.pmtPid
    cases hl : latest usablePat (tables evs) with
    | none => rw [hl] at this; simpa [PmtPidSt, e6] using this
    | some x => rw [hl] at this; simpa [PmtPidSt, e6] using this
  · rw [latestEvent_pkt]
    have := hI.event
    cases hl : latestEvent o evs with
    | none => rw [hl] at this; simpa [EventSt, e7] using this
    | some x => rw [hl] at this; simpa [EventSt, e7, e8, e9] using this

theorem tinv_still {o : Opt} {s : St} {evs : List Ev} (hI : TInv o s evs) (p : Packet)
    (hu : p.pid ≠ clockPid o evs ∨ latestEvent o evs = none ∨ p.pcr = none ∨
      needClockSync s = false) : TInv o s (evs ++ [.pkt p]) :=
  tinv_pkt hI p rfl rfl rfl rfl rfl rfl rfl rfl rfl rfl (hI.clk.after_packet p hu) hI.range

/-- `St.lastPat`, the packetizer position and the mode do not matter to `TInv`. -/
theorem TInv.congr {o : Opt} {s : St} {evs : List Ev} (hI : TInv o s evs) (l : List Packet)
    (c : Option (Pmt × Nat)) (n : Nat) (b : Bool) :
    TInv o { s with lastPat := l, pk := { s.pk with cur := c, count := n }, streaming := b } evs := by
  refine ⟨hI.pcrReady, hI.pcrPid, hI.clockPid, hI.black, ?_, ?_, ?_, hI.clk.congr rfl rfl rfl rfl,
    hI.range⟩
  · have := hI.pk
    cases hl : latestPmt o evs with
    | none => rw [hl] at this; exact this
    | some x => rw [hl] at this; exact this
  · have := hI.pmtPid
    cases hl : latest usablePat (tables evs) with
    | none => rw [hl] at this; exact this
    | some x => rw [hl] at this; exact this
  · have := hI.event
    cases hl : latestEvent o evs with
    | none => rw [hl] at this; exact this
    | some x => rw [hl] at this; exact this

/-- A PCR of the service, when the event is known. -/
theorem sync_spec {o : Opt} {s s' : St} {evs : List Ev} {p : Packet} {x : Int}
    (hI : TInv o s evs) (h1 : s.pcrPidReady = true) (h2 : s.eventTimeReady = true)
    (h3 : p.pid = s.pcrPid) (h4 : p.pcr = some x) (h : syncClock s x = .ok s') :
    TInv o s' (evs ++ [.pkt p]) ∧
      ∃ a b c d, s' = { s with clockPcr := a, clockPcrReady := b, startPcr := c, endPcr := d } := by
  have hp := clockPid_ready hI h1
  unfold syncClock at h
  split at h
  · next hn =>
    unfold updateClockPcr at h
    obtain ⟨_, _, h⟩ := bind_eq_ok h
    obtain ⟨hr, a, b, rfl⟩ := range_if (s := { s with clockPcr := x, clockPcrReady := true })
      (by simp; intro a b; exact ⟨a, b⟩) h
    refine ⟨?_, _, _, _, _, rfl⟩
    exact tinv_pkt hI p rfl rfl rfl rfl rfl rfl rfl rfl rfl rfl
      (hI.clk.pcr p x (by rw [hp]; exact h3) ((event_iff hI).1 h2) h4 hn rfl rfl rfl rfl) hr
  · next hn =>
    cases h
    exact ⟨tinv_still hI p (Or.inr (Or.inr (Or.inr (by simpa using hn)))), _, _, _, _, rfl⟩

/-! The packetizer. -/

theorem range_succ_map {α} (f : Nat → α) (n : Nat) :
    (List.range (n + 1)).map f = f 0 :: (List.range n).map (fun j => f (j + 1)) := by
  rw [List.range_succ_eq_map]; simp

theorem sendCycle_spec {extra : Pmt → Nat} : ∀ (fuel : Nat) (s : St) (t : Pmt) (i : Nat),
    s.pk.cur.or (s.pk.table.map (·, 0)) = some (t, i) → s.pk.pid = s.pmtPid → i ≤ extra t →
    extra t - i < fuel →
    sendCycle extra fuel s = .ok
      ((List.range (extra t - i + 1)).map (fun j => .pmt s.pk.pid t (i + j) (s.pk.count + j)),
       { s with pk := { s.pk with cur := none, count := s.pk.count + (extra t - i + 1) } }) := by
  intro fuel
  induction fuel with
  | zero => intro s t i _ _ _ h; omega
  | succ fuel ih =>
    intro s t i h1 h2 h3 h4
    have hn : nextPmt extra s = .ok (.pmt s.pk.pid t i s.pk.count,
        { s with pk := { s.pk with cur := if i < extra t then some (t, i + 1) else none,
                                   count := s.pk.count + 1 } }) := by
      unfold nextPmt Packetizer.next
      rw [h1]
      simp [h2]
    unfold sendCycle
    rw [hn]
    simp only [ok_bind]
    by_cases hi : i < extra t
    · have := ih { s with pk := { s.pk with cur := some (t, i + 1), count := s.pk.count + 1 } }
        t (i + 1) (by simp) h2 (by omega) (by omega)
      simp only [hi, if_true, Option.isNone_some, Bool.false_eq_true, if_false]
      rw [this]
      simp only [ok_bind]
      have e : extra t - i = extra t - (i + 1) + 1 := by omega
      rw [e, range_succ_map _ (extra t - (i + 1) + 1)]
      simp only [Nat.add_zero]
      congr 2
      · congr 1
        apply List.map_congr_left
        intro j _
        congr 1 <;> omega
      · congr 2
        omega
    · have e : extra t - i = 0 := by omega
      simp [hi, e]

theorem sendCycle_pid {extra : Pmt → Nat} {fuel : Nat} {s : St} {r : List Out × St}
    (h : sendCycle extra fuel s = .ok r) :
    s.pk.pid = s.pmtPid ∧ s.pk.cur.or (s.pk.table.map (·, 0)) ≠ none := by
  cases fuel with
  | zero => cases h
  | succ fuel =>
    unfold sendCycle at h
    obtain ⟨⟨x, s1⟩, h1, _⟩ := bind_eq_ok h
    unfold nextPmt at h1
    obtain ⟨⟨y, pk⟩, h2, h1⟩ := bind_eq_ok h1
    obtain ⟨_, h3, h1⟩ := bind_eq_ok h1
    have h3 := assert_ok h3
    unfold Packetizer.next at h2
    split at h2
    · cases h2
    · next h4 =>
      simp only [Except.ok.injEq, Prod.mk.injEq] at h2
      rw [← h2.2] at h3
      exact ⟨by simpa using h3, by simp [h4]⟩

/-! Waiting. -/

/-- The packet starts the programme. -/
def StartAt (o : Opt) (evs : List Ev) (p : Packet) : Prop :=
  ∃ pcr a b, HasPcr o evs p pcr ∧ Range o (evs ++ [.pkt p]) a b ∧
    ReachedNoWrap pcr a ∧ ¬ ReachedNoWrap pcr b
/-- The packet is at or after the end of the programme. -/
def EndAt (o : Opt) (evs : List Ev) (p : Packet) : Prop :=
  ∃ pcr a b, HasPcr o evs p pcr ∧ Range o (evs ++ [.pkt p]) a b ∧ ReachedNoWrap pcr b

theorem no_start_end {o : Opt} {evs : List Ev} {p : Packet}
    (h : ∀ pcr a b, HasPcr o evs p pcr → Range o (evs ++ [.pkt p]) a b → False) :
    ¬ StartAt o evs p ∧ ¬ EndAt o evs p :=
  ⟨fun ⟨_, _, _, h1, h2, _⟩ => h _ _ _ h1 h2, fun ⟨_, _, _, h1, h2, _⟩ => h _ _ _ h1 h2⟩

/-- The members the decision on a packet leaves alone. -/
structure Keep (s s' : St) : Prop where
  demux : s'.demux = s.demux
  pmtPid : s'.pmtPid = s.pmtPid
  stop : s'.stop = s.stop
  retry : s'.retry = s.retry
  table : s'.pk.table = s.pk.table
  pid : s'.pk.pid = s.pk.pid

/-- What happens to a packet while waiting, when nothing was cancelled. -/
inductive Wait (extra : Pmt → Nat) (o : Opt) (s : St) (evs : List Ev) (p : Packet) :
    St → List Out → Bool → Prop where
  | wait (s' : St) (inv : TInv o s' (evs ++ [.pkt p])) (keep : Keep s s')
      (h1 : ¬ StartAt o evs p) (h2 : ¬ EndAt o evs p) (st : s'.streaming = false)
      (pat : o.preStreaming = false → s'.lastPat = (savePat s p).lastPat)
      (pk : s'.pk = s.pk) :
      Wait extra o s evs p s' (if o.preStreaming = true ∧ p.pid = 0 then [.orig p] else []) true
  | ended (s' : St) (keep : Keep s s') (h2 : EndAt o evs p) (h1 : ¬ StartAt o evs p) :
      Wait extra o s evs p s' [] false
  | start (s' : St) (inv : TInv o s' (evs ++ [.pkt p])) (keep : Keep s s')
      (h1 : StartAt o evs p) (h2 : ¬ EndAt o evs p) (st : s'.streaming = true)
      (ready : s'.pcrPidReady = true ∧ s'.eventTimeReady = true)
      (pat : o.preStreaming = false → (savePat s p).lastPat ≠ [])
      (t : Pmt) (table : s.pk.table = some t) (pid : s.pk.pid = s.pmtPid)
      (cur : s'.pk.cur = none) (count : s'.pk.count = s.pk.count + (extra t + 1)) :
      Wait extra o s evs p s' ((if o.preStreaming then [] else (savePat s p).lastPat.map .orig) ++
        cycle extra s.pk.pid t s.pk.count ++ [.orig p]) true

theorem savePat_eq (s : St) (p : Packet) : savePat s p = { s with lastPat := (savePat s p).lastPat } := by
  unfold savePat; split <;> rfl

theorem wait_spec {extra : Pmt → Nat} {o : Opt} {s s' : St} {evs : List Ev} {p : Packet}
    {outs : List Out} {more : Bool} (hI : TInv o s evs) (hst : s.streaming = false)
    (hstop : s.stop = false) (hcur : s.pk.cur = none)
    (hpat : o.preStreaming = true → p.pid = 0 → ∀ x, ¬ HasPcr o evs p x)
    (h : waitReady extra o s p = .ok (s', outs, more)) :
    Wait extra o s evs p s' outs more := by
  rw [waitReady_eq] at h
  rw [if_neg (by simp [hstop])] at h
  split at h
  · next hp =>
    simp only [Except.ok.injEq, Prod.mk.injEq] at h
    obtain ⟨rfl, rfl, rfl⟩ := h
    simp only [Bool.and_eq_true, beq_iff_eq, pidPat] at hp
    have hne : ∀ x, ¬ HasPcr o evs p x := hpat hp.2 hp.1
    have hstill : TInv o s (evs ++ [.pkt p]) := by
      -- there is no PCR of the service, so it has none, or the clock PID differs, or there was no PMT
      cases hl : (pmtsOf o evs).getLast? with
      | some pmt =>
        by_cases he : p.pid = pmt.pcrPid
        · refine tinv_still hI p (Or.inr (Or.inr (Or.inl ?_)))
          cases hx : p.pcr with
          | none => rfl
          | some x => exact absurd ⟨pmt, hl, he, hx⟩ (hne x)
        · refine tinv_still hI p (Or.inl ?_)
          simp only [clockPid, hl, Option.map_some, Option.getD_some]
          exact he
      | none =>
        have hnil : pmtsOf o evs = [] := by simpa using hl
        have hsync : needClockSync s = false := by
          have := (hI.clk.sync_iff o.clockTime o.clockPcr).1
            (Or.inl ⟨by simp [hnil], rfl, rfl⟩)
          exact this.1
        exact tinv_still hI p (Or.inr (Or.inr (Or.inr hsync)))
    have hno := no_start_end (o := o) (evs := evs) (p := p) (fun x _ _ h _ => hne x h)
    have := Wait.wait (extra := extra) (s := s) s hstill ⟨rfl, rfl, rfl, rfl, rfl, rfl⟩ hno.1 hno.2
      hst (by simp [hp.2]) rfl
    simpa [hp.1, hp.2] using this
  · next hp =>
    have houts : (if o.preStreaming = true ∧ p.pid = 0 then [Out.orig p] else []) = [] := by
      rw [if_neg]
      rintro ⟨a, b⟩
      apply hp; simp [a, b, pidPat]
    simp only at h
    have hsp := savePat_eq s p
    have hI1 : TInv o (savePat s p) evs := by
      rw [hsp]; exact hI.congr _ s.pk.cur s.pk.count s.streaming
    have hkeep : Keep s (savePat s p) := by rw [hsp]; exact ⟨rfl, rfl, rfl, rfl, rfl, rfl⟩
    have hst1 : (savePat s p).streaming = false := by rw [hsp]; exact hst
    have hpk1 : (savePat s p).pk = s.pk := by rw [hsp]
    generalize hs1 : savePat s p = s1 at *
    have nothing : ∀ (hu : p.pid ≠ clockPid o evs ∨ latestEvent o evs = none ∨ p.pcr = none ∨
          needClockSync s1 = false)
        (hno : ∀ x a b, HasPcr o evs p x → Range o (evs ++ [.pkt p]) a b → False),
        Except.ok (s1, ([] : List Out), true) = (Except.ok (s', outs, more) : Except Fault _) →
        Wait extra o s evs p s' outs more := by
      intro hu hno e
      simp only [Except.ok.injEq, Prod.mk.injEq] at e
      obtain ⟨rfl, rfl, rfl⟩ := e
      have hno := no_start_end hno
      have := Wait.wait (extra := extra) (s := s) s1 (tinv_still hI1 p hu) hkeep hno.1 hno.2 hst1
        (by rw [hs1]; intro _; rfl) hpk1
      rwa [houts] at this
    split at h
    · next hr =>
      refine nothing ?_ ?_ h
      · by_cases he : latestEvent o evs = none
        · exact Or.inr (Or.inl he)
        · have h1 := (event_iff hI1).2 he
          rw [h1] at hr
          simp only [Bool.not_true, Bool.or_false, Bool.not_eq_true'] at hr
          have hl := hI1.pcrReady
          rw [hr] at hl
          have hnil : pmtsOf o evs = [] := by simpa using hl.symm
          exact Or.inr (Or.inr (Or.inr ((hI1.clk.sync_iff o.clockTime o.clockPcr).1
            (Or.inl ⟨by simp [hnil], rfl, rfl⟩)).1))
      · rintro x a b h1 ⟨e, _, _, h2, _⟩
        rw [latestEvent_pkt] at h2
        rw [((hasPcr_iff hI1 p x).1 h1).1, (event_iff hI1).2 (by simp [h2])] at hr
        simp at hr
    · next hr =>
      simp only [Bool.not_eq_true', Bool.or_eq_true, not_or, Bool.not_eq_false] at hr
      split at h
      · next hpid =>
        simp only [bne_iff_ne, ne_eq] at hpid
        refine nothing (Or.inl (by rw [clockPid_ready hI1 hr.1]; exact hpid)) ?_ h
        intro x a b h1 _
        exact hpid ((hasPcr_iff hI1 p x).1 h1).2.1
      · next hpid =>
        simp only [bne_iff_ne, ne_eq, Decidable.not_not] at hpid
        split at h
        · next hx =>
          refine nothing (Or.inr (Or.inr (Or.inl hx))) ?_ h
          intro x a b h1 _
          have := ((hasPcr_iff hI1 p x).1 h1).2.2
          rw [hx] at this; cases this
        · next x hx =>
          obtain ⟨s2, hs2, h⟩ := bind_eq_ok h
          obtain ⟨hI2, a1, a2, a3, a4, he2⟩ := sync_spec hI1 hr.1 hr.2 hpid hx hs2
          have hkeep2 : Keep s s2 := by
            rw [he2]; exact ⟨hkeep.1, hkeep.2, hkeep.3, hkeep.4, hkeep.5, hkeep.6⟩
          have hst2 : s2.streaming = false := by rw [he2]; exact hst1
          have hlp2 : s2.lastPat = s1.lastPat := by rw [he2]
          have hpk2 : s2.pk = s.pk := by rw [he2]; exact hpk1
          have hev2 : s2.eventTimeReady = true := by rw [he2]; exact hr.2
          have hpr2 : s2.pcrPidReady = true := by rw [he2]; exact hr.1
          have hhas : HasPcr o evs p x := (hasPcr_iff hI1 p x).2 ⟨hr.1, hpid, hx⟩
          have huniq : ∀ y, HasPcr o evs p y → y = x := by
            rintro y ⟨_, _, _, hy⟩; rw [hx] at hy; exact (Option.some.inj hy).symm
          split at h
          · next hn =>
            simp only [Except.ok.injEq, Prod.mk.injEq] at h
            obtain ⟨rfl, rfl, rfl⟩ := h
            have hno := no_start_end (o := o) (evs := evs) (p := p) (by
              intro x a b _ h2
              have := ((range_iff hI2 a b).1 h2).2.1
              rw [hn] at this; cases this)
            have := Wait.wait (extra := extra) (s := s) s2 hI2 hkeep2 hno.1 hno.2 hst2
              (by rw [hs1]; intro _; exact hlp2) hpk2
            rwa [houts] at this
          · next hn =>
            have hrange : Range o (evs ++ [.pkt p]) s2.startPcr s2.endPcr :=
              (range_iff hI2 _ _).2 ⟨hev2, by simpa using hn, rfl, rfl⟩
            have hru : ∀ a b, Range o (evs ++ [.pkt p]) a b → a = s2.startPcr ∧ b = s2.endPcr :=
              fun a b h => ((range_iff hI2 a b).1 h).2.2
            obtain ⟨c, hc, h⟩ := bind_eq_ok h
            have hc := compare_spec hc
            split at h
            · next hge =>
              simp only [Except.ok.injEq, Prod.mk.injEq] at h
              obtain ⟨rfl, rfl, rfl⟩ := h
              refine .ended s2 hkeep2 ⟨x, _, _, hhas, hrange, hc.1 hge⟩ ?_
              rintro ⟨y, a, b, h1, h2, _, h4⟩
              rw [huniq y h1, (hru a b h2).2] at h4
              exact h4 (hc.1 hge)
            · next hge =>
              have hnend : ¬ EndAt o evs p := by
                rintro ⟨y, a, b, h1, h2, h3⟩
                rw [huniq y h1, (hru a b h2).2] at h3
                exact hge (hc.2 h3)
              obtain ⟨d, hd, h⟩ := bind_eq_ok h
              have hd := compare_spec hd
              split at h
              · next hlt =>
                simp only [Except.ok.injEq, Prod.mk.injEq] at h
                obtain ⟨rfl, rfl, rfl⟩ := h
                have hns : ¬ StartAt o evs p := by
                  rintro ⟨y, a, b, h1, h2, h3, _⟩
                  rw [huniq y h1, (hru a b h2).1] at h3
                  have := hd.2 h3
                  omega
                have := Wait.wait (extra := extra) (s := s) s2 hI2 hkeep2 hns hnend hst2
                  (by rw [hs1]; intro _; exact hlp2) hpk2
                rwa [houts] at this
              · next hlt =>
                obtain ⟨_, hass, h⟩ := bind_eq_ok h
                have hass := assert_ok hass
                obtain ⟨⟨pmts, s3⟩, hcyc, h⟩ := bind_eq_ok h
                simp only [Except.ok.injEq, Prod.mk.injEq] at h
                obtain ⟨rfl, rfl, rfl⟩ := h
                -- the state before the PMT cycle
                obtain ⟨l, hl⟩ : ∃ l, (if o.preStreaming = true then s2
                    else { s2 with lastPat := [] }) = { s2 with lastPat := l } := by
                  split
                  · exact ⟨s2.lastPat, rfl⟩
                  · exact ⟨[], rfl⟩
                rw [hl] at hcyc
                obtain ⟨hpid3, hsome⟩ := sendCycle_pid hcyc
                simp only [hpk2, hcur, Option.none_or, ne_eq, Option.map_eq_none_iff] at hsome
                obtain ⟨t, ht⟩ := Option.ne_none_iff_exists'.1 hsome
                have hcs := sendCycle_spec (extra := extra)
                  ((({ s2 with lastPat := l } : St).pk.cur.map (extra ·.1)).getD 0 +
                   (({ s2 with lastPat := l } : St).pk.table.map extra).getD 0 + 1)
                  { s2 with lastPat := l } t 0
                  (by simp [hpk2, hcur, ht]) hpid3 (by omega) (by simp [hpk2, hcur, ht])
                rw [hcs] at hcyc
                simp only [Except.ok.injEq, Prod.mk.injEq] at hcyc
                obtain ⟨rfl, rfl⟩ := hcyc
                have hstart : StartAt o evs p :=
                  ⟨x, _, _, hhas, hrange, hd.1 (by omega), fun h => hge (hc.2 h)⟩
                have := Wait.start (extra := extra) (s := s)
                  { s2 with
                    lastPat := l
                    pk := { s2.pk with cur := none, count := s2.pk.count + (extra t - 0 + 1) }
                    streaming := true }
                  (hI2.congr l none _ true)
                  ⟨hkeep2.1, hkeep2.2, hkeep2.3, hkeep2.4, hkeep2.5, hkeep2.6⟩ hstart hnend rfl
                  ⟨hpr2, hev2⟩
                  (by
                    rw [hs1]
                    intro hf
                    rw [hf] at hass
                    simp only [Bool.false_or, Bool.not_eq_true', List.isEmpty_eq_false_iff] at hass
                    rw [← hlp2]; exact hass)
                  t ht (by rw [← hpk2]; exact hpid3.trans hkeep2.pmtPid) rfl
                  (by simp [hpk2])
                rw [hs1, ← hlp2] at this
                simp only [cycle] at this
                simp only [hpk2] at this ⊢
                simpa using this

end Mirakc.ProgramFilter
