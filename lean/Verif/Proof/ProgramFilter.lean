import Verif.Spec.ProgramFilter
import Verif.Spec.PacketLoop
import Verif.Proof.ServiceFilter
import Verif.Proof.Pcr
/-
Proofs about filter-program.
-/
namespace Mirakc.ProgramFilter
open Mirakc.Spec Mirakc.Spec.ProgramFilter
open Mirakc.Spec.ServiceFilter (usablePat validPmt validTot latest)
open Mirakc.ServiceFilter (latest_append latest_some latest_none)
set_option linter.unusedSimpArgs false

/-! Lists of events. -/

/-- `waitReady` without the intermediate `waitStart`. -/
theorem waitReady_eq (extra : Pmt → Nat) (o : Opt) (s : St) (p : Packet) :
    waitReady extra o s p = (do
      if s.stop then .ok ({ s with retry := true }, [], false)
      else if p.pid == pidPat && o.preStreaming then .ok (s, [.orig p], true)
      else
        let s := savePat s p
        if !s.pcrPidReady || !s.eventTimeReady then .ok (s, [], true)
        else if p.pid != s.pcrPid then .ok (s, [], true)
        else
          match p.pcr with
          | none => .ok (s, [], true)
          | some pcr => do
            let s ← syncClock s pcr
            if needClockSync s then .ok (s, [], true)
            else
              let c ← comparePcr pcr s.endPcr
              if c ≥ 0 then .ok (s, [], false)
              else
                let c ← comparePcr pcr s.startPcr
                if c < 0 then .ok (s, [], true)
                else
                  assertThat (o.preStreaming || !s.lastPat.isEmpty)
                  let pats := if o.preStreaming then [] else s.lastPat.map Out.orig
                  let s := if o.preStreaming then s else { s with lastPat := [] }
                  let fuel := ((s.pk.cur.map (extra ·.1)).getD 0) + ((s.pk.table.map extra).getD 0) + 1
                  let (pmts, s) ← sendCycle extra fuel s
                  .ok ({ s with streaming := true }, pats ++ pmts ++ [.orig p], true)) := by
  unfold waitReady waitStart pendingPat
  split
  · rfl
  split
  · rfl
  dsimp only
  split
  · rfl
  split
  · rfl
  cases p.pcr with
  | none => rfl
  | some pcr =>
    dsimp only
    cases syncClock (savePat s p) pcr with
    | error e => rfl
    | ok s =>
      simp only [ok_bind]
      split
      · rfl
      cases comparePcr pcr s.endPcr with
      | error e => rfl
      | ok c =>
        simp only [ok_bind]
        split
        · rfl
        cases comparePcr pcr s.startPcr with
        | error e => rfl
        | ok c =>
          simp only [ok_bind]
          split
          · rfl
          cases assertThat (o.preStreaming || !s.lastPat.isEmpty) with
          | error e => rfl
          | ok c => rfl

@[simp] theorem tables_append (a b : List Ev) : tables (a ++ b) = tables a ++ tables b := by
  simp [tables]
@[simp] theorem tables_tab (t : Table) : tables [.tab t] = [t] := rfl
@[simp] theorem tables_pkt (p : Packet) : tables [.pkt p] = [] := rfl
@[simp] theorem tables_nil : tables [] = [] := rfl
@[simp] theorem packets_append (a b : List Ev) : packets (a ++ b) = packets a ++ packets b := by
  simp [packets]
@[simp] theorem packets_tab (t : Table) : packets [.tab t] = [] := rfl
@[simp] theorem packets_pkt (p : Packet) : packets [.pkt p] = [p] := rfl
@[simp] theorem packets_nil : packets [] = [] := rfl

@[simp] theorem pmtsOf_append (o : Opt) (a b : List Ev) :
    pmtsOf o (a ++ b) = pmtsOf o a ++ pmtsOf o b := by simp [pmtsOf]
@[simp] theorem pmtsOf_pkt (o : Opt) (p : Packet) : pmtsOf o [.pkt p] = [] := by simp [pmtsOf]
@[simp] theorem pmtsOf_nil (o : Opt) : pmtsOf o [] = [] := rfl
theorem pmtsOf_tab (o : Opt) (t : Table) : pmtsOf o [.tab t] = (validPmt o.sid t).toList := by
  cases h : validPmt o.sid t <;> simp [pmtsOf, h]
@[simp] theorem totsOf_append (a b : List Ev) : totsOf (a ++ b) = totsOf a ++ totsOf b := by
  simp [totsOf]
@[simp] theorem totsOf_pkt (p : Packet) : totsOf [.pkt p] = [] := by simp [totsOf]
@[simp] theorem totsOf_nil : totsOf [] = [] := rfl
theorem totsOf_tab (t : Table) : totsOf [.tab t] = (validTot t).toList := by
  cases h : validTot t <;> simp [totsOf, h]

@[simp] theorem tables_cons_tab (t : Table) (l : List Ev) : tables (.tab t :: l) = t :: tables l := rfl
@[simp] theorem tables_cons_pkt (p : Packet) (l : List Ev) : tables (.pkt p :: l) = tables l := rfl
@[simp] theorem packets_cons_tab (t : Table) (l : List Ev) : packets (.tab t :: l) = packets l := rfl
@[simp] theorem packets_cons_pkt (p : Packet) (l : List Ev) :
    packets (.pkt p :: l) = p :: packets l := rfl
@[simp] theorem pmtsOf_cons_tab (o : Opt) (t : Table) (l : List Ev) :
    pmtsOf o (.tab t :: l) = (validPmt o.sid t).toList ++ pmtsOf o l := by
  rw [← pmtsOf_tab, ← pmtsOf_append]; rfl
@[simp] theorem pmtsOf_cons_pkt (o : Opt) (p : Packet) (l : List Ev) :
    pmtsOf o (.pkt p :: l) = pmtsOf o l := rfl
@[simp] theorem totsOf_cons_tab (t : Table) (l : List Ev) :
    totsOf (.tab t :: l) = (validTot t).toList ++ totsOf l := by
  rw [← totsOf_tab, ← totsOf_append]; rfl
@[simp] theorem totsOf_cons_pkt (p : Packet) (l : List Ev) : totsOf (.pkt p :: l) = totsOf l := rfl

theorem latestEvent_pkt (o : Opt) (evs : List Ev) (p : Packet) :
    latestEvent o (evs ++ [.pkt p]) = latestEvent o evs := by simp [latestEvent]
theorem latestPmt_pkt (o : Opt) (evs : List Ev) (p : Packet) :
    latestPmt o (evs ++ [.pkt p]) = latestPmt o evs := by simp [latestPmt]
theorem clockPid_pkt (o : Opt) (evs : List Ev) (p : Packet) :
    clockPid o (evs ++ [.pkt p]) = clockPid o evs := by simp [clockPid]

theorem pcrsOn_append (o : Opt) (pid : Nat) : ∀ (xs pre ys : List Ev),
    pcrsOn o pid pre (xs ++ ys) = pcrsOn o pid pre xs ++ pcrsOn o pid (pre ++ xs) ys := by
  intro xs
  induction xs with
  | nil => intro pre ys; simp [pcrsOn]
  | cons x xs ih =>
    intro pre ys
    cases x with
    | tab t => simp only [List.cons_append, pcrsOn]; rw [ih]; simp
    | pkt p => simp only [List.cons_append, pcrsOn]; rw [ih]; simp

@[simp] theorem pcrsOn_tab (o : Opt) (pid : Nat) (pre : List Ev) (t : Table) :
    pcrsOn o pid pre [.tab t] = [] := rfl
theorem pcrsOn_pkt (o : Opt) (pid : Nat) (pre : List Ev) (p : Packet) :
    pcrsOn o pid pre [.pkt p] =
      if p.pid = pid ∧ latestEvent o pre ≠ none then p.pcr.toList else [] := by
  simp [pcrsOn]

theorem split_cases {α} {a b a' b' : List α} {x x' : α} (h : a ++ x :: b = a' ++ x' :: b') :
    (a = a' ∧ x = x' ∧ b = b') ∨ (∃ m, a' = a ++ x :: m ∧ b = m ++ x' :: b') ∨
    (∃ m, a = a' ++ x' :: m ∧ b' = m ++ x :: b) := by
  rcases List.append_eq_append_iff.1 h with ⟨c, h1, h2⟩ | ⟨c, h1, h2⟩
  · cases c with
    | nil =>
      simp only [List.nil_append, List.cons.injEq, List.append_nil] at h1 h2
      exact Or.inl ⟨h1.symm, h2.1, h2.2⟩
    | cons y c =>
      simp only [List.cons_append, List.cons.injEq] at h2
      obtain ⟨rfl, rfl⟩ := h2
      exact Or.inr (Or.inl ⟨c, h1, rfl⟩)
  · cases c with
    | nil =>
      simp only [List.nil_append, List.cons.injEq, List.append_nil] at h1 h2
      exact Or.inl ⟨h1, h2.1.symm, h2.2.symm⟩
    | cons y c =>
      simp only [List.cons_append, List.cons.injEq] at h2
      obtain ⟨rfl, rfl⟩ := h2
      exact Or.inr (Or.inr ⟨c, h1, rfl⟩)

/-! The clock. -/

/-- The clock part of the state in terms of the events. -/
inductive Clk (o : Opt) (s : St) (evs : List Ev) : Prop
  | initial (h1 : ∀ pmt ∈ pmtsOf o evs, pmt.pcrPid = o.clockPid) (h2 : s.clockTimeReady = true)
      (h3 : s.clockPcrReady = true) (h4 : s.clockTime = o.clockTime) (h5 : s.clockPcr = o.clockPcr)
  | noTime (h : List Ev) (t : Table) (since : List Ev) (pid : Nat)
      (h0 : evs = h ++ [.tab t] ++ since) (h1 : Changed o h t since pid)
      (h2 : s.clockTimeReady = false) (h3 : totsOf since = [])
      (h4 : (pcrsOn o pid (h ++ [.tab t]) since).getLast? =
        if s.clockPcrReady then some s.clockPcr else none)
  | time (h : List Ev) (t : Table) (a : List Ev) (tot : Table) (b : List Ev) (pid : Nat)
      (h0 : evs = h ++ [.tab t] ++ a ++ [.tab tot] ++ b)
      (h1 : Changed o h t (a ++ [.tab tot] ++ b) pid)
      (h2 : s.clockTimeReady = true) (h3 : validTot tot = some s.clockTime) (h4 : totsOf a = [])
      (h5 : if s.clockPcrReady then
          (pcrsOn o pid (h ++ [.tab t]) a).getLast? = some s.clockPcr ∨
          (pcrsOn o pid (h ++ [.tab t]) a = [] ∧
            (pcrsOn o pid (h ++ [.tab t] ++ a ++ [.tab tot]) b).head? = some s.clockPcr)
        else pcrsOn o pid (h ++ [.tab t]) a = [] ∧
          pcrsOn o pid (h ++ [.tab t] ++ a ++ [.tab tot]) b = [])

/-- Only the clock members matter. -/
theorem Clk.congr {o : Opt} {s s' : St} {evs : List Ev} (h : Clk o s evs)
    (e1 : s'.clockTimeReady = s.clockTimeReady) (e2 : s'.clockPcrReady = s.clockPcrReady)
    (e3 : s'.clockTime = s.clockTime) (e4 : s'.clockPcr = s.clockPcr) : Clk o s' evs := by
  cases h with
  | initial h1 h2 h3 h4 h5 =>
    exact .initial h1 (e1 ▸ h2) (e2 ▸ h3) (e3 ▸ h4) (e4 ▸ h5)
  | noTime h t since pid h0 h1 h2 h3 h4 =>
    exact .noTime h t since pid h0 h1 (e1 ▸ h2) h3 (by rw [e2, e4]; exact h4)
  | time h t a tot b pid h0 h1 h2 h3 h4 h5 =>
    exact .time h t a tot b pid h0 h1 (e1 ▸ h2) (e3 ▸ h3) h4 (by rw [e2, e4]; exact h5)

theorem changed_clockPid {o : Opt} {h since : List Ev} {t : Table} {pid : Nat}
    (hc : Changed o h t since pid) : clockPid o (h ++ [.tab t] ++ since) = pid := by
  obtain ⟨⟨pmt, h1, h2⟩, _, h3⟩ := hc
  simp only [clockPid, pmtsOf_append, pmtsOf_tab, h1, Option.toList_some]
  cases hs : (pmtsOf o since).getLast? with
  | none =>
    have : pmtsOf o since = [] := by simpa using hs
    simp [this, h2]
  | some p =>
    have hp := h3 p (List.mem_of_getLast? hs)
    rw [List.getLast?_append, hs]
    simpa using hp

theorem changed_mem {o : Opt} {h since : List Ev} {t : Table} {pid : Nat}
    (hc : Changed o h t since pid) : ∃ pmt ∈ pmtsOf o (h ++ [.tab t] ++ since), pmt.pcrPid = pid := by
  obtain ⟨⟨pmt, h1, h2⟩, _, _⟩ := hc
  exact ⟨pmt, by simp [pmtsOf_tab, h1], h2⟩

theorem clockPid_const {o : Opt} {h : List Ev} (hc : ∀ pmt ∈ pmtsOf o h, pmt.pcrPid = o.clockPid) :
    clockPid o h = o.clockPid := by
  unfold clockPid
  cases hs : (pmtsOf o h).getLast? with
  | none => rfl
  | some p => simpa using hc p (List.mem_of_getLast? hs)

/-- No change happened if the PID always was the initial one. -/
theorem changed_not_const {o : Opt} {h since : List Ev} {t : Table} {pid : Nat}
    (hc : Changed o h t since pid)
    (hall : ∀ pmt ∈ pmtsOf o (h ++ [.tab t] ++ since), pmt.pcrPid = o.clockPid) : False := by
  obtain ⟨pmt, hm, hp⟩ := changed_mem hc
  apply hc.change
  rw [clockPid_const (fun p hp => hall p (by simp [hp])), ← hp]
  exact hall pmt hm

/-- The last change is unique. -/
theorem changed_unique {o : Opt} {h since h' since' : List Ev} {t t' : Table} {pid pid' : Nat}
    (hc : Changed o h t since pid) (hc' : Changed o h' t' since' pid')
    (e : h ++ [.tab t] ++ since = h' ++ [.tab t'] ++ since') :
    h = h' ∧ t = t' ∧ since = since' ∧ pid = pid' := by
  have key : ∀ {h since h' since' : List Ev} {t t' : Table} {pid pid' : Nat},
      Changed o h t since pid → Changed o h' t' since' pid' →
      ∀ m, h' = h ++ .tab t :: m → since = m ++ .tab t' :: since' → False := by
    intro h since h' since' t t' pid pid' hc hc' m e1 e2
    obtain ⟨pmt', hv, hp⟩ := hc'.new
    have h1 : pid' = pid := by
      rw [← hp]
      apply hc.same
      rw [e2, show m ++ Ev.tab t' :: since' = m ++ [.tab t'] ++ since' by simp]
      simp [pmtsOf_tab, hv]
    apply hc'.change
    rw [h1, e1, show h ++ Ev.tab t :: m = h ++ [.tab t] ++ m by simp]
    refine (changed_clockPid ⟨hc.new, hc.change, ?_⟩).symm
    intro p hp
    apply hc.same
    rw [e2]
    simp [hp]
  have e' : h ++ .tab t :: since = h' ++ .tab t' :: since' := by simpa using e
  rcases split_cases e' with ⟨h1, h2, h3⟩ | ⟨m, h1, h2⟩ | ⟨m, h1, h2⟩
  · cases h2
    refine ⟨h1, rfl, h3, ?_⟩
    obtain ⟨p1, a1, a2⟩ := hc.new
    obtain ⟨p2, b1, b2⟩ := hc'.new
    rw [a1] at b1; cases b1
    rw [← a2, b2]
  · exact (key hc hc' m h1 h2).elim
  · exact (key hc' hc m h1 h2).elim

theorem tot_unique {a b a' b' : List Ev} {t t' : Table} {x x' : Int}
    (h1 : totsOf a = []) (h1' : totsOf a' = []) (h2 : validTot t = some x)
    (h2' : validTot t' = some x') (e : a ++ [.tab t] ++ b = a' ++ [.tab t'] ++ b') :
    a = a' ∧ t = t' ∧ b = b' := by
  have e' : a ++ .tab t :: b = a' ++ .tab t' :: b' := by simpa using e
  rcases split_cases e' with ⟨h1, h2, h3⟩ | ⟨m, e1, e2⟩ | ⟨m, e1, e2⟩
  · cases h2; exact ⟨h1, rfl, h3⟩
  · rw [e1, show a ++ Ev.tab t :: m = a ++ [.tab t] ++ m by simp] at h1'
    simp [totsOf_tab, h2] at h1'
  · rw [e1, show a' ++ Ev.tab t' :: m = a' ++ [.tab t'] ++ m by simp] at h1
    simp [totsOf_tab, h2'] at h1

/-- The clock is in sync exactly when the state says so, with the values of the
state. -/
theorem Clk.sync_iff {o : Opt} {s : St} {evs : List Ev} (hk : Clk o s evs) (t0 p0 : Int) :
    Sync o evs t0 p0 ↔ needClockSync s = false ∧ t0 = s.clockTime ∧ p0 = s.clockPcr := by
  cases hk with
  | initial h1 h2 h3 h4 h5 =>
    simp only [needClockSync, h2, h3, Bool.not_true, Bool.or_self, true_and, h4, h5]
    constructor
    · rintro (⟨_, a, b⟩ | ⟨h, t, a, tot, b, pid, e, hc, _⟩)
      · exact ⟨a, b⟩
      · exfalso
        subst e
        exact changed_not_const hc (by simpa using h1)
    · rintro ⟨a, b⟩
      exact Or.inl ⟨h1, a, b⟩
  | noTime h t since pid h0 h1 h2 h3 h4 =>
    simp only [needClockSync, h2, Bool.not_false, Bool.true_or, Bool.true_eq_false, false_and,
      iff_false]
    rintro (⟨a, _⟩ | ⟨h', t', a, tot, b, pid', e, hc, hv, _⟩)
    · subst h0; exact changed_not_const h1 a
    · have := changed_unique h1 hc (by rw [← h0, e]; simp)
      rw [this.2.2.1] at h3
      simp [totsOf_tab, hv] at h3
  | time h t a tot b pid h0 h1 h2 h3 h4 h5 =>
    cases hr : s.clockPcrReady with
    | false =>
      simp only [needClockSync, hr, Bool.not_false, Bool.or_true, Bool.true_eq_false, false_and,
        iff_false]
      rw [hr] at h5
      simp only [Bool.false_eq_true, if_false] at h5
      rintro (⟨c, _⟩ | ⟨h', t', a', tot', b', pid', e, hc, hv, ht, hd⟩)
      · subst h0; exact changed_not_const h1 (by simpa using c)
      · obtain ⟨e1, e2, e3, e4⟩ := changed_unique h1 hc (by
          have : h ++ [.tab t] ++ (a ++ [.tab tot] ++ b) = evs := by rw [h0]; simp
          rw [this, e]; simp)
        obtain ⟨e5, e6, e7⟩ := tot_unique h4 ht h3 hv e3
        subst e1 e2 e4 e5 e6 e7
        rw [h5.1, h5.2] at hd
        simp at hd
    | true =>
      simp only [needClockSync, h2, hr, Bool.not_true, Bool.or_self, true_and]
      rw [hr] at h5
      simp only [if_true] at h5
      constructor
      · rintro (⟨c, _⟩ | ⟨h', t', a', tot', b', pid', e, hc, hv, ht, hd⟩)
        · subst h0; exact (changed_not_const h1 (by simpa using c)).elim
        · obtain ⟨e1, e2, e3, e4⟩ := changed_unique h1 hc (by
            have : h ++ [.tab t] ++ (a ++ [.tab tot] ++ b) = evs := by rw [h0]; simp
            rw [this, e]; simp)
          obtain ⟨e5, e6, e7⟩ := tot_unique h4 ht h3 hv e3
          subst e1 e2 e4 e5 e6 e7
          rw [h3] at hv
          refine ⟨(Option.some.inj hv).symm, ?_⟩
          rcases h5 with h5 | h5 <;> rcases hd with hd | hd
          · rw [h5] at hd; exact (Option.some.inj hd).symm
          · rw [hd.1] at h5; simp at h5
          · rw [h5.1] at hd; simp at hd
          · rw [h5.2] at hd; exact (Option.some.inj hd.2).symm
      · rintro ⟨rfl, rfl⟩
        exact Or.inr ⟨h, t, a, tot, b, pid, h0, h1, h3, h4, h5⟩

/-- The clock PID is the PID of the last change. -/
theorem Clk.after_packet {o : Opt} {s : St} {evs : List Ev} (hk : Clk o s evs) (p : Packet)
    (hu : p.pid ≠ clockPid o evs ∨ latestEvent o evs = none ∨ p.pcr = none ∨
      needClockSync s = false) : Clk o s (evs ++ [.pkt p]) := by
  cases hk with
  | initial h1 h2 h3 h4 h5 => exact .initial (by simpa using h1) h2 h3 h4 h5
  | noTime h t since pid h0 h1 h2 h3 h4 =>
    have hpid := changed_clockPid h1
    rw [← h0] at hpid
    refine .noTime h t (since ++ [.pkt p]) pid (by rw [h0]; simp) ⟨h1.new, h1.change, ?_⟩ h2
      (by simpa using h3) ?_
    · simpa using h1.same
    · rw [pcrsOn_append, pcrsOn_pkt, ← h0]
      have : (if p.pid = pid ∧ latestEvent o evs ≠ none then p.pcr.toList else []) = [] := by
        rcases hu with hu | hu | hu | hu
        · rw [if_neg]; rw [hpid] at hu; simp [hu]
        · simp [hu]
        · simp [hu]
        · simp [needClockSync, h2] at hu
      rw [this]
      simpa using h4
  | time h t a tot b pid h0 h1 h2 h3 h4 h5 =>
    have hpid := changed_clockPid h1
    rw [show h ++ [.tab t] ++ (a ++ [.tab tot] ++ b) = evs by rw [h0]; simp] at hpid
    refine .time h t a tot (b ++ [.pkt p]) pid (by rw [h0]; simp) ⟨h1.new, h1.change, ?_⟩ h2 h3 h4 ?_
    · intro pmt hm; exact h1.same pmt (by simpa using hm)
    · cases hr : s.clockPcrReady with
      | true =>
        rw [hr] at h5
        simp only [if_true] at h5 ⊢
        rcases h5 with h5 | h5
        · exact Or.inl h5
        · refine Or.inr ⟨h5.1, ?_⟩
          rw [pcrsOn_append, List.head?_append, h5.2]; rfl
      | false =>
        rw [hr] at h5
        simp only [Bool.false_eq_true, if_false] at h5 ⊢
        refine ⟨h5.1, ?_⟩
        rw [pcrsOn_append, h5.2, pcrsOn_pkt]
        rw [show h ++ [.tab t] ++ a ++ [.tab tot] ++ b = evs from h0.symm]
        rcases hu with hu | hu | hu | hu
        · rw [if_neg]; rfl; rw [hpid] at hu; simp [hu]
        · simp [hu]
        · simp [hu]
        · simp [needClockSync, hr] at hu

/-- A PCR on the clock PID while the clock is not in sync. -/
theorem Clk.pcr {o : Opt} {s s' : St} {evs : List Ev} (hk : Clk o s evs) (p : Packet) (x : Int)
    (hp : p.pid = clockPid o evs) (he : latestEvent o evs ≠ none) (hx : p.pcr = some x)
    (hn : needClockSync s = true)
    (e1 : s'.clockTimeReady = s.clockTimeReady) (e2 : s'.clockPcrReady = true)
    (e3 : s'.clockTime = s.clockTime) (e4 : s'.clockPcr = x) : Clk o s' (evs ++ [.pkt p]) := by
  cases hk with
  | initial h1 h2 h3 h4 h5 => simp [needClockSync, h2, h3] at hn
  | noTime h t since pid h0 h1 h2 h3 h4 =>
    have hpid := changed_clockPid h1
    rw [← h0] at hpid
    refine .noTime h t (since ++ [.pkt p]) pid (by rw [h0]; simp) ⟨h1.new, h1.change, ?_⟩
      (by rw [e1, h2]) (by simpa using h3) ?_
    · simpa using h1.same
    · rw [pcrsOn_append, pcrsOn_pkt, ← h0, if_pos ⟨by rw [hp, hpid], he⟩, hx, e2, e4]
      simp
  | time h t a tot b pid h0 h1 h2 h3 h4 h5 =>
    have hpid := changed_clockPid h1
    rw [show h ++ [.tab t] ++ (a ++ [.tab tot] ++ b) = evs by rw [h0]; simp] at hpid
    have hr : s.clockPcrReady = false := by
      simpa [needClockSync, h2] using hn
    rw [hr] at h5
    simp only [Bool.false_eq_true, if_false] at h5
    refine .time h t a tot (b ++ [.pkt p]) pid (by rw [h0]; simp) ⟨h1.new, h1.change, ?_⟩
      (by rw [e1, h2]) (by rw [e3]; exact h3) h4 ?_
    · intro pmt hm; exact h1.same pmt (by simpa using hm)
    · rw [e2]
      simp only [if_true]
      refine Or.inr ⟨h5.1, ?_⟩
      rw [pcrsOn_append, h5.2, pcrsOn_pkt]
      rw [show h ++ [.tab t] ++ a ++ [.tab tot] ++ b = evs from h0.symm]
      rw [if_pos ⟨by rw [hp, hpid], he⟩, hx, e4]
      rfl

/-- A table without a PMT that changes the PCR PID, and without the first TOT. -/
theorem Clk.table {o : Opt} {s : St} {evs : List Ev} (hk : Clk o s evs) (t' : Table)
    (h1' : ∀ pmt, validPmt o.sid t' = some pmt → pmt.pcrPid = clockPid o evs)
    (h2' : validTot t' = none ∨ s.clockTimeReady = true) : Clk o s (evs ++ [.tab t']) := by
  have hmem : ∀ pmt ∈ pmtsOf o [.tab t'], pmt.pcrPid = clockPid o evs := by
    intro pmt hm
    rw [pmtsOf_tab] at hm
    exact h1' pmt (by simpa using hm)
  cases hk with
  | initial h1 h2 h3 h4 h5 =>
    refine .initial ?_ h2 h3 h4 h5
    intro pmt hm
    rw [pmtsOf_append, List.mem_append] at hm
    rcases hm with hm | hm
    · exact h1 pmt hm
    · rw [hmem pmt hm, clockPid_const h1]
  | noTime h t since pid h0 h1 h2 h3 h4 =>
    have hpid := changed_clockPid h1
    rw [← h0] at hpid
    have hv : validTot t' = none := by
      rcases h2' with h | h
      · exact h
      · rw [h2] at h; cases h
    refine .noTime h t (since ++ [.tab t']) pid (by rw [h0]; simp) ⟨h1.new, h1.change, ?_⟩ h2
      (by simp [h3, totsOf_tab, hv]) (by rw [pcrsOn_append]; simpa using h4)
    intro pmt hm
    rw [pmtsOf_append, List.mem_append] at hm
    rcases hm with hm | hm
    · exact h1.same pmt hm
    · rw [hmem pmt hm, hpid]
  | time h t a tot b pid h0 h1 h2 h3 h4 h5 =>
    have hpid := changed_clockPid h1
    rw [show h ++ [.tab t] ++ (a ++ [.tab tot] ++ b) = evs by rw [h0]; simp] at hpid
    refine .time h t a tot (b ++ [.tab t']) pid (by rw [h0]; simp) ⟨h1.new, h1.change, ?_⟩ h2 h3 h4 ?_
    · intro pmt hm
      rw [show a ++ [.tab tot] ++ (b ++ [.tab t']) = (a ++ [.tab tot] ++ b) ++ [.tab t'] by simp,
        pmtsOf_append, List.mem_append] at hm
      rcases hm with hm | hm
      · exact h1.same pmt hm
      · rw [hmem pmt hm, hpid]
    · rw [pcrsOn_append]
      simpa using h5

/-- The first TOT after a change. -/
theorem Clk.tot {o : Opt} {s s' : St} {evs : List Ev} (hk : Clk o s evs) (t' : Table) (x : Int)
    (hv : validTot t' = some x) (hn : validPmt o.sid t' = none) (hr : s.clockTimeReady = false)
    (e1 : s'.clockTimeReady = true) (e2 : s'.clockPcrReady = s.clockPcrReady)
    (e3 : s'.clockTime = x) (e4 : s'.clockPcr = s.clockPcr) : Clk o s' (evs ++ [.tab t']) := by
  cases hk with
  | initial h1 h2 h3 h4 h5 => rw [hr] at h2; cases h2
  | time h t a tot b pid h0 h1 h2 h3 h4 h5 => rw [hr] at h2; cases h2
  | noTime h t since pid h0 h1 h2 h3 h4 =>
    refine .time h t since t' [] pid (by rw [h0]; simp) ⟨h1.new, h1.change, ?_⟩ e1
      (by rw [e3]; exact hv) h3 ?_
    · intro pmt hm
      simp only [List.append_nil, pmtsOf_append, pmtsOf_tab, hn, Option.toList_none] at hm
      exact h1.same pmt hm
    · rw [e2, e4]
      cases hr : s.clockPcrReady with
      | true =>
        rw [hr] at h4
        simp only [if_true] at h4 ⊢
        exact Or.inl h4
      | false =>
        rw [hr] at h4
        simp only [Bool.false_eq_true, if_false] at h4 ⊢
        exact ⟨by simpa using h4, rfl⟩

/-- A PMT that changes the PCR PID. -/
theorem Clk.change {o : Opt} {s' : St} {evs : List Ev} (t' : Table) (pmt : Pmt)
    (hv : validPmt o.sid t' = some pmt) (hc : pmt.pcrPid ≠ clockPid o evs)
    (e1 : s'.clockTimeReady = false) (e2 : s'.clockPcrReady = false) :
    Clk o s' (evs ++ [.tab t']) :=
  .noTime evs t' [] pmt.pcrPid (by simp) ⟨⟨pmt, hv, rfl⟩, hc, by simp⟩ e1 rfl
    (by rw [e2]; rfl)

end Mirakc.ProgramFilter
