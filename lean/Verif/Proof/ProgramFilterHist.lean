import Verif.Proof.ProgramFilterRun
/-
filter-program: streaming, and whole histories.
-/
namespace Mirakc.ProgramFilter
open Mirakc.Spec Mirakc.Spec.ProgramFilter
open Mirakc.Spec.ServiceFilter (usablePat validPmt validTot latest)
open Mirakc.ServiceFilter (latest_append latest_some latest_none)
set_option linter.unusedSimpArgs false

/-- The PCR PID is exempt from the treatment of PMT and excluded PIDs, when the packet
has no PCR or the clock is not in sync. -/
theorem exempt_iff {o : Opt} {s s' : St} {evs : List Ev} {p : Packet} (hI : TInv o s evs)
    (hI' : TInv o s' (evs ++ [.pkt p])) (hr : s.pcrPidReady = true) (he : s'.eventTimeReady = true) :
    Exempt o evs p ↔ p.pid = s.pcrPid ∧ (p.pcr = none ∨ needClockSync s' = true) := by
  unfold Exempt
  rw [hI.pcrReady] at hr
  obtain ⟨pmt, hl⟩ := Option.isSome_iff_exists.1 hr
  rw [hI.pcrPid _ hl]
  constructor
  · rintro ⟨pmt', h1, h2, h3⟩
    rw [hl] at h1; cases h1
    refine ⟨h2, h3.imp id fun h => ?_⟩
    cases hn : needClockSync s' with
    | true => rfl
    | false => exact absurd ((range_iff hI' _ _).2 ⟨he, hn, rfl, rfl⟩) (h _ _)
  · rintro ⟨h1, h2⟩
    refine ⟨pmt, hl, h1, h2.imp id fun h a b hr => ?_⟩
    have := ((range_iff hI' a b).1 hr).2.1
    rw [h] at this; cases this

/-- What happens to a packet while streaming, when nothing was cancelled. -/
inductive Strm (extra : Pmt → Nat) (o : Opt) (s : St) (evs : List Ev) (p : Packet) :
    St → List Out → Bool → Prop where
  | ended (s' : St) (keep : Keep s s') (h : EndAt o evs p) : Strm extra o s evs p s' [] false
  | orig (s' : St) (inv : TInv o s' (evs ++ [.pkt p])) (keep : Keep s s') (h : ¬ EndAt o evs p)
      (st : s'.streaming = s.streaming) (ready : s'.pcrPidReady = true ∧ s'.eventTimeReady = true)
      (pk : s'.pk = s.pk)
      (hf : Exempt o evs p ∨ (p.pid ≠ s.pmtPid ∧ ¬ ExcludedPid o evs p.pid)) :
      Strm extra o s evs p s' [.orig p] true
  | drop (s' : St) (inv : TInv o s' (evs ++ [.pkt p])) (keep : Keep s s') (h : ¬ EndAt o evs p)
      (st : s'.streaming = s.streaming) (ready : s'.pcrPidReady = true ∧ s'.eventTimeReady = true)
      (pk : s'.pk = s.pk) (hf : ¬ Exempt o evs p ∧ p.pid ≠ s.pmtPid ∧ ExcludedPid o evs p.pid) :
      Strm extra o s evs p s' [] true
  | pmt (s' : St) (inv : TInv o s' (evs ++ [.pkt p])) (keep : Keep s s') (h : ¬ EndAt o evs p)
      (st : s'.streaming = s.streaming) (ready : s'.pcrPidReady = true ∧ s'.eventTimeReady = true)
      (hf : ¬ Exempt o evs p ∧ p.pid = s.pmtPid) (t : Pmt) (i : Nat)
      (next : s.pk.cur.or (s.pk.table.map (·, 0)) = some (t, i)) (pid : s.pk.pid = s.pmtPid)
      (cur : s'.pk.cur = if i < extra t then some (t, i + 1) else none)
      (count : s'.pk.count = s.pk.count + 1) :
      Strm extra o s evs p s' [.pmt s.pk.pid t i s.pk.count] true

theorem forward_spec {extra : Pmt → Nat} {o : Opt} {s s1 s' : St} {evs : List Ev} {p : Packet}
    {outs : List Out} {more : Bool} (hI1 : TInv o s1 (evs ++ [.pkt p]))
    (keep : Keep s s1) (hend : ¬ EndAt o evs p) (st : s1.streaming = s.streaming)
    (ready : s1.pcrPidReady = true ∧ s1.eventTimeReady = true) (hpk : s1.pk = s.pk)
    (hx : ¬ Exempt o evs p) (h : forward extra s1 p = .ok (s', outs, more)) :
    Strm extra o s evs p s' outs more := by
  have hb : ∀ pid, pid ∈ s1.black ↔ ExcludedPid o evs pid := by
    intro pid; rw [hI1.black, excludedPid_pkt]
  unfold forward at h
  split at h
  · next hp =>
    obtain ⟨⟨x, s2⟩, h1, h⟩ := bind_eq_ok h
    simp only [Except.ok.injEq, Prod.mk.injEq] at h
    obtain ⟨rfl, rfl, rfl⟩ := h
    unfold nextPmt at h1
    obtain ⟨⟨y, pk⟩, h2, h1⟩ := bind_eq_ok h1
    obtain ⟨_, h3, h1⟩ := bind_eq_ok h1
    have h3 := assert_ok h3
    simp only [Except.ok.injEq, Prod.mk.injEq] at h1
    obtain ⟨rfl, rfl⟩ := h1
    unfold Packetizer.next at h2
    split at h2
    · cases h2
    · next t i hn =>
      simp only [Except.ok.injEq, Prod.mk.injEq] at h2
      obtain ⟨rfl, rfl⟩ := h2
      simp only [beq_iff_eq] at h3 hp
      rw [keep.pmtPid] at hp h3
      have e : Out.pmt s1.pk.pid t i s1.pk.count = Out.pmt s.pk.pid t i s.pk.count := by rw [hpk]
      rw [e]
      refine .pmt (extra := extra) { s1 with pk := { s1.pk with
          cur := if i < extra t then some (t, i + 1) else none, count := s1.pk.count + 1 } }
        ?_ ⟨keep.1, keep.2, keep.3, keep.4, by simp [hpk], by simp [hpk]⟩ hend st ready
        ⟨hx, hp⟩ t i (by rw [← hpk]; exact hn) (by rw [← hpk]; exact h3) rfl (by simp [hpk])
      exact hI1.congr s1.lastPat (if i < extra t then some (t, i + 1) else none) (s1.pk.count + 1)
        s1.streaming
  · next hp =>
    simp only [beq_iff_eq] at hp
    rw [keep.pmtPid] at hp
    split at h
    · next hc =>
      simp only [Except.ok.injEq, Prod.mk.injEq] at h
      obtain ⟨rfl, rfl, rfl⟩ := h
      exact .drop _ hI1 keep hend st ready hpk ⟨hx, hp, (hb _).1 (by simpa using hc)⟩
    · next hc =>
      simp only [Except.ok.injEq, Prod.mk.injEq] at h
      obtain ⟨rfl, rfl, rfl⟩ := h
      exact .orig _ hI1 keep hend st ready hpk (Or.inr ⟨hp, fun h => hc (by simpa using (hb _).2 h)⟩)

theorem strm_spec {extra : Pmt → Nat} {o : Opt} {s s' : St} {evs : List Ev} {p : Packet}
    {outs : List Out} {more : Bool} (hI : TInv o s evs) (hstop : s.stop = false)
    (hr : s.pcrPidReady = true) (he : s.eventTimeReady = true)
    (h : doStreaming extra s p = .ok (s', outs, more)) : Strm extra o s evs p s' outs more := by
  unfold doStreaming at h
  rw [if_neg (by simp [hstop])] at h
  have kk : Keep s s := ⟨rfl, rfl, rfl, rfl, rfl, rfl⟩
  split at h
  · next hp =>
    simp only [beq_iff_eq] at hp
    split at h
    · next hx =>
      simp only [Except.ok.injEq, Prod.mk.injEq] at h
      obtain ⟨rfl, rfl, rfl⟩ := h
      have hI1 := tinv_still hI p (Or.inr (Or.inr (Or.inl hx)))
      refine .orig _ hI1 kk ?_ rfl ⟨hr, he⟩ rfl (Or.inl ((exempt_iff hI hI1 hr he).2 ⟨hp, Or.inl hx⟩))
      rintro ⟨_, _, _, ⟨_, _, _, h3⟩, _⟩
      rw [hx] at h3; cases h3
    · next x hx =>
      obtain ⟨s2, hs2, h⟩ := bind_eq_ok h
      obtain ⟨hI2, a1, a2, a3, a4, he2⟩ := sync_spec hI hr he hp hx hs2
      have k2 : Keep s s2 := by rw [he2]; exact ⟨rfl, rfl, rfl, rfl, rfl, rfl⟩
      have st2 : s2.streaming = s.streaming := by rw [he2]
      have pk2 : s2.pk = s.pk := by rw [he2]
      have r2 : s2.pcrPidReady = true ∧ s2.eventTimeReady = true := by rw [he2]; exact ⟨hr, he⟩
      have hhas : HasPcr o evs p x := (hasPcr_iff hI p x).2 ⟨hr, hp, hx⟩
      have huniq : ∀ y, HasPcr o evs p y → y = x := by
        rintro y ⟨_, _, _, hy⟩; rw [hx] at hy; exact (Option.some.inj hy).symm
      split at h
      · next hn =>
        simp only [Except.ok.injEq, Prod.mk.injEq] at h
        obtain ⟨rfl, rfl, rfl⟩ := h
        refine .orig _ hI2 k2 ?_ st2 r2 pk2
          (Or.inl ((exempt_iff hI hI2 hr r2.2).2 ⟨hp, Or.inr hn⟩))
        rintro ⟨_, a, b, _, h2, _⟩
        have := ((range_iff hI2 a b).1 h2).2.1
        rw [hn] at this; cases this
      · next hn =>
        obtain ⟨c, hc, h⟩ := bind_eq_ok h
        have hc := compare_spec hc
        have hrange : Range o (evs ++ [.pkt p]) s2.startPcr s2.endPcr :=
          (range_iff hI2 _ _).2 ⟨r2.2, by simpa using hn, rfl, rfl⟩
        split at h
        · next hge =>
          simp only [Except.ok.injEq, Prod.mk.injEq] at h
          obtain ⟨rfl, rfl, rfl⟩ := h
          exact .ended _ k2 ⟨x, _, _, hhas, hrange, hc.1 hge⟩
        · next hge =>
          refine forward_spec hI2 k2 ?_ st2 r2 pk2 ?_ h
          · rintro ⟨y, a, b, h1, h2, h3⟩
            rw [huniq y h1, ((range_iff hI2 a b).1 h2).2.2.2] at h3
            exact hge (hc.2 h3)
          · intro hx'
            rcases ((exempt_iff hI hI2 hr r2.2).1 hx').2 with h | h
            · rw [hx] at h; cases h
            · exact hn h
  · next hp =>
    simp only [beq_iff_eq] at hp
    have hI1 := tinv_still hI p (Or.inl (by rw [clockPid_ready hI hr]; exact hp))
    refine forward_spec hI1 kk ?_ rfl ⟨hr, he⟩ rfl ?_ h
    · rintro ⟨y, _, _, h1, _⟩
      exact hp ((hasPcr_iff hI p y).1 h1).2.1
    · intro hx
      exact hp ((exempt_iff hI hI1 hr he).1 hx).1

/-! Without a PAT there is no PMT PID. -/

/-- Before the first usable PAT. -/
def NoPat (s : St) (evs : List Ev) : Prop :=
  latest usablePat (tables evs) = none →
    (∀ pid ∈ s.demux, pid = 0 ∨ pid = 0x12 ∨ pid = 0x14) ∧
    (s.pk.table ≠ none → s.pk.pid ≠ pidNull)

theorem noPat_keep {s s' : St} {evs : List Ev} {p : Packet} (h : NoPat s evs) (k : Keep s s') :
    NoPat s' (evs ++ [.pkt p]) := by
  intro hn
  simp only [tables_append, tables_pkt, List.append_nil] at hn
  rw [k.demux, k.table, k.pid]
  exact h hn

/-- Members left alone by a handler other than a PAT: the watched PIDs. -/
theorem handle_demux {o : Opt} {s s' : St} {t : Table} (h : handleTable o s t = .ok s') :
    (∃ pat pid, usablePat t = some pat ∧ (o.sid, pid) ∈ pat.pmts.entries ∧ s'.pmtPid = pid ∧
      s'.demux = (if s.pmtPid != pidNull then s.demux.remove s.pmtPid else s.demux).add pid) ∨
    (usablePat t = none ∧ s'.demux = s.demux ∧ s'.pmtPid = s.pmtPid) := by
  have rg : ∀ {a b : St} {c : Bool}, (if c then updatePcrRange a else .ok a) = .ok b →
      b.demux = a.demux ∧ b.pmtPid = a.pmtPid := by
    intro a b c h
    split at h
    · rw [range_spec h]; exact ⟨rfl, rfl⟩
    · cases h; exact ⟨rfl, rfl⟩
  unfold handleTable at h
  split at h
  · next pat hb =>
    unfold handlePat at h
    split at h
    · next a =>
      cases h
      simp only [bne_iff_ne, pidPat] at a
      exact Or.inr ⟨by simp [usablePat, hb, a], rfl, rfl⟩
    · next a =>
      split at h
      · next b =>
        cases h
        simp only [Bool.not_eq_true', Bool.not_eq_true] at b
        exact Or.inr ⟨by simp [usablePat, hb, b], rfl, rfl⟩
      · next b =>
        split at h
        · next c =>
          cases h
          simp only [beq_iff_eq] at c
          exact Or.inr ⟨by simp [usablePat, hb, c], rfl, rfl⟩
        · next c =>
          have hu : usablePat t = some pat := by
            simp only [bne_iff_ne, pidPat, ne_eq, Decidable.not_not] at a
            simp only [Bool.not_eq_true', Bool.not_eq_false] at b
            simp only [beq_iff_eq] at c
            simp [usablePat, hb, a, b, c]
          cases hf : pat.pmts.find? o.sid with
          | none => rw [hf] at h; cases h
          | some pid =>
            rw [hf] at h
            simp only [Except.ok.injEq] at h
            subst h
            exact Or.inl ⟨pat, pid, hu, (OMap.find?_iff _ _ _).1 hf, rfl, rfl⟩
  · next pmt hb =>
    refine Or.inr ⟨by simp [usablePat, hb], ?_⟩
    unfold handlePmt at h
    split at h
    · cases h; exact ⟨rfl, rfl⟩
    · split at h
      · cases h; exact ⟨rfl, rfl⟩
      · simp only [Except.ok.injEq] at h
        rw [← h]
        constructor <;> (simp only; split <;> rfl)
  · next eit hb =>
    refine Or.inr ⟨by simp [usablePat, hb], ?_⟩
    have ue : ∀ e, updateEventTime o s e = .ok s' → s'.demux = s.demux ∧ s'.pmtPid = s.pmtPid := by
      intro e h
      have h := (updateEventTime_ok h).2
      have := rg h
      exact this
    unfold handleEit at h
    repeat' split at h
    all_goals first
      | (cases h; exact ⟨rfl, rfl⟩)
      | exact ue _ h
  · next time hb =>
    refine Or.inr ⟨by simp [usablePat, hb], ?_⟩
    unfold handleTot at h
    split at h
    · cases h; exact ⟨rfl, rfl⟩
    · dsimp only at h
      have e : (if !s.streaming then checkTimeLimit o s time else s).demux = s.demux ∧
          (if !s.streaming then checkTimeLimit o s time else s).pmtPid = s.pmtPid := by
        unfold checkTimeLimit
        repeat' split
        all_goals exact ⟨rfl, rfl⟩
      generalize (if (!s.streaming) = true then checkTimeLimit o s time else s) = s0 at h e
      split at h
      · cases h; exact e
      · unfold updateClockTime at h
        obtain ⟨_, _, h⟩ := bind_eq_ok h
        have := rg h
        exact ⟨this.1.trans e.1, this.2.trans e.2⟩
  · next b1 b2 b3 b4 =>
    cases h
    refine Or.inr ⟨?_, rfl, rfl⟩
    unfold usablePat; split
    · next e => exact absurd e (b1 _)
    · rfl

theorem handle_noPat {o : Opt} {s s' : St} {t : Table} {evs : List Ev} (hI : TInv o s evs)
    (hn : NoPat s evs) (hin : t.sourcePid ∈ s.demux) (h : handleTable o s t = .ok s') :
    NoPat s' (evs ++ [.tab t]) := by
  intro hl
  simp only [tables_append, tables_tab] at hl
  have hu : usablePat t = none := by
    cases hu : usablePat t with
    | none => rfl
    | some p => rw [latest_some _ _ _ hu] at hl; cases hl
  rw [latest_none _ _ _ hu] at hl
  obtain ⟨h1, h2⟩ := hn hl
  rcases handle_demux h with ⟨pat, _, hu', _⟩ | ⟨_, hd, _⟩
  · rw [hu] at hu'; cases hu'
  refine ⟨by rw [hd]; exact h1, fun _ => ?_⟩
  have hs := (handleTable_spec hI h).inv.pk
  rw [latestPmt_tab] at hs
  have hsp := h1 _ hin
  have hne : t.sourcePid ≠ pidNull := by simp only [pidNull]; omega
  cases hv : validPmt o.sid t with
  | some pmt =>
    rw [hv] at hs
    rw [hs.1]; exact hne
  | none =>
    rw [hv] at hs
    simp only [Option.map_none, Option.none_or] at hs
    have hp := hI.pk
    cases hq : latestPmt o evs with
    | none =>
      rw [hq] at hs
      simp only [PkSt] at hs
      next hcon => exact absurd hs hcon
    | some x =>
      rw [hq] at hs hp
      obtain ⟨t1, ht1, _⟩ := hp.2
      rw [hs.1, ← hp.1]
      exact h2 (by simp [ht1])

/-! Histories. -/

@[simp] theorem events_nil : events [] = [] := rfl
theorem events_append (a b : List Item) : events (a ++ b) = events a ++ events b := by
  simp [events]
theorem events_snoc (a : List Item) (it : Item) : events (a ++ [it]) = upto a it := by
  simp [events, upto, before]
theorem sent_append (a b : List Item) : sent (a ++ b) = sent a ++ sent b := by simp [sent]
theorem sent_one (it : Item) : sent [it] = it.outs := by simp [sent]
theorem pmtOuts_append (a b : List Out) : pmtOuts (a ++ b) = pmtOuts a ++ pmtOuts b := by
  simp [pmtOuts]

/-- The packetizer position after PMT packets. -/
def curOf (extra : Pmt → Nat) (l : List (Pmt × Nat × Nat)) : Option (Pmt × Nat) :=
  l.getLast?.bind fun x => if x.2.1 < extra x.1 then some (x.1, x.2.1 + 1) else none

/-- The state after a history. -/
structure Hist (extra : Pmt → Nat) (o : Opt) (s : St) (pre : List Item) : Prop where
  inv : TInv o s (events pre)
  noPat : NoPat s (events pre)
  streaming : s.streaming = true ↔ Started ReachedNoWrap o pre
  stop : s.stop = false
  retry : s.retry = false
  ready : s.streaming = true → s.pcrPidReady = true ∧ s.eventTimeReady = true
  pat : s.streaming = true → latest usablePat (tables (events pre)) ≠ none
  lastPat : s.streaming = false → o.preStreaming = false → LastPat (packets (events pre)) s.lastPat
  count : s.pk.count = (pmtOuts (sent pre)).length
  cur : s.pk.cur = curOf extra (pmtOuts (sent pre))
  none : s.streaming = false → pmtOuts (sent pre) = []

theorem hist_init (extra : Pmt → Nat) (o : Opt) : Hist extra o (init o) [] := by
  refine ⟨tinv_init o, ?_, ?_, rfl, rfl, by simp [init], by simp [init], ?_, rfl, rfl, fun _ => rfl⟩
  · intro _; simp [init, pidTot, pidEit, pidPat]
  · simp [init, Started]
  · intro _ _; exact ⟨[], by simp [init], by simp [init], by simp⟩

theorem startCond_iff (o : Opt) (pre : List Item) (it : Item) :
    StartCond ReachedNoWrap o pre it ↔
      (¬ ∃ t ∈ it.handled, Cancels o False t) ∧ StartAt o (before pre it) it.packet := Iff.rfl
theorem endCond_iff (o : Opt) (pre : List Item) (it : Item) :
    EndCond ReachedNoWrap o pre it ↔ EndAt o (before pre it) it.packet := Iff.rfl

theorem started_append (R : Int → Int → Prop) (o : Opt) (pre : List Item) (it : Item) :
    Started R o (pre ++ [it]) ↔ Started R o pre ∨ StartCond R o pre it := by
  constructor
  · rintro ⟨a, x, b, e, h⟩
    rcases List.eq_nil_or_concat b with rfl | ⟨b', y, rfl⟩
    · obtain ⟨rfl, e2⟩ := List.append_inj' e rfl
      cases e2; exact Or.inr h
    · refine Or.inl ⟨a, x, b', ?_, h⟩
      have : pre ++ [it] = (a ++ x :: b') ++ [y] := by rw [e]; simp
      exact (List.append_inj' this rfl).1
  · rintro (⟨a, x, b, rfl, h⟩ | h)
    · exact ⟨a, x, b ++ [it], by simp, h⟩
    · exact ⟨pre, it, [], by simp, h⟩

theorem lastPat_save {ps : List Packet} {s : St} {p : Packet} (h : LastPat ps s.lastPat) :
    LastPat (ps ++ [p]) (savePat s p).lastPat := by
  obtain ⟨a, h1, h2, h3⟩ := h
  unfold savePat
  by_cases hp : p.pid = 0
  · rw [if_pos (by simpa [pidPat] using hp)]
    have hf : (ps ++ [p]).filter (·.pid = 0) = ps.filter (·.pid = 0) ++ [p] := by
      simp [List.filter_append, hp]
    simp only
    by_cases hu : p.pusi = true
    · rw [if_pos hu]
      refine ⟨a ++ s.lastPat, by rw [hf, h1]; simp, by simp, fun _ => ⟨p, by simp, hu⟩⟩
    · rw [if_neg hu]
      refine ⟨a, by rw [hf, h1]; simp, ?_, ?_⟩
      · intro q hq
        cases hl : s.lastPat with
        | nil => rw [hl] at hq; simp at hq
        | cons x xs =>
          rw [hl] at hq h2
          simp only [List.cons_append, List.tail_cons, List.mem_append, List.mem_singleton] at hq h2
          rcases hq with hq | rfl
          · exact h2 q hq
          · simpa using hu
      · intro ha
        obtain ⟨q, hq, hqu⟩ := h3 ha
        refine ⟨q, ?_, hqu⟩
        rw [List.head?_append, hq]; rfl
  · rw [if_neg (by simpa [pidPat] using hp)]
    exact ⟨a, by simpa [List.filter_append, hp] using h1, h2, h3⟩

theorem cycle_pmtOuts (extra : Pmt → Nat) (pid : Nat) (t : Pmt) (n : Nat) :
    pmtOuts (cycle extra pid t n) = (List.range (extra t + 1)).map fun i => (t, i, n + i) := by
  simp only [pmtOuts, cycle, List.filterMap_map]
  rw [← List.filterMap_eq_map]
  rfl

theorem pmtOuts_orig (l : List Packet) : pmtOuts (l.map .orig) = [] := by
  simp [pmtOuts, List.filterMap_map]

/-- What the filter does with one packet. -/
inductive Outcome (extra : Pmt → Nat) (o : Opt) (pre : List Item) (it : Item) (s' : St) : Prop where
  | cancelled (h : ∃ t ∈ it.handled, Cancels o (Started ReachedNoWrap o pre) t) (outs : it.outs = [])
      (more : it.more = false) (retry : s'.retry = true ↔ ¬ Started ReachedNoWrap o pre)
  | ended (h : ¬ ∃ t ∈ it.handled, Cancels o (Started ReachedNoWrap o pre) t)
      (e : EndCond ReachedNoWrap o pre it) (outs : it.outs = []) (more : it.more = false)
      (ns : ¬ Started ReachedNoWrap o pre → ¬ StartCond ReachedNoWrap o pre it)
      (retry : s'.retry = false)
  | wait (w : ¬ Started ReachedNoWrap o (pre ++ [it]))
      (h : ¬ ∃ t ∈ it.handled, Cancels o False t) (e : ¬ EndCond ReachedNoWrap o pre it)
      (outs : it.outs = if o.preStreaming = true ∧ it.packet.pid = 0 then [.orig it.packet] else [])
      (more : it.more = true)
  | start (w : ¬ Started ReachedNoWrap o pre) (st : StartCond ReachedNoWrap o pre it)
      (e : ¬ EndCond ReachedNoWrap o pre it)
      (l : List Packet) (hl : LastPat (packets (upto pre it)) l ∨ o.preStreaming = true)
      (hne : o.preStreaming = false → l ≠ [])
      (q : Nat) (pmt t : Pmt) (hp : latestPmt o (before pre it) = some (q, pmt))
      (hq : PmtPid o (before pre it) q) (hr : Rewritten o pmt t)
      (outs : it.outs = (if o.preStreaming then [] else l.map .orig) ++ cycle extra q t 0 ++
        [.orig it.packet])
      (more : it.more = true)
  | stream (w : Started ReachedNoWrap o pre)
      (h : ¬ ∃ t ∈ it.handled, Cancels o True t) (e : ¬ EndCond ReachedNoWrap o pre it)
      (outs : Forwarded extra o pre it) (more : it.more = true)

theorem pmtPid_iff {o : Opt} {s : St} {evs : List Ev} (hI : TInv o s evs)
    (h : latest usablePat (tables evs) ≠ none) (q : Nat) : PmtPid o evs q ↔ q = s.pmtPid := by
  have := hI.pmtPid
  cases hl : latest usablePat (tables evs) with
  | none => exact absurd hl h
  | some pat =>
    rw [hl] at this
    simp only [PmtPid, hl, Option.some.injEq, exists_eq_left']
    exact ⟨fun h => pat.pmts.find?_unique h this, fun h => h ▸ this⟩

theorem latest_isSome_append {evs : List Ev} (h : latest usablePat (tables evs) ≠ none)
    (l : List Ev) : latest usablePat (tables (evs ++ l)) ≠ none := by
  induction l generalizing evs with
  | nil => simpa using h
  | cons x l ih =>
    rw [show evs ++ x :: l = (evs ++ [x]) ++ l by simp]
    apply ih
    cases x with
    | pkt p => simpa using h
    | tab t =>
      simp only [tables_append, tables_tab, latest_append]
      cases usablePat t with
      | none => simpa using h
      | some x => simp

/-- A PMT seen means there is a latest one. -/
theorem latestPmt_ne_none {o : Opt} {evs : List Ev} {pmt : Pmt}
    (h : (pmtsOf o evs).getLast? = some pmt) : latestPmt o evs ≠ none := by
  intro hn
  have hm := List.mem_of_getLast? h
  simp only [pmtsOf, List.mem_filterMap] at hm
  obtain ⟨t, ht, hv⟩ := hm
  simp only [latestPmt, latest, List.getLast?_eq_none_iff, List.filterMap_eq_nil_iff] at hn
  have := hn t ht
  rw [hv] at this; cases this

theorem curOf_snoc (extra : Pmt → Nat) (l : List (Pmt × Nat × Nat)) (t : Pmt) (i n : Nat) :
    curOf extra (l ++ [(t, i, n)]) = if i < extra t then some (t, i + 1) else none := by
  simp [curOf]

theorem cancels_congr {o : Opt} {P Q : Prop} (h : P ↔ Q) (t : Table) : Cancels o P t ↔ Cancels o Q t := by
  rw [propext h]

theorem feed_noPat {o : Opt} {s s' : St} {pid : Nat} {ts log : List Table} {evs : List Ev}
    (hI : TInv o s evs) (hn : NoPat s evs)
    (h : feedDemux St.demux (handleTable o) pid ts s = .ok (s', log)) :
    NoPat s' (evs ++ log.map .tab) := by
  refine (feedDemux_inv (fun s' rs => TInv o s' (evs ++ rs.map .tab) ∧
    NoPat s' (evs ++ rs.map .tab)) ?_ ts s s' log [] ⟨by simpa using hI, by simpa using hn⟩ h).2
  rintro a t b rs ⟨i1, i2⟩ h1 h2 h
  have := handle_noPat i1 i2 (by rw [h1]; exact h2) h
  exact ⟨by simpa using (handleTable_spec i1 h).inv, by simpa using this⟩

theorem step_spec {extra : Pmt → Nat} {o : Opt} {s s' : St} {pre : List Item} {i : Input}
    {log : List Table} {outs : List Out} {more : Bool} (hH : Hist extra o s pre)
    (hpat : o.preStreaming = true → i.packet.pid = 0 → ∀ x, ¬ HasPcr o (events pre ++ log.map .tab) i.packet x)
    (h : step extra o s i = .ok (s', log, outs, more)) :
    Outcome extra o pre ⟨i.packet, log, outs, more⟩ s' ∧
    (more = true → Hist extra o s' (pre ++ [⟨i.packet, log, outs, more⟩])) := by
  unfold step at h
  obtain ⟨⟨s1, log1⟩, hf, h⟩ := bind_eq_ok h
  have hd : log1 = log ∧ (if s1.streaming then doStreaming extra s1 i.packet
      else waitReady extra o s1 i.packet) = .ok (s', outs, more) := by
    simp only at h
    split at h
    · next hs =>
      obtain ⟨⟨s2, outs2, more2⟩, hd, h⟩ := bind_eq_ok h
      simp only [Except.ok.injEq, Prod.mk.injEq] at h
      obtain ⟨rfl, rfl, rfl, rfl⟩ := h
      rw [if_pos hs]; exact ⟨rfl, hd⟩
    · next hs =>
      obtain ⟨⟨s2, outs2, more2⟩, hd, h⟩ := bind_eq_ok h
      simp only [Except.ok.injEq, Prod.mk.injEq] at h
      obtain ⟨rfl, rfl, rfl, rfl⟩ := h
      rw [if_neg hs]; exact ⟨rfl, hd⟩
  clear h
  obtain ⟨rfl, hd⟩ := hd
  obtain ⟨hI1, hsame, hstop⟩ := feed_spec hH.inv hf
  have hnp1 := feed_noPat hH.inv hH.noPat hf
  rw [hH.stop] at hstop
  simp only [Bool.false_eq_true, false_or] at hstop
  have hst1 : s1.streaming = true ↔ Started ReachedNoWrap o pre := by
    rw [hsame.streaming]; exact hH.streaming
  simp only [cancels_congr hH.streaming] at hstop
  have hcount1 : s1.pk.count = (pmtOuts (sent pre)).length := by rw [hsame.count]; exact hH.count
  have hcur1 : s1.pk.cur = curOf extra (pmtOuts (sent pre)) := by rw [hsame.cur]; exact hH.cur
  have hretry1 : s1.retry = false := by rw [hsame.retry]; exact hH.retry
  by_cases hst : s1.streaming = true
  · -- streaming
    rw [if_pos hst] at hd
    have hS := hst1.1 hst
    have hstop' : s1.stop = true ↔ ∃ t ∈ log1, Cancels o True t := by
      rw [hstop]; simp only [cancels_congr (iff_true_intro hS)]
    by_cases hsp : s1.stop = true
    · unfold doStreaming at hd
      rw [if_pos hsp] at hd
      simp only [Except.ok.injEq, Prod.mk.injEq] at hd
      obtain ⟨rfl, rfl, rfl⟩ := hd
      refine ⟨.cancelled (hstop.1 hsp) rfl rfl (by simp [hretry1, hS]), by simp⟩
    · have hnc : ¬ ∃ t ∈ log1, Cancels o True t := fun h => hsp (hstop'.2 h)
      have hsp : s1.stop = false := by simpa using hsp
      have hst0 : s.streaming = true := by rw [← hsame.streaming]; exact hst
      have hpat1 : latest usablePat (tables (events pre ++ log1.map .tab)) ≠ none :=
        latest_isSome_append (hH.pat hst0) _
      have hrdy : s1.pcrPidReady = true ∧ s1.eventTimeReady = true := by
        have := hH.ready hst0
        refine ⟨?_, ?_⟩
        · rw [hI1.pcrReady]
          rw [hH.inv.pcrReady] at this
          obtain ⟨x, hx⟩ := Option.isSome_iff_exists.1 this.1
          rw [pmtsOf_append, List.getLast?_append, hx]
          simp
        · rw [event_iff hI1]
          have h2 := (event_iff hH.inv).1 this.2
          have : ∀ (l : List Table) (evs : List Ev), latestEvent o evs ≠ none →
              latestEvent o (evs ++ l.map .tab) ≠ none := by
            intro l
            induction l with
            | nil => intro evs h; simpa using h
            | cons t l ih =>
              intro evs h
              rw [show evs ++ (t :: l).map Ev.tab = (evs ++ [.tab t]) ++ l.map .tab by simp]
              apply ih
              rw [latestEvent_tab]
              cases ((serviceEit o.sid t).bind (listedIn o.eid)) <;> simp [h]
          exact this _ _ h2
      have hs := strm_spec hI1 hsp hrdy.1 hrdy.2 hd
      have hb : ∀ it : Item, it.handled = log1 → before pre it = events pre ++ log1.map .tab := by
        rintro it rfl; rfl
      have hpp := pmtPid_iff hI1 hpat1
      have hnil : s1.streaming = false → pmtOuts (sent pre) = [] := by rw [hst]; simp
      have hstarted : ∀ it, Started ReachedNoWrap o (pre ++ [it]) :=
        fun it => (started_append _ _ _ _).2 (Or.inl hS)
      have hpat2 : ∀ it : Item, it.handled = log1 → it.packet = i.packet →
          latest usablePat (tables (events (pre ++ [it]))) ≠ none := by
        rintro it rfl _
        rw [events_snoc, upto]
        exact latest_isSome_append hpat1 _
      cases hs with
      | ended keep he =>
        exact ⟨.ended (by rw [← hstop]; simp [hsp]) he rfl rfl (fun h => absurd hS h)
          (by rw [keep.retry]; exact hretry1), by simp⟩
      | orig inv keep he st ready pk hf =>
        refine ⟨.stream hS hnc he ?_ rfl, fun _ => ?_⟩
        · rcases hf with hf | hf
          · exact Or.inl ⟨hf, rfl⟩
          · by_cases hx : Exempt o (events pre ++ log1.map .tab) i.packet
            · exact Or.inl ⟨hx, rfl⟩
            · exact Or.inr ⟨hx, Or.inr (Or.inr ⟨fun h => hf.1 ((hpp _).1 h), hf.2, rfl⟩)⟩
        · exact { inv := by rw [events_snoc]; exact inv
                  noPat := by rw [events_snoc]; exact noPat_keep hnp1 keep
                  streaming := by rw [st]; exact iff_of_true hst (hstarted _)
                  stop := by rw [keep.stop]; exact hsp
                  retry := by rw [keep.retry]; exact hretry1
                  ready := fun _ => ready
                  pat := fun _ => hpat2 _ rfl rfl
                  lastPat := by rw [st, hst]; simp
                  count := by simpa [pk, sent_append, sent_one, pmtOuts] using hcount1
                  cur := by simpa [pk, sent_append, sent_one, pmtOuts_append, pmtOuts] using hcur1
                  none := by rw [st, hst]; simp }
      | drop inv keep he st ready pk hf =>
        refine ⟨.stream hS hnc he ?_ rfl, fun _ => ?_⟩
        · exact Or.inr ⟨hf.1, Or.inr (Or.inl ⟨fun h => hf.2.1 ((hpp _).1 h), hf.2.2, rfl⟩)⟩
        · exact { inv := by rw [events_snoc]; exact inv
                  noPat := by rw [events_snoc]; exact noPat_keep hnp1 keep
                  streaming := by rw [st]; exact iff_of_true hst (hstarted _)
                  stop := by rw [keep.stop]; exact hsp
                  retry := by rw [keep.retry]; exact hretry1
                  ready := fun _ => ready
                  pat := fun _ => hpat2 _ rfl rfl
                  lastPat := by rw [st, hst]; simp
                  count := by simpa [pk, sent_append, sent_one, pmtOuts] using hcount1
                  cur := by simpa [pk, sent_append, sent_one, pmtOuts_append, pmtOuts] using hcur1
                  none := by rw [st, hst]; simp }
      | pmt inv keep he st ready hf t j next pid cur count =>
        refine ⟨.stream hS hnc he ?_ rfl, fun _ => ?_⟩
        · refine Or.inr ⟨hf.1, Or.inl ⟨(hpp _).2 hf.2, ?_⟩⟩
          have hpk := hI1.pk
          have hcont : Continues extra (pmtOuts (sent pre)) t j s1.pk.count := by
            refine ⟨hcount1, ?_⟩
            rw [hcur1] at next
            cases hl : (pmtOuts (sent pre)).getLast? with
            | none =>
              simp only [curOf, hl, Option.bind_none, Option.none_or] at next
              cases ht : s1.pk.table with
              | none => rw [ht] at next; simp at next
              | some t0 => rw [ht] at next; simp at next; exact next.2.symm
            | some x =>
              obtain ⟨t', i', n'⟩ := x
              simp only [curOf, hl, Option.bind_some] at next ⊢
              split at next
              · next hlt =>
                simp only [Option.some_or, Option.some.injEq, Prod.mk.injEq] at next
                rw [if_pos hlt]; exact ⟨next.1.symm, next.2.symm⟩
              · next hlt =>
                rw [if_neg hlt]
                simp only [Option.none_or] at next
                cases ht : s1.pk.table with
                | none => rw [ht] at next; simp at next
                | some t0 => rw [ht] at next; simp at next; exact next.2.symm
          cases hl : latestPmt o (events pre ++ log1.map .tab) with
          | none =>
            rw [hl] at hpk
            simp only [PkSt] at hpk
            -- streaming implies a PMT was seen
            have := hrdy.1
            rw [hI1.pcrReady] at this
            obtain ⟨x, hx⟩ := Option.isSome_iff_exists.1 this
            exact absurd hl (latestPmt_ne_none hx)
          | some x =>
            obtain ⟨q, pmt⟩ := x
            rw [hl] at hpk
            obtain ⟨hq, t0, ht0, hrw⟩ := hpk
            refine ⟨q, pmt, t, j, s1.pk.count, hl, by rw [hf.2, ← pid, hq], by rw [hq], hcont, ?_⟩
            intro hj
            have : t = t0 := by
              rw [hcur1] at next
              cases hc : curOf extra (pmtOuts (sent pre)) with
              | none => rw [hc, ht0] at next; simp at next; exact next.1.symm
              | some y =>
                rw [hc] at next
                simp only [Option.some_or, Option.some.injEq] at next
                unfold curOf at hc
                obtain ⟨z, _, hz⟩ := Option.bind_eq_some_iff.1 hc
                split at hz
                · simp only [Option.some.injEq] at hz
                  rw [← hz] at next
                  simp only [Prod.mk.injEq] at next
                  omega
                · cases hz
            rw [this]; exact hrw
        · exact { inv := by rw [events_snoc]; exact inv
                  noPat := by rw [events_snoc]; exact noPat_keep hnp1 keep
                  streaming := by rw [st]; exact iff_of_true hst (hstarted _)
                  stop := by rw [keep.stop]; exact hsp
                  retry := by rw [keep.retry]; exact hretry1
                  ready := fun _ => ready
                  pat := fun _ => hpat2 _ rfl rfl
                  lastPat := by rw [st, hst]; simp
                  count := by rw [count, hcount1]; simp [sent_append, sent_one, pmtOuts_append, pmtOuts]
                  cur := by
                    rw [cur, sent_append, sent_one, pmtOuts_append]
                    simp only [pmtOuts, List.filterMap_cons, List.filterMap_nil]
                    rw [curOf_snoc]
                  none := by rw [st, hst]; simp }
  · -- waiting
    rw [if_neg hst] at hd
    have hS : ¬ Started ReachedNoWrap o pre := fun h => hst (hst1.2 h)
    have hstop' : s1.stop = true ↔ ∃ t ∈ log1, Cancels o False t := by
      rw [hstop]; simp only [cancels_congr (iff_false_intro hS)]
    have hst : s1.streaming = false := by simpa using hst
    have hst0 : s.streaming = false := by rw [← hsame.streaming]; exact hst
    by_cases hsp : s1.stop = true
    · rw [waitReady_eq] at hd
      rw [if_pos hsp] at hd
      simp only [Except.ok.injEq, Prod.mk.injEq] at hd
      obtain ⟨rfl, rfl, rfl⟩ := hd
      refine ⟨.cancelled (hstop.1 hsp) rfl rfl (by simp [hS]), by simp⟩
    · have hnc : ¬ ∃ t ∈ log1, Cancels o False t := fun h => hsp (hstop'.2 h)
      have hsp : s1.stop = false := by simpa using hsp
      have hnil := hH.none hst0
      have hcur0 : s1.pk.cur = none := by rw [hcur1, hnil]; rfl
      have hcount0 : s1.pk.count = 0 := by rw [hcount1, hnil]; rfl
      have hs := wait_spec hI1 hst hsp hcur0 hpat hd
      have hlp : o.preStreaming = false →
          LastPat (packets (events pre ++ log1.map .tab ++ [.pkt i.packet]))
            (savePat s1 i.packet).lastPat := by
        intro hps
        have := hH.lastPat hst0 hps
        rw [← hsame.lastPat] at this
        have h2 := lastPat_save (p := i.packet) this
        have e : packets (events pre ++ log1.map .tab ++ [.pkt i.packet]) =
            packets (events pre) ++ [i.packet] := by
          have : ∀ l : List Table, packets (l.map Ev.tab) = [] := by
            intro l; induction l <;> simp_all
          simp [this]
        rw [e]; exact h2
      cases hs with
      | wait inv keep h1 h2 st pat pk =>
        have hns : ∀ it : Item, it.handled = log1 → it.packet = i.packet →
            ¬ Started ReachedNoWrap o (pre ++ [it]) := by
          intro it e1 e2
          rw [started_append, startCond_iff, before, e1, e2]
          rintro (h | h)
          · exact hS h
          · exact h1 h.2
        have hno : ∀ n : Nat, pmtOuts (if o.preStreaming = true ∧ i.packet.pid = 0 then
            [.orig i.packet] else []) = [] := by
          intro _; split <;> simp [pmtOuts]
        refine ⟨.wait (hns _ rfl rfl) hnc h2 rfl rfl, fun _ => ?_⟩
        exact { inv := by rw [events_snoc]; exact inv
                noPat := by rw [events_snoc]; exact noPat_keep hnp1 keep
                streaming := by rw [st]; exact iff_of_false (by simp) (hns _ rfl rfl)
                stop := by rw [keep.stop]; exact hsp
                retry := by rw [keep.retry]; exact hretry1
                ready := by rw [st]; simp
                pat := by rw [st]; simp
                lastPat := by
                  intro _ hps
                  rw [events_snoc, pat hps]; exact hlp hps
                count := by rw [pk, sent_append, sent_one, pmtOuts_append, hno 0]; simpa using hcount1
                cur := by rw [pk, sent_append, sent_one, pmtOuts_append, hno 0]; simpa using hcur1
                none := by intro _; rw [sent_append, sent_one, pmtOuts_append, hno 0, hnil]; rfl }
      | ended keep h2 h1 =>
        exact ⟨.ended (by rw [← hstop]; simp [hsp]) h2 rfl rfl (fun _ h => h1 h.2)
          (by rw [keep.retry]; exact hretry1), by simp⟩
      | start inv keep h1 h2 st ready pat t table pid cur count =>
        have hpk := hI1.pk
        have hpat1 : latest usablePat (tables (events pre ++ log1.map .tab)) ≠ none := by
          intro hl
          have h3 := (hnp1 hl).2 (by simp [table])
          have h4 := hI1.pmtPid
          rw [hl] at h4
          simp only [PmtPidSt] at h4
          rw [pid, h4] at h3
          exact h3 rfl
        cases hl : latestPmt o (events pre ++ log1.map .tab) with
        | none =>
          rw [hl] at hpk
          simp only [PkSt] at hpk
          rw [hpk] at table; cases table
        | some x =>
          obtain ⟨q, pmt⟩ := x
          rw [hl] at hpk
          obtain ⟨hq, t0, ht0, hrw⟩ := hpk
          rw [table] at ht0; cases ht0
          have hcond : ∀ outs more, StartCond ReachedNoWrap o pre ⟨i.packet, log1, outs, more⟩ :=
            fun _ _ => ⟨hnc, h1⟩
          have hpo : pmtOuts ((if o.preStreaming = true then [] else
              (savePat s1 i.packet).lastPat.map .orig) ++ cycle extra s1.pk.pid t s1.pk.count ++
              [.orig i.packet]) = (List.range (extra t + 1)).map fun j => (t, j, 0 + j) := by
            rw [pmtOuts_append, pmtOuts_append, cycle_pmtOuts, hcount0]
            have : pmtOuts (if o.preStreaming = true then [] else
              (savePat s1 i.packet).lastPat.map .orig) = [] := by
              split
              · rfl
              · exact pmtOuts_orig _
            rw [this]; simp [pmtOuts]
          refine ⟨.start hS (hcond _ _) h2 (savePat s1 i.packet).lastPat ?_ pat q pmt t hl
            ((pmtPid_iff hI1 hpat1 q).2 (by rw [← hq]; exact pid)) hrw
            (by rw [← hq]; simp only [hcount0]) rfl, fun _ => ?_⟩
          · cases hps : o.preStreaming with
            | true => exact Or.inr rfl
            | false => exact Or.inl (hlp hps)
          · exact { inv := by rw [events_snoc]; exact inv
                    noPat := by rw [events_snoc]; exact noPat_keep hnp1 keep
                    streaming := by
                      rw [st]
                      exact iff_of_true rfl ((started_append _ _ _ _).2 (Or.inr (hcond _ _)))
                    stop := by rw [keep.stop]; exact hsp
                    retry := by rw [keep.retry]; exact hretry1
                    ready := fun _ => ready
                    pat := by
                      intro _; rw [events_snoc]
                      exact latest_isSome_append hpat1 _
                    lastPat := by rw [st]; simp
                    count := by
                      rw [sent_append, sent_one, pmtOuts_append, hpo, hnil, count, hcount0]; simp
                    cur := by
                      rw [sent_append, sent_one, pmtOuts_append, hpo, hnil, cur,
                        List.range_succ, List.map_append]
                      simp [curOf]
                    none := by rw [st]; simp }

/-! Runs. -/

theorem run_cons {extra : Pmt → Nat} {o : Opt} {s s' : St} {i : Input} {is : List Input}
    {items : List Item} (h : run extra o s (i :: is) = .ok (s', items)) :
    ∃ s1 log outs more, step extra o s i = .ok (s1, log, outs, more) ∧
      ((more = false ∧ s' = s1 ∧ items = [⟨i.packet, log, outs, more⟩]) ∨
       (more = true ∧ ∃ rest, run extra o s1 is = .ok (s', rest) ∧
          items = ⟨i.packet, log, outs, more⟩ :: rest)) := by
  unfold run at h
  obtain ⟨⟨s1, log, outs, more⟩, h1, h⟩ := bind_eq_ok h
  refine ⟨s1, log, outs, more, h1, ?_⟩
  simp only at h
  split at h
  · next hm =>
    obtain ⟨⟨s2, rest⟩, h2, h⟩ := bind_eq_ok h
    simp only [Except.ok.injEq, Prod.mk.injEq] at h
    obtain ⟨rfl, rfl⟩ := h
    exact Or.inr ⟨hm, rest, h2, rfl⟩
  · next hm =>
    simp only [Except.ok.injEq, Prod.mk.injEq] at h
    obtain ⟨rfl, rfl⟩ := h
    exact Or.inl ⟨by simpa using hm, rfl, rfl⟩

theorem run_spec {extra : Pmt → Nat} {o : Opt} : ∀ (is : List Input) (s s' : St)
    (pre0 items : List Item), Hist extra o s pre0 → PatFree o (pre0 ++ items) →
    run extra o s is = .ok (s', items) →
    (∀ pre it post, items = pre ++ it :: post → ∃ s2, Outcome extra o (pre0 ++ pre) it s2 ∧
      (post = [] → s2 = s')) ∧
    ((∃ pre it, items = pre ++ [it] ∧ it.more = false) ∨
      (s'.retry = false ∧ ∀ it ∈ items, it.more = true)) := by
  intro is
  induction is with
  | nil =>
    intro s s' pre0 items hH _ h
    simp only [run, Except.ok.injEq, Prod.mk.injEq] at h
    obtain ⟨rfl, rfl⟩ := h
    exact ⟨by intro pre it post e; simp at e, Or.inr ⟨hH.retry, by simp⟩⟩
  | cons i is ih =>
    intro s s' pre0 items hH hP h
    obtain ⟨s1, log, outs, more, h1, h⟩ := run_cons h
    have hP1 : o.preStreaming = true → i.packet.pid = 0 →
        ∀ x, ¬ HasPcr o (events pre0 ++ log.map .tab) i.packet x := by
      intro hps h0
      rcases h with ⟨_, _, rfl⟩ | ⟨_, rest, _, rfl⟩
      · exact hP hps pre0 _ [] rfl h0
      · exact hP hps pre0 _ rest rfl h0
    obtain ⟨ho, hh⟩ := step_spec hH hP1 h1
    rcases h with ⟨hm, rfl, rfl⟩ | ⟨hm, rest, hr, rfl⟩
    · refine ⟨?_, Or.inl ⟨[], _, rfl, hm⟩⟩
      intro pre it post e
      cases pre with
      | nil =>
        simp only [List.nil_append, List.cons.injEq] at e
        obtain ⟨rfl, rfl⟩ := e
        exact ⟨_, by simpa using ho, fun _ => rfl⟩
      | cons a pre => simp at e
    · have := ih s1 s' (pre0 ++ [⟨i.packet, log, outs, more⟩]) rest (hh hm) (by simpa using hP) hr
      refine ⟨?_, ?_⟩
      · intro pre it post e
        cases pre with
        | nil =>
          simp only [List.nil_append, List.cons.injEq] at e
          obtain ⟨rfl, rfl⟩ := e
          refine ⟨s1, by simpa using ho, ?_⟩
          intro hnil
          subst hnil
          cases is with
          | nil =>
            simp only [run, Except.ok.injEq, Prod.mk.injEq] at hr
            exact hr.1
          | cons j js =>
            obtain ⟨_, _, _, _, _, h⟩ := run_cons hr
            rcases h with ⟨_, _, h⟩ | ⟨_, _, _, h⟩ <;> simp at h
        | cons a pre =>
          simp only [List.cons_append, List.cons.injEq] at e
          obtain ⟨rfl, e⟩ := e
          obtain ⟨s2, h2, h3⟩ := this.1 pre it post e
          exact ⟨s2, by simpa using h2, h3⟩
      · rcases this.2 with ⟨pre, it, rfl, h⟩ | ⟨h1, h2⟩
        · exact Or.inl ⟨_ :: pre, it, rfl, by assumption⟩
        · refine Or.inr ⟨h1, ?_⟩
          intro it hit
          rcases List.mem_cons.1 hit with rfl | hit
          · exact hm
          · exact h2 it hit

theorem run_shape {extra : Pmt → Nat} {o : Opt} : ∀ (is : List Input) (s s' : St)
    (items : List Item), run extra o s is = .ok (s', items) →
    items.map (·.packet) = (is.take items.length).map (·.packet) ∧
    (∀ pre it post, items = pre ++ it :: post → post ≠ [] → it.more = true) ∧
    (items.length < is.length → ∃ pre it, items = pre ++ [it] ∧ it.more = false) := by
  intro is
  induction is with
  | nil =>
    intro s s' items h
    simp only [run, Except.ok.injEq, Prod.mk.injEq] at h
    obtain ⟨rfl, rfl⟩ := h
    simp
  | cons i is ih =>
    intro s s' items h
    obtain ⟨s1, log, outs, more, _, h⟩ := run_cons h
    rcases h with ⟨hm, _, rfl⟩ | ⟨hm, rest, hr, rfl⟩
    · refine ⟨by simp, ?_, fun _ => ⟨[], _, rfl, hm⟩⟩
      intro pre it post e hp
      cases pre with
      | nil => simp at e; exact absurd e.2 hp
      | cons a pre => simp at e
    · obtain ⟨i1, i2, i3⟩ := ih s1 s' rest hr
      refine ⟨by simp [i1], ?_, ?_⟩
      · intro pre it post e hp
        cases pre with
        | nil =>
          simp only [List.nil_append, List.cons.injEq] at e
          rw [← e.1]; exact hm
        | cons a pre =>
          simp only [List.cons_append, List.cons.injEq] at e
          exact i2 pre it post e.2 hp
      · intro hl
        obtain ⟨pre, it, rfl, h⟩ := i3 (by simpa using hl)
        exact ⟨_ :: pre, it, rfl, by assumption⟩

end Mirakc.ProgramFilter
