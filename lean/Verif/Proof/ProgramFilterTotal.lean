import Verif.Proof.ProgramFilterHist
/-
filter-program: tables looked at, absence of abnormal ends, connection to a sink.
-/
namespace Mirakc.ProgramFilter
open Mirakc.Spec Mirakc.Spec.ProgramFilter
open Mirakc.Spec.ServiceFilter (usablePat validPmt validTot latest)
open Mirakc.ServiceFilter (latest_append latest_some latest_none)
set_option linter.unusedSimpArgs false

theorem usable_source {t : Table} {pat : Pat} (h : usablePat t = some pat) : t.sourcePid = 0 := by
  unfold usablePat at h
  split at h
  · split at h
    · next h' => exact h'.1
    · cases h
  · cases h

/-! Watched PIDs. -/

/-- The demultiplexer watches what it should. -/
structure Watch (o : Opt) (s : St) (evs : List Ev) : Prop where
  inv : TInv o s evs
  iff : ∀ pid, pid ∈ s.demux ↔ Watched o evs pid
  ok : s.pmtPid ≠ 0 ∧ s.pmtPid ≠ 0x12 ∧ s.pmtPid ≠ 0x14
  null : latest usablePat (tables evs) ≠ none → s.pmtPid ≠ pidNull

theorem watch_init (o : Opt) : Watch o (init o) [] := by
  refine ⟨tinv_init o, ?_, by simp [init, pidNull], by simp [latest]⟩
  intro pid
  simp [init, Watched, PmtPid, latest, pidTot, pidEit, pidPat]
  omega

theorem handle_watch {o : Opt} {s s' : St} {t : Table} {evs : List Ev} (hc : Conforming o t)
    (hW : Watch o s evs) (h : handleTable o s t = .ok s') : Watch o s' (evs ++ [.tab t]) := by
  have hI' := (handleTable_spec hW.inv h).inv
  rcases handle_demux h with ⟨pat, pid, hu, hp, h1, h3⟩ | ⟨hu, h1, h2⟩
  · have hpid := hc pat hu pid hp
    have hok := hW.ok
    refine ⟨hI', ?_, by rw [h1]; exact ⟨hpid.1, hpid.2.1, hpid.2.2.1⟩, fun _ => by
      rw [h1]; exact hpid.2.2.2⟩
    intro q
    have hiff := hW.iff q
    have hst := hW.inv.pmtPid
    have huniq : (o.sid, q) ∈ pat.pmts.entries ↔ q = pid :=
      ⟨fun h => pat.pmts.find?_unique h hp, fun h => h ▸ hp⟩
    simp only [Watched, PmtPid, tables_append, tables_tab, latest_some _ _ _ hu, Option.some.injEq,
      exists_eq_left', huniq]
    rw [h3]
    simp only [PidSet.add, List.mem_cons]
    simp only [Watched, PmtPid] at hiff
    cases hl : latest usablePat (tables evs) with
    | none =>
      rw [hl] at hst hiff
      simp only [PmtPidSt] at hst
      rw [hst, if_neg (by simp)]
      simp only [reduceCtorEq, false_and, exists_false, or_false] at hiff
      rw [hiff]
      grind
    | some p0 =>
      rw [hl] at hst hiff
      simp only [PmtPidSt] at hst
      have hnn := hW.null (by simp [hl])
      rw [if_pos (by simpa using hnn)]
      simp only [PidSet.remove, List.mem_filter, bne_iff_ne, ne_eq, Option.some.injEq,
        exists_eq_left'] at hiff ⊢
      rw [hiff]
      have hq : (o.sid, q) ∈ p0.pmts.entries ↔ q = s.pmtPid :=
        ⟨fun h => p0.pmts.find?_unique h hst, fun h => h ▸ hst⟩
      rw [hq]
      grind
  · refine ⟨hI', ?_, by rw [h2]; exact hW.ok, ?_⟩
    · intro q
      rw [h1, hW.iff]
      simp only [Watched, PmtPid, tables_append, tables_tab, latest_none _ _ _ hu]
    · simp only [tables_append, tables_tab, latest_none _ _ _ hu]
      rw [h2]; exact hW.null

theorem feed_watch {o : Opt} {s s' : St} {pid : Nat} {ts log : List Table} {evs : List Ev}
    (hc : ∀ t ∈ ts, Conforming o t) (hW : Watch o s evs)
    (h : feedDemux St.demux (handleTable o) pid ts s = .ok (s', log)) :
    Watch o s' (evs ++ log.map .tab) ∧
    (Watched o evs pid → log = ts.filter (·.sourcePid == pid)) ∧
    (¬ Watched o evs pid → log = []) := by
  have hhandled := feedDemux_handled (fun s => ∃ evs, Watch o s evs) (Conforming o) (by
    rintro s t s' ⟨evs, hW⟩ hok hs hin h
    have hW' := handle_watch hok hW h
    refine ⟨⟨_, hW'⟩, ?_⟩
    rcases handle_demux h with ⟨pat, _, hu, _⟩ | ⟨_, e, _⟩
    · rw [hW'.iff, ← hs, usable_source hu]; exact Or.inl rfl
    · rw [e]; exact hin) ts s s' log hc ⟨_, hW⟩ h
  rw [hW.iff] at hhandled
  refine ⟨?_, hhandled⟩
  have hmem := feedDemux_log ts s s' log h
  have : ∀ (ts : List Table) (s s' : St) (log : List Table) (evs : List Ev),
      (∀ t ∈ ts, Conforming o t) → Watch o s evs →
      feedDemux St.demux (handleTable o) pid ts s = .ok (s', log) →
      Watch o s' (evs ++ log.map .tab) := by
    intro ts
    induction ts with
    | nil =>
      intro s s' log evs _ hW h
      simp only [feedDemux, Except.ok.injEq, Prod.mk.injEq] at h
      obtain ⟨rfl, rfl⟩ := h
      simpa using hW
    | cons t ts ih =>
      intro s s' log evs hc hW h
      simp only [feedDemux] at h
      split at h
      · obtain ⟨s1, h1, h⟩ := bind_eq_ok h
        obtain ⟨⟨s2, log2⟩, h2, h⟩ := bind_eq_ok h
        simp only [Except.ok.injEq, Prod.mk.injEq] at h
        obtain ⟨rfl, rfl⟩ := h
        have := ih s1 s2 log2 _ (fun u hu => hc u (List.mem_cons_of_mem _ hu))
          (handle_watch (hc t (by simp)) hW h1) h2
        simpa using this
      · exact ih s s' log evs (fun u hu => hc u (List.mem_cons_of_mem _ hu)) hW h
  exact this ts s s' log evs hc hW h

/-- The packet itself leaves the watched PIDs alone. -/
theorem keep_watch {o : Opt} {s s' : St} {evs : List Ev} {p : Packet} (hW : Watch o s evs)
    (inv : TInv o s' (evs ++ [.pkt p])) (keep : Keep s s') : Watch o s' (evs ++ [.pkt p]) := by
  refine ⟨inv, ?_, by rw [keep.pmtPid]; exact hW.ok, ?_⟩
  · intro pid
    rw [keep.demux, hW.iff]
    simp [Watched, PmtPid]
  · rw [keep.pmtPid]; simpa using hW.null

theorem step_split {extra : Pmt → Nat} {o : Opt} {s s' : St} {i : Input} {log : List Table}
    {outs : List Out} {more : Bool} (h : step extra o s i = .ok (s', log, outs, more)) :
    ∃ s1, feedDemux St.demux (handleTable o) i.packet.pid i.tables s = .ok (s1, log) ∧
      (if s1.streaming then doStreaming extra s1 i.packet
        else waitReady extra o s1 i.packet) = .ok (s', outs, more) := by
  unfold step at h
  obtain ⟨⟨s1, log1⟩, hf, h⟩ := bind_eq_ok h
  simp only at h
  split at h
  · next hs =>
    obtain ⟨⟨s2, outs2, more2⟩, hd, h⟩ := bind_eq_ok h
    simp only [Except.ok.injEq, Prod.mk.injEq] at h
    obtain ⟨rfl, rfl, rfl, rfl⟩ := h
    exact ⟨s1, hf, by rw [if_pos hs]; exact hd⟩
  · next hs =>
    obtain ⟨⟨s2, outs2, more2⟩, hd, h⟩ := bind_eq_ok h
    simp only [Except.ok.injEq, Prod.mk.injEq] at h
    obtain ⟨rfl, rfl, rfl, rfl⟩ := h
    exact ⟨s1, hf, by rw [if_neg hs]; exact hd⟩

/-- Deciding on a packet changes neither the watched PIDs nor the PMT PID. -/
theorem decide_demux {extra : Pmt → Nat} {o : Opt} {s s' : St} {p : Packet} {outs : List Out}
    {more : Bool} (h : (if s.streaming then doStreaming extra s p
        else waitReady extra o s p) = .ok (s', outs, more)) :
    s'.demux = s.demux ∧ s'.pmtPid = s.pmtPid := by
  have sync : ∀ {a b : St} {x : Int}, syncClock a x = .ok b →
      b.demux = a.demux ∧ b.pmtPid = a.pmtPid := by
    intro a b x h
    unfold syncClock at h
    split at h
    · unfold updateClockPcr at h
      obtain ⟨_, _, h⟩ := bind_eq_ok h
      dsimp only at h
      split at h
      · rw [range_spec h]; exact ⟨rfl, rfl⟩
      · cases h; exact ⟨rfl, rfl⟩
    · cases h; exact ⟨rfl, rfl⟩
  have next : ∀ {a b : St} {x : Out}, nextPmt extra a = .ok (x, b) →
      b.demux = a.demux ∧ b.pmtPid = a.pmtPid := by
    intro a b x h
    unfold nextPmt at h
    obtain ⟨⟨y, pk⟩, _, h⟩ := bind_eq_ok h
    obtain ⟨_, _, h⟩ := bind_eq_ok h
    simp only [Except.ok.injEq, Prod.mk.injEq] at h
    obtain ⟨rfl, rfl⟩ := h
    exact ⟨rfl, rfl⟩
  have cyc : ∀ (fuel : Nat) {a b : St} {xs : List Out}, sendCycle extra fuel a = .ok (xs, b) →
      b.demux = a.demux ∧ b.pmtPid = a.pmtPid := by
    intro fuel
    induction fuel with
    | zero => intro a b xs h; cases h
    | succ fuel ih =>
      intro a b xs h
      unfold sendCycle at h
      obtain ⟨⟨y, s1⟩, h1, h⟩ := bind_eq_ok h
      dsimp only at h
      split at h
      · simp only [Except.ok.injEq, Prod.mk.injEq] at h
        obtain ⟨rfl, rfl⟩ := h
        exact next h1
      · obtain ⟨⟨ys, s2⟩, h2, h⟩ := bind_eq_ok h
        simp only [Except.ok.injEq, Prod.mk.injEq] at h
        obtain ⟨rfl, rfl⟩ := h
        have e1 := next h1
        have e2 := ih h2
        exact ⟨e2.1.trans e1.1, e2.2.trans e1.2⟩
  have fwd : ∀ {a b : St} {xs : List Out} {m : Bool}, forward extra a p = .ok (b, xs, m) →
      b.demux = a.demux ∧ b.pmtPid = a.pmtPid := by
    intro a b xs m h
    unfold forward at h
    split at h
    · obtain ⟨⟨y, s1⟩, h1, h⟩ := bind_eq_ok h
      simp only [Except.ok.injEq, Prod.mk.injEq] at h
      obtain ⟨rfl, rfl, rfl⟩ := h
      exact next h1
    · split at h <;>
      · simp only [Except.ok.injEq, Prod.mk.injEq] at h
        obtain ⟨rfl, rfl, rfl⟩ := h
        exact ⟨rfl, rfl⟩
  have done : ∀ {a : St} {xs : List Out} {m : Bool},
      (Except.ok (a, xs, m) : Except Fault _) = .ok (s', outs, more) → a = s' := by
    intro a xs m h
    simp only [Except.ok.injEq, Prod.mk.injEq] at h
    exact h.1
  split at h
  · unfold doStreaming at h
    split at h
    · rw [done h]; exact ⟨rfl, rfl⟩
    · split at h
      · split at h
        · rw [done h]; exact ⟨rfl, rfl⟩
        · obtain ⟨s1, h1, h⟩ := bind_eq_ok h
          have e1 := sync h1
          split at h
          · rw [← done h]; exact e1
          · obtain ⟨c, _, h⟩ := bind_eq_ok h
            split at h
            · rw [← done h]; exact e1
            · have e2 := fwd h
              exact ⟨e2.1.trans e1.1, e2.2.trans e1.2⟩
      · exact fwd h
  · rw [waitReady_eq] at h
    split at h
    · rw [← done h]; exact ⟨rfl, rfl⟩
    · split at h
      · rw [← done h]; exact ⟨rfl, rfl⟩
      · dsimp only at h
        have e0 : (savePat s p).demux = s.demux ∧ (savePat s p).pmtPid = s.pmtPid := by
          rw [savePat_eq]; exact ⟨rfl, rfl⟩
        split at h
        · rw [← done h]; exact e0
        · split at h
          · rw [← done h]; exact e0
          · split at h
            · rw [← done h]; exact e0
            · obtain ⟨s1, h1, h⟩ := bind_eq_ok h
              have e1 := sync h1
              have e1 : s1.demux = s.demux ∧ s1.pmtPid = s.pmtPid :=
                ⟨e1.1.trans e0.1, e1.2.trans e0.2⟩
              split at h
              · rw [← done h]; exact e1
              · obtain ⟨c, _, h⟩ := bind_eq_ok h
                split at h
                · rw [← done h]; exact e1
                · obtain ⟨d, _, h⟩ := bind_eq_ok h
                  split at h
                  · rw [← done h]; exact e1
                  · obtain ⟨_, _, h⟩ := bind_eq_ok h
                    obtain ⟨⟨ys, s2⟩, h2, h⟩ := bind_eq_ok h
                    have e2 := cyc _ h2
                    rw [← done h]
                    split at e2
                    · exact ⟨e2.1.trans e1.1, e2.2.trans e1.2⟩
                    · exact ⟨e2.1.trans e1.1, e2.2.trans e1.2⟩

theorem run_watch {extra : Pmt → Nat} {o : Opt} : ∀ (is : List Input) (s s' : St)
    (pre0 items : List Item), (∀ i ∈ is, ∀ t ∈ i.tables, Conforming o t) →
    Hist extra o s pre0 → PatFree o (pre0 ++ items) → Watch o s (events pre0) →
    run extra o s is = .ok (s', items) →
    ∀ pre it post, items = pre ++ it :: post → ∃ i, is[pre.length]? = some i ∧
      i.packet = it.packet ∧
      (Watched o (events (pre0 ++ pre)) it.packet.pid →
        it.handled = i.tables.filter (·.sourcePid == it.packet.pid)) ∧
      (¬ Watched o (events (pre0 ++ pre)) it.packet.pid → it.handled = []) := by
  intro is
  induction is with
  | nil =>
    intro s s' pre0 items _ _ _ _ h pre it post e
    simp only [run, Except.ok.injEq, Prod.mk.injEq] at h
    obtain ⟨rfl, rfl⟩ := h
    simp at e
  | cons i is ih =>
    intro s s' pre0 items hc hH hP hW h pre it post e
    obtain ⟨s1, log, outs, more, h1, h⟩ := run_cons h
    obtain ⟨s0, hf, hd⟩ := step_split h1
    obtain ⟨hW0, hw1, hw2⟩ := feed_watch (hc i (by simp)) hW hf
    have hx : ∃ rest, items = ⟨i.packet, log, outs, more⟩ :: rest := by
      rcases h with ⟨_, _, rfl⟩ | ⟨_, rest, _, rfl⟩ <;> exact ⟨_, rfl⟩
    cases pre with
    | nil =>
      obtain ⟨rest, rfl⟩ := hx
      simp only [List.nil_append, List.cons.injEq] at e
      obtain ⟨rfl, _⟩ := e
      exact ⟨i, rfl, rfl, by simpa using hw1, by simpa using hw2⟩
    | cons a pre =>
      rcases h with ⟨_, _, rfl⟩ | ⟨hm, rest, hr, rfl⟩
      · simp at e
      · simp only [List.cons_append, List.cons.injEq] at e
        obtain ⟨rfl, e⟩ := e
        have hP1 : o.preStreaming = true → i.packet.pid = 0 →
            ∀ x, ¬ HasPcr o (events pre0 ++ log.map .tab) i.packet x :=
          fun hps h0 => hP hps pre0 _ rest rfl h0
        have hH1 := (step_spec hH hP1 h1).2 hm
        have hdm := decide_demux hd
        have hW1 : Watch o s1 (events (pre0 ++ [⟨i.packet, log, outs, more⟩])) := by
          refine ⟨hH1.inv, ?_, by rw [hdm.2]; exact hW0.ok, ?_⟩
          · intro pid
            rw [hdm.1, hW0.iff, events_snoc]
            simp [Watched, PmtPid, upto, before]
          · rw [hdm.2, events_snoc]
            have := hW0.null
            simpa [upto, before] using this
        have := ih s1 s' _ rest (fun j hj => hc j (List.mem_cons_of_mem _ hj)) hH1
          (by simpa using hP) hW1 hr pre it post e
        simpa using this

/-! No abnormal end. -/

/-- Enough to know that no assertion fails. -/
structure Safe (o : Opt) (P : Nat) (q : Prop) (s : St) : Prop where
  time : Near s.clockTime ∧ (s.eventTimeReady = true →
    (-160000000000000 ≤ s.eventStart ∧ s.eventStart ≤ 160000000000000) ∧
    (-240000000000000 ≤ s.eventEnd ∧ s.eventEnd ≤ 240000000000000))
  clock : isValidPcr s.clockPcr = true
  start : isValidPcr s.startPcr = true
  stop : isValidPcr s.endPcr = true
  pid : s.pmtPid = pidNull ∨ s.pmtPid = P
  demux : ∀ x ∈ s.demux, x = 0 ∨ x = 0x12 ∨ x = 0x14 ∨ (x = P ∧ s.pmtPid = P)
  pmt : s.pcrPidReady = true → s.pmtPid = P ∧ s.pk.pid = P ∧ ∃ t, s.pk.table = some t
  wait : s.streaming = false → s.pk.cur = none
  strm : s.streaming = true → s.pcrPidReady = true
  pat : q → s.streaming = false → o.preStreaming = false → s.pmtPid = P → s.lastPat ≠ []

theorem image_valid (t0 p0 t : Int) : isValidPcr (image t0 p0 t) = true := by
  rw [isValidPcr_iff, image_eq]; omega

theorem convert_total {s : St} (h1 : s.clockPcrReady = true) (h2 : s.clockTimeReady = true)
    (h3 : isValidPcr s.clockPcr = true) {x : Int} (hx : Convertible s.clockTime s.clockPcr x) :
    ∃ r, convertTimeToPcr s x = .ok r := by
  unfold convertTimeToPcr
  rw [assert_of h1, assert_of h2, assert_of h3]
  simp only [ok_bind]
  rw [ticks_val, int64_fits hx.1]
  simp only [ok_bind]
  rw [int64_fits hx.2]
  simp only [ok_bind]
  rw [assert_of]
  · exact ⟨_, rfl⟩
  · simpa using (liftNegative_spec _).1

/-- A time is not converted if that needs more than 64 bits. -/
theorem convert_far {s : St} {x : Int} (hx : ¬ Convertible s.clockTime s.clockPcr x) :
    ∃ f, convertTimeToPcr s x = .error f := by
  cases h : convertTimeToPcr s x with
  | error f => exact ⟨f, rfl⟩
  | ok r =>
    exfalso
    unfold convertTimeToPcr at h
    obtain ⟨_, _, h⟩ := bind_eq_ok h
    obtain ⟨_, _, h⟩ := bind_eq_ok h
    obtain ⟨_, _, h⟩ := bind_eq_ok h
    obtain ⟨_, h1, h⟩ := bind_eq_ok h
    obtain ⟨e1, f1⟩ := int64_ok_fits h1
    subst e1
    obtain ⟨_, h2, h⟩ := bind_eq_ok h
    rw [ticks_val] at f1 h2
    exact hx ⟨f1, (int64_ok_fits h2).2⟩

theorem range_total {s : St} (h0 : s.eventTimeReady = true) (h1 : s.clockPcrReady = true)
    (h2 : s.clockTimeReady = true) (h3 : isValidPcr s.clockPcr = true)
    (h4 : Convertible s.clockTime s.clockPcr s.eventStart) (h5 : Convertible s.clockTime s.clockPcr s.eventEnd) :
    ∃ s', updatePcrRange s = .ok s' := by
  unfold updatePcrRange
  rw [assert_of h0, assert_of h1, assert_of h2]
  simp only [ok_bind]
  obtain ⟨a, ha⟩ := convert_total h1 h2 h3 h4
  obtain ⟨b, hb⟩ := convert_total h1 h2 h3 h5
  rw [ha, hb]
  exact ⟨_, rfl⟩

theorem convertible_of {t0 p0 t : Int} (hp : isValidPcr p0 = true) (h0 : Near t0)
    (h : -240000000000000 ≤ t ∧ t ≤ 240000000000000) : Convertible t0 p0 t := by
  rw [isValidPcr_iff] at hp
  unfold Near at h0
  unfold Convertible Fits64
  omega

/-- A conditional update of the range is safe. -/
theorem safe_range {o : Opt} {P : Nat} {q : Prop} {s : St} (hS : Safe o P q s) {c : Bool}
    (hc : c = true → s.eventTimeReady = true ∧ s.clockPcrReady = true ∧ s.clockTimeReady = true) :
    ∃ s', (if c then updatePcrRange s else .ok s) = .ok s' ∧ Safe o P q s' ∧
      s'.streaming = s.streaming ∧ s'.pcrPidReady = s.pcrPidReady ∧ s'.pcrPid = s.pcrPid := by
  split
  · next h =>
    obtain ⟨a, b, d⟩ := hc h
    obtain ⟨s', hs⟩ := range_total a b d hS.clock
      (convertible_of hS.clock hS.time.1 (by have := (hS.time.2 a).1; omega))
      (convertible_of hS.clock hS.time.1 (hS.time.2 a).2)
    refine ⟨s', hs, ?_⟩
    rw [range_spec hs]
    exact ⟨⟨hS.time, hS.clock, image_valid _ _ _, image_valid _ _ _, hS.pid, hS.demux, hS.pmt, hS.wait, hS.strm,
      hS.pat⟩, rfl, rfl, rfl⟩
  · exact ⟨s, rfl, hS, rfl, rfl, rfl⟩

theorem handle_safe {o : Opt} {P : Nat} {s : St} {t : Table} {pid : Nat}
    (hP : P ≠ 0 ∧ P ≠ 0x12 ∧ P ≠ 0x14) (hm : Near o.startMargin ∧ Near o.endMargin)
    (hS : Safe o P (pid ≠ 0) s) (hr : Regular o P t)
    (hs : t.sourcePid = pid) (hin : pid ∈ s.demux) :
    ∃ s', handleTable o s t = .ok s' ∧ Safe o P (pid ≠ 0) s' := by
  unfold handleTable
  split
  · next pat hb =>
    unfold handlePat
    split
    · exact ⟨s, rfl, hS⟩
    · next a =>
      split
      · exact ⟨s, rfl, hS⟩
      · next b =>
        split
        · exact ⟨s, rfl, hS⟩
        · next c =>
          have hu : usablePat t = some pat := by
            simp only [bne_iff_ne, pidPat, ne_eq, Decidable.not_not] at a
            simp only [Bool.not_eq_true', Bool.not_eq_false] at b
            simp only [beq_iff_eq] at c
            simp [usablePat, hb, a, b, c]
          have hf := (OMap.find?_iff pat.pmts o.sid P).2 (hr.pat pat hu)
          rw [hf]
          refine ⟨_, rfl, hS.time, hS.clock, hS.start, hS.stop, Or.inr rfl, ?_, ?_, hS.wait, hS.strm, ?_⟩
          · intro x hx
            simp only [PidSet.add, List.mem_cons] at hx
            rcases hx with rfl | hx
            · exact Or.inr (Or.inr (Or.inr ⟨rfl, rfl⟩))
            · have hx' : x ∈ s.demux := by
                split at hx
                · simp only [PidSet.remove, List.mem_filter] at hx; exact hx.1
                · exact hx
              rcases hS.demux x hx' with h | h | h | h
              · exact Or.inl h
              · exact Or.inr (Or.inl h)
              · exact Or.inr (Or.inr (Or.inl h))
              · exact Or.inr (Or.inr (Or.inr ⟨h.1, rfl⟩))
          · intro h
            exact ⟨rfl, (hS.pmt h).2⟩
          · intro hq
            exact absurd (by rw [← hs]; exact usable_source hu) hq
  · next pmt hb =>
    unfold handlePmt
    split
    · exact ⟨s, rfl, hS⟩
    · next a =>
      split
      · exact ⟨s, rfl, hS⟩
      · next b =>
        have hv : validPmt o.sid t = some pmt := by
          simp [validPmt, hb]; exact ⟨by simpa using a, by simpa using b⟩
        have hsrc := hr.pmt pmt hv
        have hpid : s.pmtPid = P := by
          rcases hS.demux pid hin with h | h | h | h
          · exact absurd (by rw [← hsrc, hs, h]) hP.1
          · exact absurd (by rw [← hsrc, hs, h]) hP.2.1
          · exact absurd (by rw [← hsrc, hs, h]) hP.2.2
          · exact h.2
        refine ⟨_, rfl, ?_⟩
        dsimp only
        split
        · exact ⟨hS.time, hS.clock, hS.start, hS.stop, hS.pid, hS.demux,
            fun _ => ⟨hpid, hsrc, _, rfl⟩, hS.wait, fun _ => rfl, hS.pat⟩
        · exact ⟨hS.time, hS.clock, hS.start, hS.stop, hS.pid, hS.demux,
            fun _ => ⟨hpid, hsrc, _, rfl⟩, hS.wait, fun _ => rfl, hS.pat⟩
  · next eit hb =>
    have ue : ∀ e, Near e.startTime ∧ Near (e.duration * 1000) →
        ∃ s', updateEventTime o s e = .ok s' ∧ Safe o P (pid ≠ 0) s' := by
      intro e he
      unfold Near at hm he
      unfold updateEventTime
      rw [int64_fits (by unfold Fits64; omega)]
      simp only [ok_bind]
      rw [int64_fits (by unfold Fits64; omega)]
      simp only [ok_bind]
      obtain ⟨s', h1, h2, _⟩ := safe_range (s := { s with
          eventStart := e.startTime - o.startMargin
          eventEnd := e.startTime + (e.duration * 1000 + o.endMargin)
          eventTimeReady := true })
        (c := s.clockTimeReady && s.clockPcrReady)
        (q := pid ≠ 0) (o := o) (P := P)
        ⟨⟨hS.time.1, fun _ => by simp only; omega⟩, hS.clock, hS.start, hS.stop, hS.pid, hS.demux, hS.pmt, hS.wait, hS.strm, hS.pat⟩
        (by simp; intro a b; exact ⟨b, a⟩)
      exact ⟨s', h1, h2⟩
    have stop : Safe o P (pid ≠ 0) { s with stop := true } :=
      ⟨hS.time, hS.clock, hS.start, hS.stop, hS.pid, hS.demux, hS.pmt, hS.wait, hS.strm, hS.pat⟩
    unfold handleEit
    split
    · exact ⟨_, rfl, hS⟩
    · next a =>
      split
      · exact ⟨_, rfl, hS⟩
      · next b =>
        have hev : ∀ e ∈ eit.events, Near e.startTime ∧ Near (e.duration * 1000) := by
          simp only [Bool.not_eq_true', Bool.not_eq_false, bne_iff_ne, ne_eq, Decidable.not_not] at a b
          exact hr.times.eit _ (by simp [serviceEit, hb, a, b])
        split
        · exact ⟨_, rfl, stop⟩
        · next present rest he =>
          rw [he] at hev
          split
          · exact ue _ (hev _ (by simp))
          · split
            · split
              · exact ⟨_, rfl, hS⟩
              · exact ⟨_, rfl, stop⟩
            · split
              · exact ue _ (hev _ (by simp))
              · repeat' split
                all_goals first
                  | exact ⟨_, rfl, hS⟩
                  | exact ⟨_, rfl, stop⟩
  · next time hb =>
    unfold handleTot
    split
    · exact ⟨s, rfl, hS⟩
    · next hval =>
      dsimp only
      have e : Safe o P (pid ≠ 0) (if !s.streaming then checkTimeLimit o s time else s) := by
        unfold checkTimeLimit
        repeat' split
        all_goals first
          | exact hS
          | exact ⟨hS.time, hS.clock, hS.start, hS.stop, hS.pid, hS.demux, hS.pmt, hS.wait, hS.strm, hS.pat⟩
      generalize (if (!s.streaming) = true then checkTimeLimit o s time else s) = s0 at e
      split
      · exact ⟨_, rfl, e⟩
      · next hn =>
        unfold updateClockTime
        rw [assert_of (by simpa using hn)]
        simp only [ok_bind]
        obtain ⟨s', h1, h2, _⟩ := safe_range (s := { s0 with clockTime := time, clockTimeReady := true })
          (c := s0.eventTimeReady && s0.clockPcrReady) (q := pid ≠ 0) (o := o) (P := P)
          ⟨⟨hr.times.tot time (by simp only [Bool.not_eq_true', Bool.not_eq_false] at hval; simp [validTot, hb, hval]), e.time.2⟩, e.clock, e.start, e.stop, e.pid, e.demux, e.pmt, e.wait, e.strm, e.pat⟩
          (by simp)
        exact ⟨s', h1, h2⟩
  · exact ⟨s, rfl, hS⟩

theorem sync_safe {o : Opt} {P : Nat} {q : Prop} {s : St} {x : Int} (hS : Safe o P q s)
    (hx : isValidPcr x = true) : ∃ s', syncClock s x = .ok s' ∧ Safe o P q s' ∧
      s'.streaming = s.streaming ∧ s'.pcrPidReady = s.pcrPidReady := by
  unfold syncClock
  split
  · next hn =>
    unfold updateClockPcr
    rw [assert_of hn]
    simp only [ok_bind]
    obtain ⟨s', h1, h2, h3, h4, _⟩ := safe_range (s := { s with clockPcr := x, clockPcrReady := true })
      (c := s.eventTimeReady && s.clockTimeReady) (q := q) (o := o) (P := P)
      ⟨hS.time, hx, hS.start, hS.stop, hS.pid, hS.demux, hS.pmt, hS.wait, hS.strm, hS.pat⟩
      (by simp)
    exact ⟨s', h1, h2, h3, h4⟩
  · exact ⟨s, rfl, hS, rfl, rfl⟩

theorem forward_safe {extra : Pmt → Nat} {o : Opt} {P : Nat} {s : St} {p : Packet} {q : Prop}
    (hS : Safe o P q s) (hst : s.streaming = true) :
    ∃ s' outs more, forward extra s p = .ok (s', outs, more) ∧ Safe o P q s' := by
  obtain ⟨h1, h2, t, h3⟩ := hS.pmt (hS.strm hst)
  unfold forward
  split
  · obtain ⟨t', j, hn⟩ : ∃ t' j, s.pk.cur.or (s.pk.table.map (·, 0)) = some (t', j) := by
      rw [h3]
      cases s.pk.cur with
      | none => exact ⟨t, 0, rfl⟩
      | some y => exact ⟨y.1, y.2, rfl⟩
    unfold nextPmt Packetizer.next
    rw [hn]
    simp only [ok_bind]
    rw [assert_of (by simpa using h2.trans h1.symm)]
    simp only [ok_bind]
    refine ⟨_, _, _, rfl, hS.time, hS.clock, hS.start, hS.stop, hS.pid, hS.demux, ?_, ?_, hS.strm, hS.pat⟩
    · intro _; exact ⟨h1, h2, t, h3⟩
    · intro h; rw [hst] at h; cases h
  · split
    · exact ⟨_, _, _, rfl, hS⟩
    · exact ⟨_, _, _, rfl, hS⟩

theorem decide_safe {extra : Pmt → Nat} {o : Opt} {P : Nat} {s : St} {p : Packet}
    (hv : ∀ x, p.pcr = some x → isValidPcr x = true) (hS : Safe o P (p.pid ≠ 0) s) :
    ∃ s' outs more, (if s.streaming then doStreaming extra s p
        else waitReady extra o s p) = .ok (s', outs, more) ∧ (more = true → Safe o P True s') := by
  by_cases hst : s.streaming = true
  · rw [if_pos hst]
    have up : ∀ {s' : St}, s'.streaming = true → Safe o P (p.pid ≠ 0) s' → Safe o P True s' := by
      intro s' h hS
      exact ⟨hS.time, hS.clock, hS.start, hS.stop, hS.pid, hS.demux, hS.pmt, hS.wait, hS.strm,
        fun _ h' => by rw [h] at h'; cases h'⟩
    have upf : ∀ {a s' : St} {xs m}, a.streaming = true → forward extra a p = .ok (s', xs, m) →
        s'.streaming = true := by
      intro a s' xs m ha h
      unfold forward at h
      split at h
      · obtain ⟨⟨y, s1⟩, h1, h⟩ := bind_eq_ok h
        simp only [Except.ok.injEq, Prod.mk.injEq] at h
        unfold nextPmt at h1
        obtain ⟨⟨z, pk⟩, _, h1⟩ := bind_eq_ok h1
        obtain ⟨_, _, h1⟩ := bind_eq_ok h1
        simp only [Except.ok.injEq, Prod.mk.injEq] at h1
        rw [← h.1, ← h1.2]; exact ha
      · split at h <;>
        · simp only [Except.ok.injEq, Prod.mk.injEq] at h
          rw [← h.1]; exact ha
    unfold doStreaming
    split
    · exact ⟨_, _, _, rfl, by simp⟩
    · split
      · split
        · exact ⟨_, _, _, rfl, fun _ => up hst hS⟩
        · next x hx =>
          obtain ⟨s1, h1, hS1, hst1, _⟩ := sync_safe hS (hv x hx)
          rw [hst] at hst1
          rw [h1]
          simp only [ok_bind]
          split
          · exact ⟨_, _, _, rfl, fun _ => up hst1 hS1⟩
          · obtain ⟨c, hc⟩ := compare_total (hv x hx) hS1.stop
            rw [hc]
            simp only [ok_bind]
            split
            · exact ⟨_, _, _, rfl, by simp⟩
            · obtain ⟨s2, outs, more, h2, hS2⟩ := forward_safe (p := p) (extra := extra) hS1 hst1
              exact ⟨s2, outs, more, h2, fun _ => up (upf hst1 h2) hS2⟩
      · obtain ⟨s2, outs, more, h2, hS2⟩ := forward_safe (p := p) (extra := extra) hS hst
        exact ⟨s2, outs, more, h2, fun _ => up (upf hst h2) hS2⟩
  · rw [if_neg hst]
    have hst : s.streaming = false := by simpa using hst
    rw [waitReady_eq]
    split
    · exact ⟨_, _, _, rfl, by simp⟩
    · split
      · next hps =>
        simp only [Bool.and_eq_true] at hps
        exact ⟨_, _, _, rfl, fun _ => ⟨hS.time, hS.clock, hS.start, hS.stop, hS.pid, hS.demux, hS.pmt, hS.wait,
          hS.strm, fun _ _ h => by rw [hps.2] at h; cases h⟩⟩
      · dsimp only
        have hS1 : Safe o P True (savePat s p) := by
          unfold savePat
          split
          · exact ⟨hS.time, hS.clock, hS.start, hS.stop, hS.pid, hS.demux, hS.pmt, hS.wait, hS.strm,
              fun _ _ _ _ => by simp⟩
          · next hp =>
            exact ⟨hS.time, hS.clock, hS.start, hS.stop, hS.pid, hS.demux, hS.pmt, hS.wait, hS.strm,
              fun _ => hS.pat (by simpa [pidPat] using hp)⟩
        have hst1 : (savePat s p).streaming = false := by rw [savePat_eq]; exact hst
        generalize savePat s p = s1 at hS1 hst1
        split
        · exact ⟨_, _, _, rfl, fun _ => hS1⟩
        · next hr =>
          simp only [Bool.not_eq_true', Bool.or_eq_true, not_or, Bool.not_eq_false] at hr
          split
          · exact ⟨_, _, _, rfl, fun _ => hS1⟩
          · split
            · exact ⟨_, _, _, rfl, fun _ => hS1⟩
            · next x hx =>
              obtain ⟨s2, h2, hS2, hst2, hr2⟩ := sync_safe hS1 (hv x hx)
              rw [hst1] at hst2
              rw [hr.1] at hr2
              rw [h2]
              simp only [ok_bind]
              split
              · exact ⟨_, _, _, rfl, fun _ => hS2⟩
              · obtain ⟨c, hc⟩ := compare_total (hv x hx) hS2.stop
                rw [hc]
                simp only [ok_bind]
                split
                · exact ⟨_, _, _, rfl, by simp⟩
                · obtain ⟨d, hd⟩ := compare_total (hv x hx) hS2.start
                  rw [hd]
                  simp only [ok_bind]
                  split
                  · exact ⟨_, _, _, rfl, fun _ => hS2⟩
                  · obtain ⟨k1, k2, t, k3⟩ := hS2.pmt hr2
                    have hcur := hS2.wait hst2
                    have hlp : (o.preStreaming || !s2.lastPat.isEmpty) = true := by
                      cases hps : o.preStreaming with
                      | true => rfl
                      | false =>
                        have := hS2.pat trivial hst2 hps k1
                        simpa using this
                    rw [assert_of hlp]
                    simp only [ok_bind]
                    obtain ⟨l, hl⟩ : ∃ l, (if o.preStreaming = true then s2
                        else { s2 with lastPat := [] }) = { s2 with lastPat := l } := by
                      split
                      · exact ⟨s2.lastPat, rfl⟩
                      · exact ⟨[], rfl⟩
                    rw [hl]
                    have hcs := sendCycle_spec (extra := extra)
                      ((({ s2 with lastPat := l } : St).pk.cur.map (extra ·.1)).getD 0 +
                       (({ s2 with lastPat := l } : St).pk.table.map extra).getD 0 + 1)
                      { s2 with lastPat := l } t 0
                      (by simp [hcur, k3]) (k2.trans k1.symm) (by omega) (by simp [hcur, k3])
                    rw [hcs]
                    simp only [ok_bind]
                    exact ⟨_, _, _, rfl, fun _ => ⟨hS2.time, hS2.clock, hS2.start, hS2.stop, hS2.pid, hS2.demux,
                      fun _ => ⟨k1, k2, t, k3⟩, fun _ => rfl, fun _ => hr2, fun _ h => by cases h⟩⟩

theorem run_safe {extra : Pmt → Nat} {o : Opt} {P : Nat} (hP : P ≠ 0 ∧ P ≠ 0x12 ∧ P ≠ 0x14)
    (hm : Near o.startMargin ∧ Near o.endMargin) :
    ∀ (is : List Input) (s : St), (∀ i ∈ is, (∀ t ∈ i.tables, Regular o P t) ∧
      ∀ x, i.packet.pcr = some x → isValidPcr x = true) → Safe o P True s →
    ∃ r, run extra o s is = .ok r := by
  intro is
  induction is with
  | nil => intro s _ _; exact ⟨_, rfl⟩
  | cons i is ih =>
    intro s hc hS
    obtain ⟨⟨s1, log⟩, h1, hS1⟩ := feedDemux_total (watched := St.demux) (handle := handleTable o)
      (pid := i.packet.pid) (Safe o P (i.packet.pid ≠ 0)) (Regular o P)
      (fun s t h1 h2 h3 h4 => handle_safe hP hm h1 h2 h3 h4) i.tables s (hc i (by simp)).1
      ⟨hS.time, hS.clock, hS.start, hS.stop, hS.pid, hS.demux, hS.pmt, hS.wait, hS.strm, fun _ => hS.pat trivial⟩
    obtain ⟨s2, outs, more, h2, hS2⟩ := decide_safe (extra := extra) (hc i (by simp)).2 hS1
    have hstep : step extra o s i = .ok (s2, log, outs, more) := by
      unfold step
      rw [h1]
      simp only [ok_bind]
      split
      · next h => rw [if_pos h] at h2; rw [h2]; rfl
      · next h => rw [if_neg h] at h2; rw [h2]; rfl
    unfold run
    rw [hstep]
    simp only [ok_bind]
    split
    · next hm =>
      obtain ⟨r, hr⟩ := ih s2 (fun j hj => hc j (List.mem_cons_of_mem _ hj)) (hS2 hm)
      rw [hr]
      exact ⟨_, rfl⟩
    · exact ⟨_, rfl⟩

theorem safe_init {o : Opt} (P : Nat) (hP : P ≠ pidNull) (h : isValidPcr o.clockPcr = true) (ht : Near o.clockTime) :
    Safe o P True (init o) := by
  refine ⟨⟨ht, by simp [init]⟩, h, by simp [init]; decide, by simp [init]; decide, Or.inl rfl, ?_, by simp [init], by simp [init], by simp [init], ?_⟩
  · simp [init, pidTot, pidEit, pidPat]
  · intro _ _ _ h; exact absurd h.symm hP

/-! Connected to a sink. -/

/-- What a packet does to the filter and the sink. -/
theorem sink_cases {σ : Type} {extra : Pmt → Nat} {o : Opt} {snk : Sink Out σ} {s : St × σ} {i : Input}
    {ok : Bool} {s' : St × σ} (h : (sink extra o snk).handle s i = .ok (ok, s')) :
    (∃ log outs more ok', step extra o s.1 i = .ok (s'.1, log, outs, more) ∧
      sendAll snk outs s.2 = .ok (ok', s'.2) ∧ ok = (ok' && more)) ∨
    (ok = false ∧ s'.1 = s.1 ∧ (∃ e, step extra o s.1 i = .error e) ∧
      sendAll snk (announced o s.1 i) s.2 = .ok (false, s'.2)) := by
  simp only [sink] at h
  split at h
  · next f log outs more h1 =>
    obtain ⟨⟨ok', d⟩, h2, h⟩ := bind_eq_ok h
    simp only [Except.ok.injEq, Prod.mk.injEq] at h
    obtain ⟨rfl, rfl⟩ := h
    exact .inl ⟨log, outs, more, ok', h1, h2, rfl⟩
  · next e h1 =>
    obtain ⟨⟨ok', d⟩, h2, h⟩ := bind_eq_ok h
    cases ok' with
    | true => cases h
    | false =>
      simp only [Bool.false_eq_true, if_false, Except.ok.injEq, Prod.mk.injEq] at h
      obtain ⟨rfl, rfl⟩ := h
      exact .inr ⟨rfl, rfl, ⟨e, h1⟩, h2⟩

theorem handle_of_ok {σ : Type} {extra : Pmt → Nat} {o : Opt} {snk : Sink Out σ} {s s' : St} {d d' : σ} {i : Input}
    {log : List Table} {outs : List Out} {more ok : Bool} (h1 : step extra o s i = .ok (s', log, outs, more))
    (h2 : sendAll snk outs d = .ok (ok, d')) : (sink extra o snk).handle (s, d) i = .ok (ok && more, s', d') := by
  simp only [sink, h1, h2, ok_bind]

theorem updatePcrRange_lastPat {s s' : St} (h : updatePcrRange s = .ok s') : s'.lastPat = s.lastPat := by
  unfold updatePcrRange at h
  obtain ⟨_, _, h⟩ := bind_eq_ok h
  obtain ⟨_, _, h⟩ := bind_eq_ok h
  obtain ⟨_, _, h⟩ := bind_eq_ok h
  obtain ⟨_, _, h⟩ := bind_eq_ok h
  obtain ⟨_, _, h⟩ := bind_eq_ok h
  cases h
  rfl

theorem syncClock_lastPat {s s' : St} {x : Int} (h : syncClock s x = .ok s') : s'.lastPat = s.lastPat := by
  unfold syncClock at h
  split at h
  · unfold updateClockPcr at h
    obtain ⟨_, _, h⟩ := bind_eq_ok h
    dsimp only at h
    split at h
    · have := updatePcrRange_lastPat h
      exact this
    · cases h; rfl
  · cases h; rfl

/-- The PAT with which the programme starts. -/
theorem waitStart_lastPat {o : Opt} {s s' : St} {p : Packet} (h : waitStart o s p = .ok (s', none)) :
    s'.lastPat = (savePat s p).lastPat := by
  unfold waitStart at h
  split at h
  · cases h
  split at h
  · cases h
  dsimp only at h
  split at h
  · cases h
  split at h
  · cases h
  split at h
  · cases h
  obtain ⟨s1, h1, h⟩ := bind_eq_ok h
  split at h
  · cases h
  obtain ⟨_, _, h⟩ := bind_eq_ok h
  split at h
  · cases h
  obtain ⟨_, _, h⟩ := bind_eq_ok h
  split at h
  · cases h
  obtain ⟨_, _, h⟩ := bind_eq_ok h
  cases h
  exact syncClock_lastPat h1

theorem announced_spec {extra : Pmt → Nat} {o : Opt} {s : St} {pre : List Item} (hH : Hist extra o s pre) (i : Input) :
    announced o s i = [] ∨ o.preStreaming = false ∧
      ∃ l, LastPat (packets (events pre) ++ [i.packet]) l ∧ announced o s i = l.map .orig := by
  unfold announced
  split
  · exact .inl rfl
  · next s1 log hf =>
    split
    · exact .inl rfl
    · next hst =>
      split
      · next s2 hw =>
        unfold pendingPat
        split
        · exact .inl rfl
        · next hps =>
          refine .inr ⟨by simpa using hps, s2.lastPat, ?_, rfl⟩
          rw [waitStart_lastPat hw]
          have hsame := (feed_spec hH.inv hf).2.1
          apply lastPat_save
          rw [hsame.lastPat]
          exact hH.lastPat (by rw [← hsame.streaming]; simpa using hst) (by simpa using hps)
      · exact .inl rfl

/-- After packets with all of which the filter wants more. -/
theorem run_hist {extra : Pmt → Nat} {o : Opt} (hps : o.preStreaming = false) : ∀ (is : List Input) (s s' : St)
    (pre0 items : List Item), Hist extra o s pre0 → run extra o s is = .ok (s', items) →
    (∀ it ∈ items, it.more = true) → Hist extra o s' (pre0 ++ items) := by
  intro is
  induction is with
  | nil =>
    intro s s' pre0 items hH h _
    cases h
    simpa using hH
  | cons i is ih =>
    intro s s' pre0 items hH h hm
    obtain ⟨s1, log, outs, more, h1, h⟩ := run_cons h
    have hh := (step_spec hH (by simp [hps]) h1).2
    rcases h with ⟨rfl, _, rfl⟩ | ⟨rfl, rest, hr, rfl⟩
    · have := hm _ (List.mem_singleton.2 rfl)
      cases this
    · have := ih s1 s' _ rest (hh rfl) hr (fun it hit => hm it (List.mem_cons_of_mem _ hit))
      simpa using this

/-- What is sent before the filter fails: nothing, or the packets of the last PAT. -/
theorem announced_of_run {extra : Pmt → Nat} {o : Opt} {is : List Input} {s : St} {items : List Item}
    (h : run extra o (init o) is = .ok (s, items)) (hm : ∀ it ∈ items, it.more = true) (i : Input) :
    announced o s i = [] ∨ o.preStreaming = false ∧
      ∃ l, LastPat (packets (events items) ++ [i.packet]) l ∧ announced o s i = l.map .orig := by
  cases hps : o.preStreaming with
  | false =>
    have := announced_spec (run_hist hps is _ _ [] items (hist_init extra o) h hm) i
    rw [hps] at this
    exact this
  | true =>
    left
    unfold announced
    split
    · rfl
    · split
      · rfl
      · split
        · simp [pendingPat, hps]
        · rfl

theorem packets_events : ∀ items : List Item, packets (events items) = items.map (·.packet) := by
  intro items
  induction items with
  | nil => rfl
  | cons it items ih =>
    have h : ∀ l : List Table, l.filterMap (fun t => match (Ev.tab t) with | .pkt p => some p | .tab _ => none) = [] := by
      intro l
      induction l with
      | nil => rfl
      | cons _ _ ih => simpa using ih
    simp only [packets, events, List.flatMap_cons, List.filterMap_append, List.filterMap_map, List.map_cons] at ih ⊢
    rw [ih]
    simp [Function.comp_def, List.filterMap_cons]

/-- Only received packets are sent before the filter fails. -/
theorem announced_received {extra : Pmt → Nat} {o : Opt} {is : List Input} {s : St} {items : List Item}
    (h : run extra o (init o) is = .ok (s, items)) (hm : ∀ it ∈ items, it.more = true) (i : Input)
    {x : Out} (hx : x ∈ announced o s i) : ∃ j ∈ is ++ [i], x = .orig j.packet := by
  rcases announced_of_run h hm i with e | ⟨_, l, ⟨a, h1, _⟩, e⟩
  · rw [e] at hx; cases hx
  · rw [e, List.mem_map] at hx
    obtain ⟨p, hp, rfl⟩ := hx
    have : p ∈ (packets (events items) ++ [i.packet]).filter (·.pid = 0) := by rw [h1]; simp [hp]
    rw [packets_events, (run_shape is _ _ _ h).1] at this
    have := (List.mem_filter.1 this).1
    rw [List.mem_append] at this
    rcases this with h | h
    · obtain ⟨j, hj, rfl⟩ := List.mem_map.1 h
      exact ⟨j, List.mem_append_left _ (List.mem_of_mem_take hj), rfl⟩
    · rw [List.mem_singleton] at h
      exact ⟨i, by simp, by rw [h]⟩

/-- Offered `xs`, the sink takes `ys`: all of `xs`, or up to and including the first one it
refuses. -/
theorem sendAll_spec {σ : Type} (snk : Sink Out σ) : ∀ (xs : List Out) (d d' : σ)
    (calls calls' : List (Call Out)) (ok : Bool),
    sendAll (logged snk) xs (d, calls) = .ok (ok, d', calls') →
    ∃ ys, ys <+: xs ∧ calls' = calls ++ ys.map .handle ∧ (ok = true → ys = xs) ∧ (ok = false → ys ≠ []) := by
  intro xs
  induction xs with
  | nil =>
    intro d d' calls calls' ok h
    simp only [sendAll, Except.ok.injEq, Prod.mk.injEq] at h
    exact ⟨[], by simp, by simp [h.2.2], by simp, by simp [← h.1]⟩
  | cons x xs ih =>
    intro d d' calls calls' ok h
    simp only [sendAll] at h
    obtain ⟨⟨ok1, d1, c1⟩, h1, h⟩ := bind_eq_ok h
    simp only [logged] at h1
    cases hx : snk.handle d x with
    | error e => rw [hx] at h1; cases h1
    | ok r =>
      rw [hx] at h1
      simp only [Except.map, Except.ok.injEq, Prod.mk.injEq] at h1
      dsimp only at h
      split at h
      · obtain ⟨ys, g1, g2, g3, _⟩ := ih _ _ _ _ _ h
        refine ⟨x :: ys, by simpa using g1, ?_, fun hk => by rw [g3 hk], by simp⟩
        rw [g2, ← h1.2.2]; simp
      · simp only [Except.ok.injEq, Prod.mk.injEq] at h
        refine ⟨[x], ⟨xs, rfl⟩, ?_, ?_, by simp⟩
        · rw [← h.2.2, ← h1.2.2]; rfl
        · intro hk; rw [← h.1] at hk; cases hk

/-- Connected to a sink, the filter does what `run` says, and the sink receives what is
sent, up to the packet it refuses; or the programme starts with the last packet, the sink refuses
one of the PAT, and `run` fails afterwards. -/
theorem sink_consumes {σ : Type} {extra : Pmt → Nat} {o : Opt} (snk : Sink Out σ)
    {is cs : List Input} {a b : St × σ × List (Call Out)}
    (h : Consumes (sink extra o (logged snk)) a is cs b) :
    ∃ items xs rest, is = cs ++ rest ∧ b.2.2 = a.2.2 ++ xs.map Call.handle ∧
      ((run extra o a.1 cs = .ok (b.1, items) ∧ items.length = cs.length ∧ xs <+: sent items ∧
        (cs = is → (∀ it ∈ items, it.more = true) → xs = sent items ∨
          ∃ pre it, items = pre ++ [it] ∧ sent pre <+: xs)) ∨
       ∃ pre i ys, cs = pre ++ [i] ∧ run extra o a.1 pre = .ok (b.1, items) ∧ items.length = pre.length ∧
        (∀ it ∈ items, it.more = true) ∧ (∃ e, step extra o b.1 i = .error e) ∧
        xs = sent items ++ ys ∧ ys ≠ [] ∧ ys <+: announced o b.1 i) := by
  induction h with
  | eof => exact ⟨[], [], [], rfl, by simp, .inl ⟨rfl, rfl, by simp [sent], fun _ _ => Or.inl rfl⟩⟩
  | @refuse s s' i is h =>
    rcases sink_cases h with ⟨log, outs, more, ok, h1, h2, hk⟩ | ⟨_, h0, h1, h2⟩
    · obtain ⟨ys, g1, g2, g3, _⟩ := sendAll_spec snk _ _ _ _ _ _ h2
      refine ⟨[⟨i.packet, log, outs, more⟩], ys, is, rfl, g2, .inl ⟨?_, rfl, by simpa [sent] using g1, ?_⟩⟩
      · simp only [run, h1, ok_bind]
        split <;> simp [run]
      · intro _ _
        exact Or.inr ⟨[], _, rfl, by simp [sent]⟩
    · obtain ⟨ys, g1, g2, _, g4⟩ := sendAll_spec snk _ _ _ _ _ _ h2
      refine ⟨[], ys, is, rfl, g2, .inr ⟨[], i, ys, rfl, by rw [h0]; rfl, rfl, by simp, ?_, by simp [sent], g4 rfl, ?_⟩⟩
      · rw [h0]; exact h1
      · rw [h0]; exact g1
  | @accept s s' s'' i is cs h _ ih =>
    obtain ⟨items, xs, rest, i1, i2, i3⟩ := ih
    rcases sink_cases h with ⟨log, outs, more, ok, h1, h2, hk⟩ | ⟨h0, _⟩
    · obtain ⟨ys, g1, g2, g3, _⟩ := sendAll_spec snk _ _ _ _ _ _ h2
      simp only [Bool.true_eq, Bool.and_eq_true] at hk
      obtain ⟨rfl, rfl⟩ := hk
      obtain rfl := g3 rfl
      refine ⟨⟨i.packet, log, ys, true⟩ :: items, ys ++ xs, rest, by simp [i1], by rw [i2, g2]; simp, ?_⟩
      have hrun : ∀ l, run extra o s'.1 l = .ok (s''.1, items) →
          run extra o s.1 (i :: l) = .ok (s''.1, ⟨i.packet, log, ys, true⟩ :: items) := by
        intro l hl
        simp only [run, h1, ok_bind, if_true, hl]
      have he : sent (⟨i.packet, log, ys, true⟩ :: items) = ys ++ sent items := by simp [sent]
      rcases i3 with ⟨k1, k2, k3, k4⟩ | ⟨pre, j, zs, rfl, k1, k2, k3, k4, rfl, k5, k6⟩
      · refine .inl ⟨hrun _ k1, by simp [k2], ?_, ?_⟩
        · rw [he]
          exact (List.prefix_append_right_inj ys).2 k3
        · intro e hall
          rcases k4 (by simpa using e) (fun it hit => hall it (List.mem_cons_of_mem _ hit)) with h | ⟨pre, it, rfl, h⟩
          · exact Or.inl (by simp [sent, h])
          · refine Or.inr ⟨_ :: pre, it, rfl, ?_⟩
            simp only [sent, List.flatMap_cons]
            exact (List.prefix_append_right_inj ys).2 h
      · refine .inr ⟨i :: pre, j, zs, rfl, hrun _ k1, by simp [k2], ?_, k4, by rw [he]; simp, k5, k6⟩
        intro it hit
        rcases List.mem_cons.1 hit with rfl | hit
        · rfl
        · exact k3 it hit
    · cases h0

theorem sendAll_total {σ : Type} {snk : Sink Out σ} (ht : Total snk) : ∀ (xs : List Out) (d : σ),
    ∃ r, sendAll snk xs d = .ok r := by
  intro xs
  induction xs with
  | nil => intro d; exact ⟨_, rfl⟩
  | cons x xs ih =>
    intro d
    obtain ⟨⟨ok, d1⟩, hx⟩ := ht.handle d x
    simp only [sendAll, hx, ok_bind]
    cases ok with
    | true => simpa using ih d1
    | false => exact ⟨_, rfl⟩

theorem sink_total {σ : Type} {extra : Pmt → Nat} {o : Opt} {snk : Sink Out σ} (ht : Total snk) :
    ∀ (is : List Input) (s : St) (d : σ), (∃ r, run extra o s is = .ok r) →
      ∃ cs b, Consumes (sink extra o snk) (s, d) is cs b := by
  intro is
  induction is with
  | nil => intro s d _; exact ⟨[], _, .eof⟩
  | cons i is ih =>
    rintro s d ⟨⟨s', items⟩, h⟩
    obtain ⟨s1, log, outs, more, h1, h⟩ := run_cons h
    obtain ⟨⟨ok, d1⟩, hx⟩ := sendAll_total ht outs d
    cases hk : (ok && more) with
    | false => exact ⟨[i], (s1, d1), .refuse (by rw [handle_of_ok h1 hx, hk])⟩
    | true =>
      simp only [Bool.and_eq_true] at hk
      rcases h with ⟨e, _⟩ | ⟨_, rest, hr, _⟩
      · rw [hk.2] at e; cases e
      · obtain ⟨cs, b, hc⟩ := ih s1 d1 ⟨_, hr⟩
        exact ⟨i :: cs, b, .accept (s' := (s1, d1)) (by rw [handle_of_ok h1 hx, hk.1, hk.2, Bool.and_self]) hc⟩

/-! The specification determines clock and range. -/

theorem sync_unique {o : Opt} {evs : List Ev} {t0 p0 t1 p1 : Int} (h : Sync o evs t0 p0)
    (h' : Sync o evs t1 p1) : t0 = t1 ∧ p0 = p1 := by
  rcases h with ⟨c, rfl, rfl⟩ | ⟨h, t, a, tot, b, pid, rfl, hc, hv, ht, hd⟩ <;>
  rcases h' with ⟨c', rfl, rfl⟩ | ⟨h', t', a', tot', b', pid', e, hc', hv', ht', hd'⟩
  · exact ⟨rfl, rfl⟩
  · subst e; exact (changed_not_const hc' (by simpa using c)).elim
  · exact (changed_not_const hc (by simpa using c')).elim
  · obtain ⟨e1, e2, e3, e4⟩ := changed_unique hc hc' (by simpa using e)
    obtain ⟨e5, e6, e7⟩ := tot_unique ht ht' hv hv' e3
    subst e1 e2 e4 e5 e6 e7
    rw [hv] at hv'
    refine ⟨Option.some.inj hv', ?_⟩
    rcases hd with hd | hd <;> rcases hd' with hd' | hd'
    · rw [hd] at hd'; exact Option.some.inj hd'
    · rw [hd'.1] at hd; simp at hd
    · rw [hd.1] at hd'; simp at hd'
    · rw [hd.2] at hd'; exact Option.some.inj hd'.2

theorem range_unique {o : Opt} {evs : List Ev} {a b a' b' : Int} (h : Range o evs a b)
    (h' : Range o evs a' b') : a = a' ∧ b = b' := by
  obtain ⟨e, t0, p0, h1, h2, rfl, rfl⟩ := h
  obtain ⟨e', t1, p1, h1', h2', rfl, rfl⟩ := h'
  rw [h1] at h1'
  cases h1'
  obtain ⟨rfl, rfl⟩ := sync_unique h2 h2'
  exact ⟨rfl, rfl⟩

theorem hasPcr_unique {o : Opt} {evs : List Ev} {p : Packet} {x y : Int} (h : HasPcr o evs p x)
    (h' : HasPcr o evs p y) : x = y := by
  obtain ⟨_, _, _, h⟩ := h
  obtain ⟨_, _, _, h'⟩ := h'
  rw [h] at h'
  exact Option.some.inj h'

theorem pcrsOn_mem {o : Opt} {pid : Nat} {x : Int} : ∀ {evs pre : List Ev}, x ∈ pcrsOn o pid pre evs →
    ∃ p ∈ packets evs, p.pid = pid ∧ p.pcr = some x := by
  intro evs
  induction evs with
  | nil => intro pre h; simp [pcrsOn] at h
  | cons e evs ih =>
    intro pre h
    cases e with
    | tab t =>
      obtain ⟨p, h1, h2⟩ := ih (by simpa [pcrsOn] using h)
      exact ⟨p, by simpa using h1, h2⟩
    | pkt q =>
      simp only [pcrsOn, List.mem_append] at h
      rcases h with h | h
      · split at h
        · next hc => exact ⟨q, by simp, hc.1, by simpa using h⟩
        · simp at h
      · obtain ⟨p, h1, h2⟩ := ih h
        exact ⟨p, by simp [h1], h2⟩

/-- After a change of the PCR PID there is no range without both a TOT and a PCR. -/
theorem no_range {o : Opt} {h since : List Ev} {t : Table} {pid : Nat}
    (hc : Changed o h t since pid)
    (hn : totsOf since = [] ∨ ∀ p ∈ packets since, p.pid = pid → p.pcr = none) (a b : Int) :
    ¬ Range o (h ++ [.tab t] ++ since) a b := by
  rintro ⟨e, t0, p0, _, (⟨c, _⟩ | ⟨h', t', x, tot, y, pid', e, hc', hv, ht, hd⟩), _⟩
  · exact changed_not_const hc c
  · obtain ⟨e1, e2, e3, e4⟩ := changed_unique hc hc' (by simpa using e)
    subst e1 e2 e3 e4
    rcases hn with hn | hn
    · simp [totsOf_tab, hv] at hn
    · have : ∃ p ∈ packets (x ++ [.tab tot] ++ y), p.pid = pid ∧ p.pcr = some p0 := by
        rcases hd with hd | ⟨_, hd⟩
        · obtain ⟨p, h1, h2⟩ := pcrsOn_mem (List.mem_of_getLast? hd)
          exact ⟨p, by simp [h1], h2⟩
        · obtain ⟨p, h1, h2⟩ := pcrsOn_mem (List.mem_of_mem_head? hd)
          exact ⟨p, by simp [h1], h2⟩
      obtain ⟨p, h1, h2, h3⟩ := this
      rw [hn p h1 h2] at h3
      cases h3

/-- An event known stays known. -/
theorem latestEvent_append {o : Opt} {evs : List Ev} (h : latestEvent o evs ≠ none) (l : List Ev) :
    latestEvent o (evs ++ l) ≠ none := by
  induction l generalizing evs with
  | nil => simpa using h
  | cons x l ih =>
    rw [show evs ++ x :: l = (evs ++ [x]) ++ l by simp]
    apply ih
    cases x with
    | pkt p => rw [latestEvent_pkt]; exact h
    | tab t =>
      unfold latestEvent at h ⊢
      simp only [tables_append, tables_tab, latest_append]
      cases (serviceEit o.sid t).bind (listedIn o.eid) with
      | none => simpa using h
      | some x => simp

theorem pcrsOn_all {o : Opt} {pid : Nat} : ∀ {evs pre : List Ev}, latestEvent o pre ≠ none →
    pcrsOn o pid pre evs = pcrsAll pid evs := by
  intro evs
  induction evs with
  | nil => intro pre _; rfl
  | cons e evs ih =>
    intro pre h
    cases e with
    | tab t => simpa [pcrsOn, pcrsAll] using ih (latestEvent_append h [.tab t])
    | pkt q =>
      have := ih (latestEvent_append h [.pkt q])
      simp only [pcrsOn, this, pcrsAll, packets_cons_pkt, List.flatMap_cons]
      simp [h]

theorem reached_of_near {p x : Int} (h : 2 * (p - x) < 2 ^ 33 * 300) (h' : 2 * (x - p) < 2 ^ 33 * 300) :
    Reached p x ↔ ReachedNoWrap p x := by
  unfold Reached ReachedNoWrap
  omega

end Mirakc.ProgramFilter
