import Verif.Proof.ProgramFilter
/-
filter-program: the state as a function of the tables received.
-/
namespace Mirakc.ProgramFilter
open Mirakc.Spec Mirakc.Spec.ProgramFilter
open Mirakc.Spec.ServiceFilter (usablePat validPmt validTot latest)
open Mirakc.ServiceFilter (latest_append latest_some latest_none)
set_option linter.unusedSimpArgs false

/-- The event members of the state. -/
def EventSt (o : Opt) (s : St) : Option Event → Prop
  | none => s.eventTimeReady = false
  | some e => s.eventTimeReady = true ∧ s.eventStart = e.startTime - o.startMargin ∧
      s.eventEnd = e.startTime + e.duration * 1000 + o.endMargin

/-- The packetizer members of the state. -/
def PkSt (o : Opt) (s : St) : Option (Nat × Pmt) → Prop
  | none => s.pk.table = none
  | some (q, pmt) => s.pk.pid = q ∧ ∃ t, s.pk.table = some t ∧ Rewritten o pmt t

/-- The PMT PID. -/
def PmtPidSt (o : Opt) (s : St) : Option Pat → Prop
  | none => s.pmtPid = pidNull
  | some pat => (o.sid, s.pmtPid) ∈ pat.pmts.entries

/-- The PCR range. -/
def RangeSt (s : St) : Prop :=
  s.eventTimeReady = true → s.clockTimeReady = true → s.clockPcrReady = true →
    s.startPcr = image s.clockTime s.clockPcr s.eventStart ∧
    s.endPcr = image s.clockTime s.clockPcr s.eventEnd

/-- The state as a function of the events. -/
structure TInv (o : Opt) (s : St) (evs : List Ev) : Prop where
  pcrReady : s.pcrPidReady = (pmtsOf o evs).getLast?.isSome
  pcrPid : ∀ pmt, (pmtsOf o evs).getLast? = some pmt → s.pcrPid = pmt.pcrPid
  clockPid : s.clockPid = clockPid o evs
  black : ∀ pid, pid ∈ s.black ↔ ExcludedPid o evs pid
  pk : PkSt o s (latestPmt o evs)
  pmtPid : PmtPidSt o s (latest usablePat (tables evs))
  event : EventSt o s (latestEvent o evs)
  clk : Clk o s evs
  range : RangeSt s

theorem tinv_init (o : Opt) : TInv o (init o) [] := by
  refine ⟨rfl, by simp, rfl, ?_, rfl, rfl, rfl, ?_, ?_⟩
  · simp [init, ExcludedPid]
  · exact .initial (by simp) rfl rfl rfl rfl
  · intro h; simp [init] at h

theorem image_eq (t0 p0 t : Int) :
    image t0 p0 t = (p0 + (t - t0) * 27000) % 2576980377600 := rfl

theorem convert_spec {s : St} {x r : Int} (h : convertTimeToPcr s x = .ok r) :
    r = image s.clockTime s.clockPcr x := by
  unfold convertTimeToPcr at h
  obtain ⟨_, _, h⟩ := bind_eq_ok h
  obtain ⟨_, _, h⟩ := bind_eq_ok h
  obtain ⟨_, _, h⟩ := bind_eq_ok h
  obtain ⟨_, h1, h⟩ := bind_eq_ok h
  obtain ⟨_, h2, h⟩ := bind_eq_ok h
  obtain ⟨_, _, h⟩ := bind_eq_ok h
  rw [(int64_ok h2).1, (int64_ok h1).1] at h
  simp only [Except.ok.injEq] at h
  have hl := liftNegative_spec (s.clockPcr + (x - s.clockTime) * pcrTicksPerMs)
  rw [← h, tmod_nonneg_eq _ _ hl.1, upper_val, hl.2.1, image_eq, ticks_val]

theorem range_spec {s s' : St} (h : updatePcrRange s = .ok s') :
    s' = { s with startPcr := image s.clockTime s.clockPcr s.eventStart
                  endPcr := image s.clockTime s.clockPcr s.eventEnd } := by
  unfold updatePcrRange at h
  obtain ⟨_, _, h⟩ := bind_eq_ok h
  obtain ⟨_, _, h⟩ := bind_eq_ok h
  obtain ⟨_, _, h⟩ := bind_eq_ok h
  obtain ⟨a, ha, h⟩ := bind_eq_ok h
  obtain ⟨b, hb, h⟩ := bind_eq_ok h
  rw [convert_spec ha, convert_spec hb] at h
  exact (Except.ok.inj h).symm

/-- Updating the range if everything is known keeps the other members and makes the
range right. -/
theorem range_if {s s' : St} {c : Bool}
    (hc : s.eventTimeReady = true → s.clockTimeReady = true → s.clockPcrReady = true → c = true)
    (h : (if c then updatePcrRange s else .ok s) = .ok s') :
    RangeSt s' ∧ ∃ a b, s' = { s with startPcr := a, endPcr := b } := by
  split at h
  · have := range_spec h
    subst this
    exact ⟨fun _ _ _ => ⟨rfl, rfl⟩, _, _, rfl⟩
  · next hn =>
    cases h
    exact ⟨fun a b c => absurd (hc a b c) hn, _, _, rfl⟩

/-- What no table handler touches. -/
structure Same (s s' : St) : Prop where
  streaming : s'.streaming = s.streaming
  retry : s'.retry = s.retry
  lastPat : s'.lastPat = s.lastPat
  cur : s'.pk.cur = s.pk.cur
  count : s'.pk.count = s.pk.count

theorem Same.rfl' (s : St) : Same s s := ⟨rfl, rfl, rfl, rfl, rfl⟩
theorem Same.trans {a b c : St} (h : Same a b) (g : Same b c) : Same a c :=
  ⟨g.1.trans h.1, g.2.trans h.2, g.3.trans h.3, g.4.trans h.4, g.5.trans h.5⟩

theorem latestEvent_tab (o : Opt) (evs : List Ev) (t : Table) :
    latestEvent o (evs ++ [.tab t]) =
      ((serviceEit o.sid t).bind (listedIn o.eid)).or (latestEvent o evs) := by
  simp only [latestEvent, tables_append, tables_tab, latest_append]

theorem latestPmt_tab (o : Opt) (evs : List Ev) (t : Table) :
    latestPmt o (evs ++ [.tab t]) =
      ((validPmt o.sid t).map (t.sourcePid, ·)).or (latestPmt o evs) := by
  simp only [latestPmt, tables_append, tables_tab, latest_append]

theorem pmts_last_tab (o : Opt) (evs : List Ev) (t : Table) :
    (pmtsOf o (evs ++ [.tab t])).getLast? = (validPmt o.sid t).or (pmtsOf o evs).getLast? := by
  rw [pmtsOf_append, pmtsOf_tab]
  cases h : validPmt o.sid t <;> simp

theorem excludedPid_tab {o : Opt} {evs : List Ev} {t : Table} (h : validPmt o.sid t = none)
    (pid : Nat) : ExcludedPid o (evs ++ [.tab t]) pid ↔ ExcludedPid o evs pid := by
  simp only [ExcludedPid, pmts_last_tab, h, Option.none_or]

theorem clockPid_tab {o : Opt} {evs : List Ev} {t : Table} :
    clockPid o (evs ++ [.tab t]) = ((validPmt o.sid t).map (·.pcrPid)).getD (clockPid o evs) := by
  simp only [clockPid, pmts_last_tab]
  cases h : validPmt o.sid t <;> simp

/-- A table that is neither a usable PAT, nor a PMT of the service, nor lists the
event; and the clock and PCR range are taken care of. -/
theorem tinv_other {o : Opt} {s s' : St} {evs : List Ev} {t : Table} (hI : TInv o s evs)
    (h1 : usablePat t = none) (h2 : validPmt o.sid t = none)
    (h3 : (serviceEit o.sid t).bind (listedIn o.eid) = none)
    (e1 : s'.pcrPidReady = s.pcrPidReady) (e2 : s'.pcrPid = s.pcrPid) (e3 : s'.clockPid = s.clockPid)
    (e4 : s'.black = s.black) (e5 : s'.pk = s.pk) (e6 : s'.pmtPid = s.pmtPid)
    (e7 : s'.eventTimeReady = s.eventTimeReady) (e8 : s'.eventStart = s.eventStart)
    (e9 : s'.eventEnd = s.eventEnd) (hk : Clk o s' (evs ++ [.tab t])) (hr : RangeSt s') :
    TInv o s' (evs ++ [.tab t]) := by
  refine ⟨?_, ?_, ?_, ?_, ?_, ?_, ?_, hk, hr⟩
  · rw [e1, hI.pcrReady, pmts_last_tab, h2]; rfl
  · rw [pmts_last_tab, h2, e2]; exact hI.pcrPid
  · rw [e3, hI.clockPid, clockPid_tab, h2]; rfl
  · intro pid; rw [e4, hI.black, excludedPid_tab h2]
  · rw [latestPmt_tab, h2]
    have := hI.pk
    simp only [Option.map_none, Option.none_or]
    cases hl : latestPmt o evs with
    | none => rw [hl] at this; simpa [PkSt, e5] using this
    | some x => rw [hl] at this; simpa [PkSt, e5] using this
  · rw [tables_append, tables_tab, latest_none _ _ _ h1]
    have := hI.pmtPid
    cases hl : latest usablePat (tables evs) with
    | none => rw [hl] at this; simpa [PmtPidSt, e6] using this
    | some x => rw [hl] at this; simpa [PmtPidSt, e6] using this
  · rw [latestEvent_tab, h3]
    have := hI.event
    simp only [Option.none_or]
    cases hl : latestEvent o evs with
    | none => rw [hl] at this; simpa [EventSt, e7] using this
    | some x => rw [hl] at this; simpa [EventSt, e7, e8, e9] using this

theorem tinv_skip {o : Opt} {s : St} {evs : List Ev} {t : Table} (hI : TInv o s evs)
    (h1 : usablePat t = none) (h2 : validPmt o.sid t = none)
    (h3 : (serviceEit o.sid t).bind (listedIn o.eid) = none)
    (h4 : validTot t = none ∨ s.clockTimeReady = true) (b : Bool) :
    TInv o { s with stop := b } (evs ++ [.tab t]) :=
  tinv_other hI h1 h2 h3 rfl rfl rfl rfl rfl rfl rfl rfl rfl
    ((hI.clk.table t (by simp [h2]) h4).congr rfl rfl rfl rfl) hI.range

theorem not_cancels {o : Opt} {P : Prop} {t : Table} (h1 : serviceEit o.sid t = none)
    (h2 : validTot t = none) : ¬ Cancels o P t := by
  rintro (h | ⟨_, es, h, _⟩ | ⟨_, x, l, h, _⟩)
  · rw [h1] at h; cases h
  · rw [h1] at h; cases h
  · rw [h2] at h; cases h

/-- What a handler call does. -/
structure HandleSpec (o : Opt) (s s' : St) (evs : List Ev) (t : Table) : Prop where
  inv : TInv o s' (evs ++ [.tab t])
  same : Same s s'
  stop : s'.stop = true ↔ s.stop = true ∨ Cancels o (s.streaming = true) t

theorem handlePat_spec {o : Opt} {s s' : St} {t : Table} {pat : Pat} {evs : List Ev}
    (hI : TInv o s evs) (hb : t.body = .pat pat) (h : handlePat o s t pat = .ok s') :
    HandleSpec o s s' evs t := by
  have h2 : validPmt o.sid t = none := by simp [validPmt, hb]
  have h4 : validTot t = none := by simp [validTot, hb]
  have h5 : serviceEit o.sid t = none := by simp [serviceEit, hb]
  have hnc := not_cancels (P := s.streaming = true) h5 h4
  by_cases hu : t.sourcePid = 0 ∧ t.valid = true ∧ pat.tsId ≠ 0
  · have h1 : usablePat t = some pat := by simp [usablePat, hb, hu]
    unfold handlePat at h
    rw [if_neg (by simp [hu.1, pidPat]), if_neg (by simp [hu.2.1]), if_neg (by simpa using hu.2.2)] at h
    cases hf : pat.pmts.find? o.sid with
    | none => rw [hf] at h; cases h
    | some pid =>
      have hmem := (OMap.find?_iff _ _ _).1 hf
      simp only [hf, Except.ok.injEq] at h
      subst h
      refine ⟨⟨?_, ?_, ?_, ?_, ?_, ?_, ?_, ?_, hI.range⟩, ⟨rfl, rfl, rfl, rfl, rfl⟩, by simp [hnc]⟩
      · rw [pmts_last_tab, h2]; exact hI.pcrReady
      · rw [pmts_last_tab, h2]; exact hI.pcrPid
      · rw [clockPid_tab, h2]; exact hI.clockPid
      · intro q; rw [excludedPid_tab h2]; exact hI.black q
      · rw [latestPmt_tab, h2]
        have := hI.pk
        simp only [Option.map_none, Option.none_or]
        cases hl : latestPmt o evs with
        | none => rw [hl] at this; exact this
        | some x => rw [hl] at this; exact this
      · rw [tables_append, tables_tab, latest_some _ _ _ h1]; exact hmem
      · rw [latestEvent_tab, h5]
        have := hI.event
        simp only [Option.bind_none, Option.none_or]
        cases hl : latestEvent o evs with
        | none => rw [hl] at this; exact this
        | some x => rw [hl] at this; exact this
      · exact (hI.clk.table t (by simp [h2]) (Or.inl h4)).congr rfl rfl rfl rfl
  · have h1 : usablePat t = none := by simp [usablePat, hb, hu]
    have hs : s' = s := by
      unfold handlePat at h
      split at h
      · exact (Except.ok.inj h).symm
      · next a =>
        split at h
        · exact (Except.ok.inj h).symm
        · next b =>
          split at h
          · exact (Except.ok.inj h).symm
          · next c => exact absurd ⟨by simpa [pidPat] using a, by simpa using b, by simpa using c⟩ hu
    subst hs
    exact ⟨tinv_skip hI h1 h2 (by simp [h5]) (Or.inl h4) s'.stop, Same.rfl' _, by simp [hnc]⟩

theorem excluded_iff (o : Opt) (st : Stream) : excluded o st = true ↔ Excluded o st := by
  unfold excluded Excluded
  cases hv : st.isVideo <;> cases hvt : o.videoTags.isEmpty <;>
    cases ha : st.isAudio <;> cases hat : o.audioTags.isEmpty <;>
    cases htag : st.tag <;> simp_all <;> grind

theorem handlePmt_spec {o : Opt} {s s' : St} {t : Table} {pmt : Pmt} {evs : List Ev}
    (hI : TInv o s evs) (hb : t.body = .pmt pmt) (h : handlePmt o s t pmt = .ok s') :
    HandleSpec o s s' evs t := by
  have h1 : usablePat t = none := by simp [usablePat, hb]
  have h4 : validTot t = none := by simp [validTot, hb]
  have h5 : serviceEit o.sid t = none := by simp [serviceEit, hb]
  have hnc := not_cancels (P := s.streaming = true) h5 h4
  unfold handlePmt at h
  split at h
  · next hv =>
    cases h
    exact ⟨tinv_skip hI h1 (by simp [validPmt, hb]; intro e; simp [e] at hv) (by simp [h5])
      (Or.inl h4) s.stop, Same.rfl' _, by simp [hnc]⟩
  · next hv =>
    split at h
    · next hsid =>
      cases h
      exact ⟨tinv_skip hI h1 (by simp [validPmt, hb]; intro _; simpa using hsid) (by simp [h5])
        (Or.inl h4) s.stop, Same.rfl' _, by simp [hnc]⟩
    · next hsid =>
      have h2 : validPmt o.sid t = some pmt := by
        simp [validPmt, hb]; exact ⟨by simpa using hv, by simpa using hsid⟩
      simp only [Except.ok.injEq] at h
      have hlast : (pmtsOf o (evs ++ [.tab t])).getLast? = some pmt := by
        rw [pmts_last_tab, h2]; rfl
      have hblack : ∀ pid, pid ∈ (pmt.streams.entries.filter (fun e => excluded o e.2)).map (·.1) ↔
          ExcludedPid o (evs ++ [.tab t]) pid := by
        intro pid
        simp only [ExcludedPid, hlast, Option.some.injEq, List.mem_map, List.mem_filter,
          excluded_iff]
        constructor
        · rintro ⟨⟨q, st⟩, ⟨m, e⟩, rfl⟩; exact ⟨pmt, st, rfl, m, e⟩
        · rintro ⟨_, st, rfl, m, e⟩; exact ⟨(pid, st), ⟨m, e⟩, rfl⟩
      have hrew : Rewritten o pmt
          (if ((pmt.streams.entries.filter (fun e => excluded o e.2)).map (·.1)).isEmpty then pmt
           else { pmt with streams := pmt.streams.filter (fun e =>
              !((pmt.streams.entries.filter (fun e => excluded o e.2)).map (·.1)).contains e.1) }) := by
        split
        · next he =>
          refine ⟨rfl, rfl, rfl, rfl, fun pid st => ⟨fun hm => ⟨hm, ?_⟩, fun hm => hm.1⟩⟩
          intro hx
          have : (pid, st) ∈ pmt.streams.entries.filter (fun e => excluded o e.2) := by
            simp [List.mem_filter, hm, excluded_iff, hx]
          simp only [List.isEmpty_iff, List.map_eq_nil_iff] at he
          rw [he] at this; simp at this
        · refine ⟨rfl, rfl, rfl, rfl, fun pid st => ?_⟩
          simp only [OMap.filter, List.mem_filter, Bool.not_eq_true', List.contains_eq_mem,
            decide_eq_false_iff_not]
          refine and_congr_right fun hm => not_congr ?_
          rw [hblack]
          simp only [ExcludedPid, hlast, Option.some.injEq]
          constructor
          · rintro ⟨_, st', rfl, m, e⟩
            rw [pmt.streams.find?_unique hm m]; exact e
          · intro e; exact ⟨pmt, st, rfl, hm, e⟩
      have hclk : Clk o s' (evs ++ [.tab t]) := by
        rw [← h]
        by_cases hc : s.clockPid = pmt.pcrPid
        · have := hI.clk.table t (by
            intro p hp; rw [h2] at hp; cases hp; rw [← hI.clockPid, hc]) (Or.inl h4)
          refine this.congr ?_ ?_ ?_ ?_ <;> simp [hc]
        · refine Clk.change t pmt h2 (by rw [← hI.clockPid]; exact fun e => hc e.symm) ?_ ?_ <;>
            simp [hc]
      have hr : RangeSt s' := by
        rw [← h]
        by_cases hc : s.clockPid = pmt.pcrPid
        · have := hI.range
          simpa [RangeSt, hc] using this
        · intro _ h; simp [hc] at h
      refine ⟨⟨?_, ?_, ?_, ?_, ?_, ?_, ?_, hclk, hr⟩, ?_, ?_⟩
      · rw [hlast, ← h]; split <;> rfl
      · intro p hp; rw [hlast] at hp; cases hp; rw [← h]; split <;> rfl
      · rw [clockPid_tab, h2, ← h]
        by_cases hc : s.clockPid = pmt.pcrPid
        · simp [hc]
        · simp [hc]
      · intro pid; rw [← hblack, ← h]
      · rw [latestPmt_tab, h2, ← h]; exact ⟨rfl, _, rfl, hrew⟩
      · rw [tables_append, tables_tab, latest_none _ _ _ h1]
        have := hI.pmtPid
        have e : s'.pmtPid = s.pmtPid := by rw [← h]; split <;> rfl
        cases hl : latest usablePat (tables evs) with
        | none => rw [hl] at this; simpa [PmtPidSt, e] using this
        | some x => rw [hl] at this; simpa [PmtPidSt, e] using this
      · rw [latestEvent_tab, h5]
        have := hI.event
        have e1 : s'.eventTimeReady = s.eventTimeReady := by rw [← h]; split <;> rfl
        have e2 : s'.eventStart = s.eventStart := by rw [← h]; split <;> rfl
        have e3 : s'.eventEnd = s.eventEnd := by rw [← h]; split <;> rfl
        simp only [Option.bind_none, Option.none_or]
        cases hl : latestEvent o evs with
        | none => rw [hl] at this; simpa [EventSt, e1] using this
        | some x => rw [hl] at this; simpa [EventSt, e1, e2, e3] using this
      · rw [← h]
        constructor <;> (simp only; try split) <;> rfl
      · have : s'.stop = s.stop := by rw [← h]; split <;> rfl
        simp [this, hnc]

theorem updateEventTime_ok {o : Opt} {s s' : St} {e : Event} (h : updateEventTime o s e = .ok s') :
    (Fits64 (e.duration * 1000) ∧ Fits64 (e.duration * 1000 + o.endMargin)) ∧
    (if s.clockTimeReady && s.clockPcrReady then updatePcrRange { s with
        eventStart := e.startTime - o.startMargin
        eventEnd := e.startTime + (e.duration * 1000 + o.endMargin)
        eventTimeReady := true }
      else .ok { s with
        eventStart := e.startTime - o.startMargin
        eventEnd := e.startTime + (e.duration * 1000 + o.endMargin)
        eventTimeReady := true }) = .ok s' := by
  unfold updateEventTime at h
  obtain ⟨_, h1, h⟩ := bind_eq_ok h
  obtain ⟨e1, f1⟩ := int64_ok_fits h1
  subst e1
  obtain ⟨_, h2, h⟩ := bind_eq_ok h
  obtain ⟨e2, f2⟩ := int64_ok_fits h2
  subst e2
  exact ⟨⟨f1, f2⟩, h⟩

theorem updateEventTime_spec {o : Opt} {s s' : St} {t : Table} {e : Event} {evs : List Ev}
    (hI : TInv o s evs) (h1 : usablePat t = none) (h2 : validPmt o.sid t = none)
    (h3 : (serviceEit o.sid t).bind (listedIn o.eid) = some e) (h4 : validTot t = none)
    (h : updateEventTime o s e = .ok s') :
    TInv o s' (evs ++ [.tab t]) ∧ Same s s' ∧ s'.stop = s.stop := by
  have h := (updateEventTime_ok h).2
  obtain ⟨hr, a, b, rfl⟩ := range_if (s := { s with
    eventStart := e.startTime - o.startMargin
    eventEnd := e.startTime + (e.duration * 1000 + o.endMargin)
    eventTimeReady := true }) (by simp; intro a b; exact ⟨a, b⟩) h
  refine ⟨⟨?_, ?_, ?_, ?_, ?_, ?_, ?_, ?_, hr⟩, ⟨rfl, rfl, rfl, rfl, rfl⟩, rfl⟩
  · rw [pmts_last_tab, h2]; exact hI.pcrReady
  · rw [pmts_last_tab, h2]; exact hI.pcrPid
  · rw [clockPid_tab, h2]; exact hI.clockPid
  · intro q; rw [excludedPid_tab h2]; exact hI.black q
  · rw [latestPmt_tab, h2]
    have := hI.pk
    simp only [Option.map_none, Option.none_or]
    cases hl : latestPmt o evs with
    | none => rw [hl] at this; exact this
    | some x => rw [hl] at this; exact this
  · rw [tables_append, tables_tab, latest_none _ _ _ h1]
    have := hI.pmtPid
    cases hl : latest usablePat (tables evs) with
    | none => rw [hl] at this; exact this
    | some x => rw [hl] at this; exact this
  · rw [latestEvent_tab, h3]
    exact ⟨rfl, rfl, by simp only; omega⟩
  · exact (hI.clk.table t (by simp [h2]) (Or.inl h4)).congr rfl rfl rfl rfl

theorem handleEit_spec {o : Opt} {s s' : St} {t : Table} {eit : Eit} {evs : List Ev}
    (hI : TInv o s evs) (hb : t.body = .eit eit) (h : handleEit o s t eit = .ok s') :
    HandleSpec o s s' evs t := by
  have h1 : usablePat t = none := by simp [usablePat, hb]
  have h2 : validPmt o.sid t = none := by simp [validPmt, hb]
  have h4 : validTot t = none := by simp [validTot, hb]
  unfold handleEit at h
  split at h
  · next hv =>
    cases h
    have h5 : serviceEit o.sid t = none := by simp [serviceEit, hb]; intro e; simp [e] at hv
    exact ⟨tinv_skip hI h1 h2 (by simp [h5]) (Or.inl h4) s.stop, Same.rfl' _,
      by simp [not_cancels h5 h4]⟩
  · next hv =>
    split at h
    · next hsid =>
      cases h
      have h5 : serviceEit o.sid t = none := by
        simp [serviceEit, hb]; intro _; simpa using hsid
      exact ⟨tinv_skip hI h1 h2 (by simp [h5]) (Or.inl h4) s.stop, Same.rfl' _,
        by simp [not_cancels h5 h4]⟩
    · next hsid =>
      have h5 : serviceEit o.sid t = some eit.events := by
        simp [serviceEit, hb]; exact ⟨by simpa using hv, by simpa using hsid⟩
      have hcan : ∀ P, Cancels o P t ↔ eit.events = [] ∨ (¬ P ∧ listedIn o.eid eit.events = none ∧
          (eit.events.length < 2 ∨ o.waitUntil = none)) := by
        intro P
        simp [Cancels, h5, h4]
      split at h
      · next hes =>
        cases h
        refine ⟨tinv_skip hI h1 h2 (by simp [h5, hes, listedIn]) (Or.inl h4) true,
          ⟨rfl, rfl, rfl, rfl, rfl⟩, ?_⟩
        simp [hcan, hes]
      · next present rest hes =>
        split at h
        · next hid =>
          simp only [beq_iff_eq] at hid
          have h3 : (serviceEit o.sid t).bind (listedIn o.eid) = some present := by
            simp [h5, hes, listedIn, hid]
          obtain ⟨a, b, c⟩ := updateEventTime_spec hI h1 h2 h3 h4 h
          refine ⟨a, b, ?_⟩
          rw [c, hcan, hes]
          simp [listedIn, hid]
        · next hid =>
          simp only [beq_iff_eq] at hid
          split at h
          · have h3 : listedIn o.eid eit.events = none := by simp [hes, listedIn, hid]
            split at h
            · next hst =>
              cases h
              refine ⟨tinv_skip hI h1 h2 (by simp [h5, h3]) (Or.inl h4) s.stop, Same.rfl' _, ?_⟩
              simp [hcan, hes, hst]
            · next hst =>
              cases h
              refine ⟨tinv_skip hI h1 h2 (by simp [h5, h3]) (Or.inl h4) true,
                ⟨rfl, rfl, rfl, rfl, rfl⟩, ?_⟩
              simp only [hcan]
              rw [hes] at h3 ⊢
              simp [h3, hst]
          · next following tl =>
            split at h
            · next hid2 =>
              simp only [beq_iff_eq] at hid2
              have h3 : (serviceEit o.sid t).bind (listedIn o.eid) = some following := by
                simp [h5, hes, listedIn, hid, hid2, List.find?_cons]
              obtain ⟨a, b, c⟩ := updateEventTime_spec hI h1 h2 h3 h4 h
              refine ⟨a, b, ?_⟩
              rw [c, hcan, hes]
              simp [listedIn, hid, hid2, List.find?_cons]
            · next hid2 =>
              simp only [beq_iff_eq] at hid2
              have h3 : listedIn o.eid eit.events = none := by
                simp [hes, listedIn, hid, hid2]
              split at h
              · next hst =>
                cases h
                refine ⟨tinv_skip hI h1 h2 (by simp [h5, h3]) (Or.inl h4) s.stop, Same.rfl' _, ?_⟩
                simp [hcan, hes, hst]
              · next hst =>
                split at h
                · next hw =>
                  cases h
                  refine ⟨tinv_skip hI h1 h2 (by simp [h5, h3]) (Or.inl h4) true,
                    ⟨rfl, rfl, rfl, rfl, rfl⟩, ?_⟩
                  simp only [hcan]
                  simp [h3, hst]
                  exact Or.inr (Or.inr (Or.inr (by simpa using hw)))
                · next hw =>
                  cases h
                  refine ⟨tinv_skip hI h1 h2 (by simp [h5, h3]) (Or.inl h4) s.stop, Same.rfl' _, ?_⟩
                  rw [hcan, hes]
                  simp only [Option.isNone_iff_eq_none] at hw
                  simp [hw]
                  omega

theorem handleTot_spec {o : Opt} {s s' : St} {t : Table} {time : Int} {evs : List Ev}
    (hI : TInv o s evs) (hb : t.body = .tot time) (h : handleTot o s t time = .ok s') :
    HandleSpec o s s' evs t := by
  have h1 : usablePat t = none := by simp [usablePat, hb]
  have h2 : validPmt o.sid t = none := by simp [validPmt, hb]
  have h5 : serviceEit o.sid t = none := by simp [serviceEit, hb]
  unfold handleTot at h
  split at h
  · next hv =>
    cases h
    have h4 : validTot t = none := by simp [validTot, hb]; simpa using hv
    exact ⟨tinv_skip hI h1 h2 (by simp [h5]) (Or.inl h4) s.stop, Same.rfl' _,
      by simp [not_cancels h5 h4]⟩
  · next hv =>
    have h4 : validTot t = some time := by simp [validTot, hb]; simpa using hv
    have hcan : Cancels o (s.streaming = true) t ↔
        s.streaming = false ∧ ∃ l, o.waitUntil = some l ∧ l < time := by
      simp [Cancels, h5, h4]
    obtain ⟨b, hb1, hb2⟩ : ∃ b, (if !s.streaming then checkTimeLimit o s time else s) =
        { s with stop := b } ∧ (b = true ↔ s.stop = true ∨ Cancels o (s.streaming = true) t) := by
      rw [hcan]
      by_cases hst : s.streaming = true
      · exact ⟨s.stop, by rw [if_neg (by simp [hst])], by simp [hst]⟩
      · rw [if_pos (by simpa using hst)]
        unfold checkTimeLimit
        split
        · next hw => exact ⟨s.stop, rfl, by simp [hw]⟩
        · next l hw =>
          split
          · next hgt => exact ⟨true, rfl, by simp [hw, hst]; right; omega⟩
          · next hgt => exact ⟨s.stop, rfl, by simp [hw]; omega⟩
    simp only [hb1] at h
    split at h
    · next hr =>
      cases h
      exact ⟨tinv_skip hI h1 h2 (by simp [h5]) (Or.inr hr) b, ⟨rfl, rfl, rfl, rfl, rfl⟩, hb2⟩
    · next hr =>
      unfold updateClockTime at h
      obtain ⟨_, _, h⟩ := bind_eq_ok h
      obtain ⟨hrange, x, y, rfl⟩ := range_if (s := { s with
        stop := b, clockTime := time, clockTimeReady := true })
        (by simp; intro a b; exact ⟨a, b⟩) h
      refine ⟨?_, ⟨rfl, rfl, rfl, rfl, rfl⟩, hb2⟩
      refine tinv_other hI h1 h2 (by simp [h5]) rfl rfl rfl rfl rfl rfl rfl rfl rfl ?_ hrange
      exact hI.clk.tot t time h4 h2 (by simpa using hr) rfl rfl rfl rfl

theorem handleTable_spec {o : Opt} {s s' : St} {t : Table} {evs : List Ev}
    (hI : TInv o s evs) (h : handleTable o s t = .ok s') : HandleSpec o s s' evs t := by
  unfold handleTable at h
  split at h
  · next hb => exact handlePat_spec hI hb h
  · next hb => exact handlePmt_spec hI hb h
  · next hb => exact handleEit_spec hI hb h
  · next hb => exact handleTot_spec hI hb h
  · next b1 b2 b3 b4 =>
    cases h
    have h1 : usablePat t = none := by
      unfold usablePat; split
      · next e => exact absurd e (b1 _)
      · rfl
    have h2 : validPmt o.sid t = none := by
      unfold validPmt; split
      · next e => exact absurd e (b2 _)
      · rfl
    have h5 : serviceEit o.sid t = none := by
      unfold serviceEit; split
      · next e => exact absurd e (b3 _)
      · rfl
    have h4 : validTot t = none := by
      unfold validTot; split
      · next e => exact absurd e (b4 _)
      · rfl
    exact ⟨tinv_skip hI h1 h2 (by simp [h5]) (Or.inl h4) s.stop, Same.rfl' _,
      by simp [not_cancels h5 h4]⟩

theorem feed_spec {o : Opt} {s s' : St} {pid : Nat} {ts log : List Table} {evs : List Ev}
    (hI : TInv o s evs) (h : feedDemux St.demux (handleTable o) pid ts s = .ok (s', log)) :
    TInv o s' (evs ++ log.map .tab) ∧ Same s s' ∧
    (s'.stop = true ↔ s.stop = true ∨ ∃ t ∈ log, Cancels o (s.streaming = true) t) := by
  refine feedDemux_inv (fun s' rs => TInv o s' (evs ++ rs.map .tab) ∧ Same s s' ∧
    (s'.stop = true ↔ s.stop = true ∨ ∃ t ∈ rs, Cancels o (s.streaming = true) t)) ?_ ts s s' log []
    ⟨by simpa using hI, Same.rfl' _, by simp⟩ h
  rintro a t b rs ⟨i1, i2, i3⟩ _ _ h
  have hs := handleTable_spec i1 h
  refine ⟨by simpa using hs.inv, i2.trans hs.same, ?_⟩
  rw [hs.stop, i3, i2.streaming]
  simp only [List.mem_append, List.mem_singleton]
  constructor
  · rintro ((h | ⟨u, hu, hc⟩) | h)
    · exact Or.inl h
    · exact Or.inr ⟨u, Or.inl hu, hc⟩
    · exact Or.inr ⟨t, Or.inr rfl, h⟩
  · rintro (h | ⟨u, hu | rfl, hc⟩)
    · exact Or.inl (Or.inl h)
    · exact Or.inl (Or.inr ⟨u, hu, hc⟩)
    · exact Or.inr hc

end Mirakc.ProgramFilter
