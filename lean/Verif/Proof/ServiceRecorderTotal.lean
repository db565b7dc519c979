import Verif.Proof.ServiceRecorderHist
/-
When `ServiceRecorder` does not terminate abnormally, and which tables it sees.
-/
set_option linter.unusedSimpArgs false

namespace Mirakc
open Mirakc.Spec

namespace Clock

theorem syncPcr_total {c : Clock} (h : isValidPcr c.lastPcr = true) :
    ∃ c', c.syncPcr = .ok c' ∧ c'.lastPcr = c.lastPcr := by
  simp only [syncPcr, ClockBaseline.setPcr, h, assert_true, ok_bind]
  exact ⟨_, rfl, rfl⟩

theorem acceptPcr_total {c : Clock} {p : Int} (h : isValidPcr p = true) :
    ∃ c', c.acceptPcr p = .ok c' ∧ isValidPcr c'.lastPcr = true := by
  have key : ∀ d : Clock, isValidPcr d.lastPcr = true →
      ∃ c', (if !d.baseline.isReady then d.syncPcr else .ok d) = .ok c' ∧
        isValidPcr c'.lastPcr = true := by
    intro d hd
    split
    · obtain ⟨c', h1, h2⟩ := syncPcr_total hd
      exact ⟨c', h1, by rw [h2]; exact hd⟩
    · exact ⟨_, rfl, hd⟩
  exact key { (if p < c.lastPcr then { c with wrapped := true } else c) with
              lastPcr := p, ready := true } h

theorem updatePcr_total {c : Clock} {p : Int} (hp : isValidPcr p = true)
    (hc : isValidPcr c.lastPcr = true) :
    ∃ c', c.updatePcr p = .ok c' ∧ isValidPcr c'.lastPcr = true := by
  unfold updatePcr
  simp only [hp, assert_true, ok_bind]
  split
  · have hg : decide (computeDelta p c.lastPcr ≥ 0) = true := by
      have h1 := (isValidPcr_iff _).1 hp
      have h2 := (isValidPcr_iff _).1 hc
      simp only [computeDelta, upper_val, decide_eq_true_eq]
      split <;> omega
    simp only [hg, assert_true, ok_bind]
    split
    · split
      · exact ⟨_, rfl, hc⟩
      · exact ⟨_, rfl, show isValidPcr 0 = true by decide⟩
    · exact acceptPcr_total hp
  · exact acceptPcr_total hp

theorem updateTime_total {c : Clock} {t l : Int} (hc : isValidPcr c.lastPcr = true) :
    ∃ c', c.updateTime t l = .ok c' ∧ isValidPcr c'.lastPcr = true := by
  unfold updateTime
  dsimp only
  split
  · obtain ⟨c', h1, h2⟩ := syncPcr_total
      (c := { c with baseline := c.baseline.setTime t, localTime := l }) hc
    exact ⟨c', h1, by rw [h2]; exact hc⟩
  · exact ⟨_, rfl, hc⟩

theorem now_total {c : Clock} {l : Int} (hc : isValidPcr c.lastPcr = true) :
    ∃ t, c.now l = .ok t := by
  have h1 := (isValidPcr_iff _).1 hc
  unfold now
  split
  · next hr =>
    have hb : c.baseline.isReady = true := by
      simp only [isReady, Bool.and_eq_true] at hr; exact hr.2
    have ht : decide (c.lastPcr + pcrUpperBound > 0) = true := by
      rw [upper_val, decide_eq_true_eq]; omega
    simp only [ht, assert_true, ok_bind, ClockBaseline.pcrToTime, hb]
    split <;> exact ⟨_, rfl⟩
  · exact ⟨_, rfl⟩

theorem step_valid {c c' : Clock} {op : Op} (hc : isValidPcr c.lastPcr = true)
    (h : c.step op = .ok c') : isValidPcr c'.lastPcr = true := by
  cases op with
  | setPid pid => simp only [step, Except.ok.injEq] at h; subst h; exact hc
  | time t l =>
    obtain ⟨c1, h1, h2⟩ := updateTime_total (t := t) (l := l) hc
    simp only [step] at h
    rw [h1] at h; cases h; exact h2
  | pcr p =>
    simp only [step] at h
    by_cases hp : isValidPcr p = true
    · obtain ⟨c1, h1, h2⟩ := updatePcr_total hp hc
      rw [h1] at h; cases h; exact h2
    · simp only [Bool.not_eq_true] at hp
      unfold updatePcr at h
      rw [hp] at h; cases h

theorem run_valid : ∀ (ops : List Op) {c c' : Clock}, isValidPcr c.lastPcr = true →
    c.run ops = .ok c' → isValidPcr c'.lastPcr = true
  | [], _, _, hc, h => by simp only [run, Except.ok.injEq] at h; subst h; exact hc
  | op :: ops, c, c', hc, h => by
    unfold run at h
    obtain ⟨c1, h1, h⟩ := bind_eq_ok h
    exact run_valid ops (step_valid hc h1) h

end Clock

theorem feedLoop_inv {P τ σ} (src : Source P τ) (snk : Sink P σ) (I : σ → Prop) (good : P → Prop)
    (step : ∀ s p, I s → good p → ∃ ok s', snk.handle s p = .ok (ok, s') ∧ (ok = true → I s'))
    {t ps} (hy : Yields src t ps) :
    ∀ fuel s, ps.length < fuel → (∀ p ∈ ps, good p) → I s →
      ∃ r, feedLoop src snk fuel t s = .ok r := by
  induction hy with
  | stop h =>
    intro fuel s hf _ _
    cases fuel with
    | zero => omega
    | succ n => exact ⟨_, by simp only [feedLoop, h, ok_bind]; rfl⟩
  | @more t t1 p ps h _ ih =>
    intro fuel s hf hg hI
    cases fuel with
    | zero => simp at hf
    | succ n =>
      obtain ⟨ok, s1, hh, hI'⟩ := step s p hI (hg p (by simp))
      cases ok with
      | true =>
        obtain ⟨r, hr⟩ := ih n s1 (by simp at hf; omega) (fun q hq => hg q (by simp [hq])) (hI' rfl)
        exact ⟨r, by simp only [feedLoop, h, ok_bind, hh, if_true, hr]⟩
      | false => exact ⟨_, by simp only [feedLoop, h, ok_bind, hh]; rfl⟩

namespace ServiceRecorder
open Mirakc.Spec Mirakc.Spec.ServiceRecorder
open Mirakc.Spec.ServiceFilter (latest validPmt validTot usablePat)
open Mirakc.ServiceFilter (latest_append latest_some latest_none latest_mem)

theorem latest_events {sid : Nat} {rs : List Table} {e : Eit}
    (h : latest (presentEit sid) rs = some e) : ∃ ev, e.events.head? = some ev := by
  obtain ⟨t, _, h⟩ := latest_mem h
  unfold presentEit at h
  split at h
  · split at h
    · next hc =>
      cases h
      cases he : e.events with
      | nil => exact absurd he hc.2.2
      | cons x xs => exact ⟨x, rfl⟩
    · cases h
  · cases h

/-! ### The watched PIDs -/

/-- The PMT PID noted and the PIDs watched. -/
structure Watch (o : Opt) (s : St) (rs : List Table) : Prop where
  iff : ∀ pid, pid ∈ s.demux ↔ Watched o.sid rs pid
  pmt : match latest usablePat rs with
    | none => s.pmtPid = 0x1FFF
    | some pat => (o.sid, s.pmtPid) ∈ pat.pmts.entries
  ok : s.pmtPid ≠ 0 ∧ s.pmtPid ≠ 0x12 ∧ s.pmtPid ≠ 0x14
  null : latest usablePat rs ≠ none → s.pmtPid ≠ 0x1FFF

theorem watch_init (o : Opt) (r0 : RingFileSink.St) : Watch o { ring := r0 } [] := by
  refine ⟨?_, rfl, by simp [pidNull], by simp [latest]⟩
  intro pid
  simp [Watched, latest, pidTot, pidEit, pidPat]
  omega

theorem handle_demux {o : Opt} {l : Int} {s s' : St} {t : Table} (h : handleTable o l s t = .ok s') :
    (∃ pat pid, usablePat t = some pat ∧ (o.sid, pid) ∈ pat.pmts.entries ∧ s'.pmtPid = pid ∧
      s'.demux = (if s.pmtPid != 0x1FFF then s.demux.remove s.pmtPid else s.demux).add pid) ∨
    (usablePat t = none ∧ s'.demux = s.demux ∧ s'.pmtPid = s.pmtPid) := by
  unfold handleTable at h
  split at h
  · next pat hb =>
    simp only [handlePat, bne_iff_ne, ne_eq, Bool.not_eq_true', beq_iff_eq, pidPat] at h
    split at h
    · next hc =>
      cases h
      exact .inr ⟨by simp [usablePat, hb, hc], rfl, rfl⟩
    split at h
    · next hc =>
      cases h
      exact .inr ⟨by simp [usablePat, hb, hc], rfl, rfl⟩
    split at h
    · next hc =>
      cases h
      exact .inr ⟨by simp [usablePat, hb, hc], rfl, rfl⟩
    next h1 h2 h3 =>
    cases hf : pat.pmts.find? o.sid with
    | none => rw [hf] at h; cases h
    | some pid =>
      rw [hf] at h
      cases h
      refine .inl ⟨pat, pid, ?_, (pat.pmts.find?_iff o.sid pid).1 hf, rfl, ?_⟩
      · simp only [usablePat, hb]
        rw [if_pos]
        exact ⟨Decidable.not_not.1 h1, by simpa using h2, h3⟩
      · simp only [pidNull, bne_iff_ne, ne_eq]; rfl
  · next pmt hb =>
    refine .inr ⟨by simp [usablePat, hb], ?_⟩
    simp only [handlePmt] at h
    repeat' split at h
    all_goals cases h; exact ⟨rfl, rfl⟩
  · next eit hb =>
    refine .inr ⟨by simp [usablePat, hb], ?_⟩
    simp only [handleEit] at h
    repeat' split at h
    all_goals cases h; exact ⟨rfl, rfl⟩
  · next time hb =>
    refine .inr ⟨by simp [usablePat, hb], ?_⟩
    simp only [handleTot] at h
    split at h
    · cases h; exact ⟨rfl, rfl⟩
    · obtain ⟨c, _, h⟩ := bind_eq_ok h
      cases h; exact ⟨rfl, rfl⟩
  · next h1 h2 h3 h4 =>
    cases h
    refine .inr ⟨?_, rfl, rfl⟩
    cases hb : t.body with
    | pat p => exact absurd hb (h1 p)
    | _ => simp [usablePat, hb]

theorem handle_watch {o : Opt} {l : Int} {s s' : St} {t : Table} {rs : List Table}
    (hc : Conforming o.sid t) (hW : Watch o s rs) (h : handleTable o l s t = .ok s') :
    Watch o s' (rs ++ [t]) := by
  rcases handle_demux h with ⟨pat, pid, hu, hp, h1, h3⟩ | ⟨hu, h1, h2⟩
  · have hpid := hc pat hu pid hp
    have hok := hW.ok
    refine ⟨?_, by rw [latest_some _ _ _ hu]; rw [h1]; exact hp,
      by rw [h1]; exact ⟨hpid.1, hpid.2.1, hpid.2.2.1⟩, fun _ => by rw [h1]; exact hpid.2.2.2⟩
    intro q
    have hiff := hW.iff q
    have hst := hW.pmt
    have huniq : (o.sid, q) ∈ pat.pmts.entries ↔ q = pid :=
      ⟨fun h => pat.pmts.find?_unique h hp, fun h => h ▸ hp⟩
    simp only [Watched, latest_some _ _ _ hu, Option.some.injEq, exists_eq_left', huniq]
    rw [h3]
    simp only [PidSet.add, List.mem_cons]
    simp only [Watched] at hiff
    cases hl : latest usablePat rs with
    | none =>
      rw [hl] at hst hiff
      simp only at hst
      rw [hst, if_neg (by simp)]
      simp only [reduceCtorEq, false_and, exists_false, or_false] at hiff
      rw [hiff]
      grind
    | some p0 =>
      rw [hl] at hst hiff
      simp only at hst
      have hnn := hW.null (by simp [hl])
      rw [if_pos (by simpa using hnn)]
      simp only [PidSet.remove, List.mem_filter, bne_iff_ne, ne_eq, Option.some.injEq,
        exists_eq_left'] at hiff ⊢
      rw [hiff]
      have hq : (o.sid, q) ∈ p0.pmts.entries ↔ q = s.pmtPid :=
        ⟨fun h => p0.pmts.find?_unique h hst, fun h => h ▸ hst⟩
      rw [hq]
      grind
  · refine ⟨?_, ?_, by rw [h2]; exact hW.ok, ?_⟩
    · intro q
      rw [h1, hW.iff]
      simp only [Watched, latest_none _ _ _ hu]
    · rw [latest_none _ _ _ hu, h2]; exact hW.pmt
    · rw [latest_none _ _ _ hu, h2]; exact hW.null

theorem usable_source {t : Table} {pat : Pat} (h : usablePat t = some pat) : t.sourcePid = 0 := by
  unfold usablePat at h
  split at h
  · split at h
    · next hc => exact hc.1
    · cases h
  · cases h

theorem feed_watch {o : Opt} {l : Int} {s s' : St} {pid : Nat} {ts log rs : List Table}
    (hc : ∀ t ∈ ts, Conforming o.sid t) (hW : Watch o s rs)
    (h : feedDemux St.demux (handleTable o l) pid ts s = .ok (s', log)) :
    Watch o s' (rs ++ log) ∧
    (Watched o.sid rs pid → log = ts.filter (·.sourcePid == pid)) ∧
    (¬ Watched o.sid rs pid → log = []) := by
  have hhandled := feedDemux_handled (fun s => ∃ rs, Watch o s rs) (Conforming o.sid) (by
    rintro s t s' ⟨rs, hW⟩ hok hs hin h
    have hW' := handle_watch hok hW h
    refine ⟨⟨_, hW'⟩, ?_⟩
    rcases handle_demux h with ⟨pat, _, hu, _⟩ | ⟨_, e, _⟩
    · rw [hW'.iff, ← hs, usable_source hu]; exact Or.inl rfl
    · rw [e]; exact hin) ts s s' log hc ⟨_, hW⟩ h
  rw [hW.iff] at hhandled
  refine ⟨?_, hhandled⟩
  have : ∀ (ts : List Table) (s s' : St) (log rs : List Table),
      (∀ t ∈ ts, Conforming o.sid t) → Watch o s rs →
      feedDemux St.demux (handleTable o l) pid ts s = .ok (s', log) →
      Watch o s' (rs ++ log) := by
    intro ts
    induction ts with
    | nil =>
      intro s s' log rs _ hW h
      simp only [feedDemux, Except.ok.injEq, Prod.mk.injEq] at h
      obtain ⟨rfl, rfl⟩ := h
      simpa using hW
    | cons t ts ih =>
      intro s s' log rs hc hW h
      simp only [feedDemux] at h
      split at h
      · obtain ⟨s1, h1, h⟩ := bind_eq_ok h
        obtain ⟨⟨s2, log2⟩, h2, h⟩ := bind_eq_ok h
        simp only [Except.ok.injEq, Prod.mk.injEq] at h
        obtain ⟨rfl, rfl⟩ := h
        have := ih s1 s2 log2 _ (fun u hu => hc u (List.mem_cons_of_mem _ hu))
          (handle_watch (hc t (by simp)) hW h1) h2
        simpa using this
      · exact ih s s' log rs (fun u hu => hc u (List.mem_cons_of_mem _ hu)) hW h
  exact this ts s s' log rs hc hW h

theorem step_watch {o : Opt} {s s' : St} {i : Input} {it : Item} {rs : List Table}
    (hc : ∀ t ∈ i.tables, Conforming o.sid t) (hW : Watch o s rs)
    (hs : step o s i = .ok (s', it)) (hev : ∀ e ∈ s.eit, ∃ ev, e.events.head? = some ev)
    (hrec : s.recording = true → s.eit ≠ none) :
    Watch o s' (rs ++ it.handled) ∧
    (Watched o.sid rs i.packet.pid → it.handled = i.tables.filter (·.sourcePid == i.packet.pid)) ∧
    (¬ Watched o.sid rs i.packet.pid → it.handled = []) := by
  unfold step at hs
  obtain ⟨s1, h1, hs⟩ := bind_eq_ok hs
  obtain ⟨⟨sf, log⟩, h2, hs⟩ := bind_eq_ok hs
  have hW1 : Watch o s1 rs ∧ s1.eit = s.eit ∧ s1.recording = s.recording := by
    simp only [tick] at h1
    repeat' split at h1
    · cases h1; exact ⟨hW, rfl, rfl⟩
    · obtain ⟨c, _, h1⟩ := bind_eq_ok h1
      cases h1
      exact ⟨⟨hW.iff, hW.pmt, hW.ok, hW.null⟩, rfl, rfl⟩
    · cases h1; exact ⟨hW, rfl, rfl⟩
  obtain ⟨k1, k2⟩ := feed_watch hc hW1.1 h2
  have hfr := feedDemux_inv (pid := i.packet.pid) (fun s' _ => s'.eit = s.eit ∧ s'.recording = s.recording)
    (fun a t a' rs' hI _ _ hh => by
      have hf : a'.eit = a.eit ∧ a'.recording = a.recording := by
        unfold handleTable at hh
        split at hh
        · simp only [handlePat] at hh
          repeat' split at hh
          all_goals first | (cases hh; exact ⟨rfl, rfl⟩) | cases hh
        · simp only [handlePmt] at hh
          repeat' split at hh
          all_goals cases hh; exact ⟨rfl, rfl⟩
        · simp only [handleEit] at hh
          repeat' split at hh
          all_goals cases hh; exact ⟨rfl, rfl⟩
        · simp only [handleTot] at hh
          split at hh
          · cases hh; exact ⟨rfl, rfl⟩
          · obtain ⟨c, _, hh⟩ := bind_eq_ok hh
            cases hh; exact ⟨rfl, rfl⟩
        · cases hh; exact ⟨rfl, rfl⟩
      exact ⟨hf.1.trans hI.1, hf.2.trans hI.2⟩) i.tables s1 sf log [] hW1.2 h2
  dsimp only at hs
  by_cases hr : sf.recording = true
  · rw [if_pos hr] at hs
    obtain ⟨⟨ok, s3, out⟩, h3, hs⟩ := bind_eq_ok hs
    cases hs
    refine ⟨?_, k2⟩
    have hr' : s.recording = true := by rw [← hfr.2]; exact hr
    cases he : s.eit with
    | none => exact absurd he (hrec hr')
    | some e =>
      obtain ⟨ev, hev⟩ := hev e he
      obtain ⟨now, s2, evs, ring, ops, q1, q2, q3, q4, q5, q6⟩ :=
        record_spec (by rw [hfr.1]; exact he) hev h3
      subst q5
      have : s2.demux = sf.demux ∧ s2.pmtPid = sf.pmtPid := by cases q2 <;> exact ⟨rfl, rfl⟩
      exact ⟨by simpa [this.1] using k1.iff, by simpa [this.2] using k1.pmt,
        by simpa [this.2] using k1.ok, by simpa [this.2] using k1.null⟩
  · rw [if_neg hr] at hs
    obtain ⟨⟨s3, out⟩, h3, hs⟩ := bind_eq_ok hs
    cases hs
    refine ⟨?_, k2⟩
    rcases prepare_spec h3 with ⟨_, q2, _⟩ | ⟨_, e, ev, now, _, _, _, _, _, q7⟩
    · rw [q2]; exact k1
    · rcases q7 with ⟨_, q7, _⟩ | ⟨_, q7, _⟩
      all_goals
        rw [q7]; exact ⟨k1.iff, k1.pmt, k1.ok, k1.null⟩

theorem reach_watch {o : Opt} {r0 : RingFileSink.St} {items : List Item} {s : St}
    (h : Reach o { ring := r0 } items s)
    (hc : ∀ x ∈ items, ∀ t ∈ x.input.tables, Conforming o.sid t) :
    Watch o s (received items) ∧
    ∀ a it b, items = a ++ it :: b →
      (Watched o.sid (received a) it.input.packet.pid →
        it.handled = it.input.tables.filter (·.sourcePid == it.input.packet.pid)) ∧
      (¬ Watched o.sid (received a) it.input.packet.pid → it.handled = []) := by
  induction h with
  | nil => exact ⟨watch_init o r0, fun a it b h => by simp at h⟩
  | @snoc items s i s' it hr hm hs ih =>
    obtain ⟨h1, h2⟩ := ih (fun x hx => hc x (by simp [hx]))
    have hi := inv_reach hr
    have hin : it.input = i := step_input hs
    obtain ⟨k1, k2⟩ := step_watch (rs := received items)
      (by rw [← hin]; exact hc it (by simp)) h1 hs
      (by
        intro e he
        by_cases hrec : s.recording = true
        · obtain ⟨_, _, ⟨e0, ev0, p3, p4⟩, _⟩ := hi.record hrec
          rw [p3] at he; cases he; exact ⟨ev0, p4⟩
        · simp only [Bool.not_eq_true] at hrec
          obtain ⟨_, _, _, p4, _⟩ := hi.prep hrec
          rw [p4] at he; cases he)
      (by
        intro hrec
        obtain ⟨_, _, ⟨e0, ev0, p3, p4⟩, _⟩ := hi.record hrec
        rw [p3]; simp)
    refine ⟨by rw [received_append]; simpa [received] using k1, ?_⟩
    intro a jt b e
    rcases split_append e with ⟨b', e1, _⟩ | ⟨pre2, rfl, e2⟩
    · exact h2 a jt b' e1
    · match pre2, e2 with
      | [], e2 =>
        simp only [List.nil_append, List.cons.injEq] at e2
        obtain ⟨rfl, _⟩ := e2
        rw [List.append_nil, hin]; exact k2
      | [x], e2 => simp at e2
      | x :: y :: l, e2 => simp at e2

/-! ### Totality -/

theorem tick_total {s : St} {p : Packet} (hp : ∀ x, p.pcr = some x → isValidPcr x = true)
    (hc : isValidPcr s.clock.lastPcr = true) :
    ∃ s', tick s p = .ok s' ∧ isValidPcr s'.clock.lastPcr = true := by
  simp only [tick]
  split
  · split
    · exact ⟨_, rfl, hc⟩
    · next pcr hx =>
      obtain ⟨c, h1, h2⟩ := Clock.updatePcr_total (hp pcr hx) hc
      rw [h1]
      exact ⟨_, rfl, h2⟩
  · exact ⟨_, rfl, hc⟩

theorem handle_total {o : Opt} {l : Int} {s : St} {t : Table} (ht : Listed o.sid t)
    (hc : isValidPcr s.clock.lastPcr = true) :
    ∃ s', handleTable o l s t = .ok s' ∧ isValidPcr s'.clock.lastPcr = true := by
  unfold handleTable
  split
  · next pat hb =>
    unfold handlePat
    split
    · exact ⟨_, rfl, hc⟩
    split
    · exact ⟨_, rfl, hc⟩
    split
    · exact ⟨_, rfl, hc⟩
    next h1 h2 h3 =>
    simp only [bne_iff_ne, ne_eq, Bool.not_eq_true', beq_iff_eq, pidPat, Decidable.not_not] at h1 h2 h3
    obtain ⟨pid, hpid⟩ := ht pat (by simp [usablePat, hb, h1, h2, h3])
    rw [(pat.pmts.find?_iff o.sid pid).2 hpid]
    exact ⟨_, rfl, hc⟩
  · unfold handlePmt
    repeat' split
    all_goals exact ⟨_, rfl, hc⟩
  · unfold handleEit
    repeat' split
    all_goals exact ⟨_, rfl, hc⟩
  · unfold handleTot
    split
    · exact ⟨_, rfl, hc⟩
    · obtain ⟨c, h1, h2⟩ := Clock.updateTime_total (t := ‹_›) (l := l) hc
      rw [h1]
      exact ⟨_, rfl, h2⟩
  · exact ⟨_, rfl, hc⟩

theorem expand_total {s : St} {l : Int} (hc : isValidPcr s.clock.lastPcr = true)
    (he : s.started = true → ∃ e ev, s.eit = some e ∧ e.events.head? = some ev) :
    ∀ ops, ∃ tr, expand s l ops = .ok tr := by
  obtain ⟨now, hn⟩ := Clock.now_total (l := l) hc
  intro ops
  induction ops with
  | nil => exact ⟨_, rfl⟩
  | cons op ops ih =>
    obtain ⟨tr, ih⟩ := ih
    cases op with
    | notify pos =>
      simp only [expand, onEndOfChunk, hn, ok_bind, ih]
      by_cases hst : s.started = true
      · obtain ⟨e, ev, h1, h2⟩ := he hst
        simp only [hst, if_true, h1, getEvent_some h2, ok_bind]
        exact ⟨_, rfl⟩
      · rw [if_neg hst]
        exact ⟨_, rfl⟩
    | _ => simp only [expand, ih, ok_bind]; exact ⟨_, rfl⟩

theorem prepare_total {o : Opt} {s : St} {i : Input} (hc : isValidPcr s.clock.lastPcr = true)
    (h1 : s.ring.ringPos < s.ring.ringSize) (h2 : s.ring.ringPos % o.chunkSize = 0)
    (he : ∀ e, s.newEit = some e → ∃ ev, e.events.head? = some ev) :
    ∃ r, onPreparing o s i = .ok r := by
  obtain ⟨now, hn⟩ := Clock.now_total (l := i.nowLocal) hc
  unfold onPreparing
  split
  · next hr =>
    simp only [Bool.and_eq_true] at hr
    obtain ⟨e, hs⟩ := Option.isSome_iff_exists.1 hr.2
    obtain ⟨ev, hev⟩ := he e hs
    simp only [hn, ok_bind, h1, h2, decide_true, beq_self_eq_true, assert_true, hs,
      getEvent_some hev]
    split <;> exact ⟨_, rfl⟩
  · exact ⟨_, rfl⟩

theorem updateEit_total {s : St} {e0 : Eit} {ev0 : Event} (he : s.eit = some e0)
    (hev : e0.events.head? = some ev0) (hn : ∀ e, s.newEit = some e → ∃ ev, e.events.head? = some ev)
    (now : Int) : ∃ changed eit s1 r, updateEit s = .ok (changed, eit, s1) ∧
      updateEvent s1 now changed eit s.newEit = .ok r := by
  have same : ∀ s1 e ev, e.events.head? = some ev → ∃ r,
      updateEvent s1 now false (some e) s.newEit = .ok r := by
    intro s1 e ev h
    unfold updateEvent
    simp only [Bool.false_eq_true, if_false, getEvent_some h, ok_bind]
    repeat' split
    all_goals exact ⟨_, rfl⟩
  unfold updateEit
  cases hne : s.newEit with
  | none =>
    rw [he]
    obtain ⟨r, hr⟩ := same s e0 ev0 hev
    rw [hne] at hr
    exact ⟨_, _, _, r, rfl, hr⟩
  | some n =>
    obtain ⟨ev', h'⟩ := hn n hne
    simp only [he, getEvent_some hev, getEvent_some h', ok_bind]
    by_cases hid : (ev0.eventId != ev'.eventId) = true
    · rw [if_pos hid]
      have : ∃ r, updateEvent { s with eit := some n, newEit := none } now true (some e0) (some n) = .ok r := by
        unfold updateEvent
        simp only [if_true, getEvent_some hev, getEvent_some h', ok_bind]
        split <;> exact ⟨_, rfl⟩
      obtain ⟨r, hr⟩ := this
      exact ⟨_, _, _, r, rfl, hr⟩
    · rw [if_neg hid]
      obtain ⟨r, hr⟩ := same { s with eit := some n, newEit := none } n ev' h'
      rw [hne] at hr
      exact ⟨_, _, _, r, rfl, hr⟩

theorem record_total {s : St} {i : Input} {e0 : Eit} {ev0 : Event} (he : s.eit = some e0)
    (hev : e0.events.head? = some ev0) (hn : ∀ e, s.newEit = some e → ∃ ev, e.events.head? = some ev)
    (hc : isValidPcr s.clock.lastPcr = true)
    (hr : ∃ r, RingFileSink.handlePacket s.ring i.bytes = .ok r) :
    ∃ r, onRecording s i = .ok r := by
  obtain ⟨now, hnow⟩ := Clock.now_total (l := i.nowLocal) hc
  obtain ⟨changed, eit, s1, ⟨s2, out⟩, h1, h2⟩ := updateEit_total he hev hn now
  obtain ⟨evs, q, _⟩ := event_spec he hev h1 h2
  obtain ⟨f1, f2, f3, f4, e, ev, f5, f6, f7⟩ := q.frame
  obtain ⟨⟨ok, ring⟩, h3⟩ := hr
  obtain ⟨tr, h4⟩ := expand_total (s := s2) (l := i.chunkLocal) (by rw [f2]; exact hc)
    (fun _ => ⟨e, ev, f6, f7⟩) (ring.log.drop s2.ring.log.length)
  unfold onRecording
  simp only [hnow, ok_bind, h1, h2, f1, h3]
  rw [f1] at h4
  rw [h4]
  exact ⟨_, rfl⟩

/-- What may be fed without an abnormal termination. -/
structure Good (o : Opt) (i : Input) : Prop where
  bytes : i.bytes.length = 188
  pcr : ∀ x, i.packet.pcr = some x → isValidPcr x = true
  pat : ∀ t ∈ i.tables, Listed o.sid t

/-- Nothing goes wrong once the clock and the tables are up to date. -/
theorem step_ok {o : Opt} {results : List Int} {r0 : RingFileSink.St}
    (hopt : Permitted o.chunkSize o.numChunks o.startPos)
    (ho : RingFileSink.openAt o.chunkSize o.numChunks o.startPos results = .ok (true, r0))
    {items : List Item} {s : St} (hr : Reach o { ring := r0 } items s)
    (hm : ∀ x ∈ items, x.more = true) (hg : ∀ x ∈ items, x.input.bytes.length = 188)
    {i : Input} (hi : i.bytes.length = 188) {s1 sf : St} {log : List Table}
    (h1 : tick s i.packet = .ok s1)
    (h2 : feedDemux St.demux (handleTable o i.totLocal) i.packet.pid i.tables s1 = .ok (sf, log))
    (hv2 : isValidPcr sf.clock.lastPcr = true) : ∃ r, step o s i = .ok r := by
  have inv := inv_reach hr
  obtain ⟨g⟩ := RingFileSink.geom_of_accept ((RingFileSink.accept_iff _ _ _).2 hopt)
  obtain ⟨s0, hm0, hb0, e0⟩ : ∃ s0, RingFileSink.Mid g (RingFileSink.openLog o.startPos) results [] 0 s0 ∧
      s0.buf = [] ∧ r0 = s0 := by
    rcases RingFileSink.open_spec ((RingFileSink.accept_iff _ _ _).2 hopt) results g with
      ⟨s1, e1, hm, hb⟩ | ⟨s1, e1, _⟩
    · rw [ho] at e1; cases e1; exact ⟨_, hm, hb, rfl⟩
    · rw [ho] at e1; cases e1
  subst e0
  have hst : ∀ p ∈ stored items, p.length = 188 := by
    intro p hp
    simp only [stored, List.mem_map, List.mem_filter] at hp
    obtain ⟨x, ⟨hx, _⟩, rfl⟩ := hp
    exact hg x hx
  obtain ⟨w, hmid, hsm⟩ := RingFileSink.accepts_spec g hm0 (by rw [hb0]; simp) (inv.accepts hm) hst
  obtain ⟨ht, hf⟩ := feed_spec inv.told h1 h2
  have hnew : ∀ e, sf.newEit = some e → ∃ ev, e.events.head? = some ev := by
    intro e he
    have := ht.eit
    rw [he, Option.some_or] at this
    exact latest_events this.symm
  unfold step
  simp only [h1, ok_bind, h2]
  by_cases hrec : sf.recording = true
  · rw [if_pos hrec]
    obtain ⟨_, _, ⟨e0, ev0, p3, p4⟩, _⟩ := inv.record (by rw [← hf.recording]; exact hrec)
    obtain ⟨⟨ok, s3, out⟩, h3⟩ := record_total (s := sf) (i := i) (by rw [hf.eit]; exact p3) p4 hnew hv2 (by
      rw [hf.ring]
      rcases RingFileSink.handle_spec g hmid hsm i.bytes hi with ⟨_, _, e, _⟩ | ⟨_, e, _⟩
      · exact ⟨_, e⟩
      · exact ⟨_, e⟩)
    rw [h3]
    exact ⟨_, rfl⟩
  · rw [if_neg hrec]
    simp only [Bool.not_eq_true] at hrec
    obtain ⟨_, p2, _⟩ := inv.prep (by rw [← hf.recording]; exact hrec)
    have hpos : sf.ring.ringPos = o.startPos ∧ sf.ring.ringSize = o.chunkSize * o.numChunks := by
      rw [hf.ring, p2]
      refine ⟨?_, hm0.ring⟩
      have h := hm0.rp
      rw [hb0] at h
      have e := Nat.mod_eq_of_lt (Nat.mul_lt_mul_of_pos_left g.hak g.c0)
      rw [h, Nat.add_zero, List.length_nil, Nat.add_zero, e]
      exact g.hS.symm
    obtain ⟨⟨s3, out⟩, h3⟩ := prepare_total (o := o) (s := sf) (i := i) hv2
      (by rw [hpos.1, hpos.2]; exact hopt.startMax) (by rw [hpos.1]; exact hopt.startMul) hnew
    rw [h3]
    exact ⟨_, rfl⟩

theorem step_total {o : Opt} {results : List Int} {r0 : RingFileSink.St}
    (hopt : Permitted o.chunkSize o.numChunks o.startPos)
    (ho : RingFileSink.openAt o.chunkSize o.numChunks o.startPos results = .ok (true, r0))
    {items : List Item} {s : St} (hr : Reach o { ring := r0 } items s)
    (hm : ∀ x ∈ items, x.more = true) (hg : ∀ x ∈ items, x.input.bytes.length = 188)
    {i : Input} (hi : Good o i) : ∃ r, step o s i = .ok r := by
  have inv := inv_reach hr
  have hv0 : isValidPcr s.clock.lastPcr = true :=
    Clock.run_valid _ (c := {}) (by decide) inv.told.clock
  obtain ⟨s1, h1, hv1⟩ := tick_total (p := i.packet) hi.pcr hv0
  obtain ⟨⟨sf, log⟩, h2, hv2⟩ := feedDemux_total (watched := St.demux)
    (handle := handleTable o i.totLocal) (pid := i.packet.pid)
    (fun s => isValidPcr s.clock.lastPcr = true) (Listed o.sid)
    (fun s t h1 h2 _ _ => handle_total h2 h1) i.tables s1 hi.pat hv1
  exact step_ok hopt ho hr hm hg hi.bytes h1 h2 hv2

theorem run_total {o : Opt} {results : List Int}
    (hopt : Permitted o.chunkSize o.numChunks o.startPos) {is : List Input}
    (hg : ∀ i ∈ is, Good o i) {τ : Type} (src : Source Input τ) (t : τ) (fuel : Nat)
    (hy : Yields src t is) (hf : is.length < fuel) :
    ∃ h0 r, init o results = .ok h0 ∧ feedPackets src (sink o) fuel t h0 = .ok r := by
  obtain ⟨ok, r0, ho⟩ : ∃ ok r0,
      RingFileSink.openAt o.chunkSize o.numChunks o.startPos results = .ok (ok, r0) := by
    obtain ⟨g⟩ := RingFileSink.geom_of_accept ((RingFileSink.accept_iff _ _ _).2 hopt)
    rcases RingFileSink.open_spec ((RingFileSink.accept_iff _ _ _).2 hopt) results g with
      ⟨s1, e1, _⟩ | ⟨s1, e1, _⟩
    · exact ⟨_, _, e1⟩
    · exact ⟨_, _, e1⟩
  have ho' := ho
  unfold RingFileSink.openAt at ho'
  obtain ⟨r, h1, h2⟩ := bind_eq_ok ho'
  refine ⟨{ st := { ring := r } }, ?_⟩
  have hstart : ∃ tr, start o { st := { ring := r } } =
      .ok (ok, { st := { ring := r0 }, items := [], trace := tr }) := by
    unfold start
    dsimp only
    have h3 : (if o.startPos ≠ 0 then RingFileSink.setPosition r o.startPos else .ok (true, r)) =
        .ok (ok, r0) := h2
    by_cases hsp : o.startPos ≠ 0
    · rw [if_pos hsp] at h3 ⊢
      rw [h3]
      cases ok <;> exact ⟨_, rfl⟩
    · rw [if_neg hsp] at h3 ⊢
      cases h3
      exact ⟨_, rfl⟩
  obtain ⟨tr, hstart⟩ := hstart
  have hfeed : ∃ x, feedPackets src (sink o) fuel t { st := { ring := r } } = .ok x := by
    unfold feedPackets
    simp only [sink] at hstart ⊢
    rw [hstart]
    simp only [ok_bind]
    cases ok with
    | false => exact ⟨_, rfl⟩
    | true =>
      simp only [if_true]
      obtain ⟨⟨t', h'⟩, hl⟩ := feedLoop_inv src (sink o)
        (fun h => Reach o { ring := r0 } h.items h.st ∧ (∀ x ∈ h.items, x.more = true) ∧
          ∀ x ∈ h.items, x.input.bytes.length = 188) (Good o)
        (fun h i ⟨k1, k2, k3⟩ hi => by
          obtain ⟨⟨s', it⟩, hs⟩ := step_total hopt ho k1 k2 k3 hi
          simp only [sink, hs, ok_bind]
          refine ⟨_, _, rfl, fun hmore => ⟨.snoc k1 k2 hs, ?_, ?_⟩⟩
          · intro x hx
            rcases List.mem_append.1 hx with hx | hx
            · exact k2 x hx
            · simp only [List.mem_singleton] at hx; subst hx; exact hmore
          · intro x hx
            rcases List.mem_append.1 hx with hx | hx
            · exact k3 x hx
            · simp only [List.mem_singleton] at hx; subst hx; rw [step_input hs]; exact hi.bytes)
        hy fuel { st := { ring := r0 }, items := [], trace := tr } hf hg
        ⟨.nil, by simp, by simp⟩
      simp only [sink] at hl
      rw [hl]
      exact ⟨_, rfl⟩
  obtain ⟨x, hx⟩ := hfeed
  exact ⟨x, by unfold init; rw [h1]; rfl, hx⟩

end ServiceRecorder
end Mirakc
