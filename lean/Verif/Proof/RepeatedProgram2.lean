import Verif.Proof.RepeatedProgram
/-
Lemmas: repeated tables at the program filter, continued.
-/
namespace Mirakc.ProgramFilter.Rep
open Mirakc.Spec.Repeated Mirakc.Main Mirakc.Spec.Pipeline Mirakc.Pipeline
open Mirakc.ServiceFilter.Rep (assert_of)

/-- With other PIDs being watched. -/
def watching (d : PidSet) (s : St) : St := { s with demux := d }

theorem watching_range {d : PidSet} {s s1 : St} (h : updatePcrRange s = .ok s1) :
    updatePcrRange (watching d s) = .ok (watching d s1) := by
  unfold updatePcrRange at h ⊢
  obtain ⟨_, h1, h⟩ := bind_ok_iff.1 h
  obtain ⟨_, h2, h⟩ := bind_ok_iff.1 h
  obtain ⟨_, h3, h⟩ := bind_ok_iff.1 h
  obtain ⟨a, h4, h⟩ := bind_ok_iff.1 h
  obtain ⟨b, h5, h⟩ := bind_ok_iff.1 h
  cases h
  refine bind_ok_iff.2 ⟨(), h1, bind_ok_iff.2 ⟨(), h2, bind_ok_iff.2 ⟨(), h3, bind_ok_iff.2 ⟨a, h4, bind_ok_iff.2 ⟨b, h5, rfl⟩⟩⟩⟩⟩

theorem watching_syncClock {d : PidSet} {s s1 : St} {pcr : Int} (h : syncClock s pcr = .ok s1) :
    syncClock (watching d s) pcr = .ok (watching d s1) := by
  unfold syncClock at h ⊢
  split at h
  · next hc =>
    rw [if_pos (show needClockSync (watching d s) = true from hc)]
    unfold updateClockPcr at h ⊢
    obtain ⟨_, h1, h⟩ := bind_ok_iff.1 h
    refine bind_ok_iff.2 ⟨(), h1, ?_⟩
    dsimp only at h ⊢
    split at h
    · next hc =>
      exact (if_pos hc).trans (watching_range h)
    · next hc =>
      cases h
      exact if_neg hc
  · next hc =>
    cases h
    exact if_neg hc

theorem watching_clockTime {d : PidSet} {s s1 : St} {x : Int} (h : updateClockTime s x = .ok s1) :
    updateClockTime (watching d s) x = .ok (watching d s1) := by
  unfold updateClockTime at h ⊢
  obtain ⟨_, h1, h⟩ := bind_ok_iff.1 h
  refine bind_ok_iff.2 ⟨(), h1, ?_⟩
  dsimp only at h ⊢
  split at h
  · next hc => exact (if_pos hc).trans (watching_range h)
  · next hc => cases h; exact if_neg hc

theorem watching_eventTime {o : Opt} {d : PidSet} {s s1 : St} {e : Event} (h : updateEventTime o s e = .ok s1) :
    updateEventTime o (watching d s) e = .ok (watching d s1) := by
  unfold updateEventTime at h ⊢
  obtain ⟨ms, h1, h⟩ := bind_ok_iff.1 h
  obtain ⟨du, h2, h⟩ := bind_ok_iff.1 h
  refine bind_ok_iff.2 ⟨ms, h1, bind_ok_iff.2 ⟨du, h2, ?_⟩⟩
  dsimp only at h ⊢
  split at h
  · next hc => exact (if_pos hc).trans (watching_range h)
  · next hc => cases h; exact if_neg hc

theorem watching_limit (o : Opt) (d : PidSet) (s : St) (x : Int) :
    checkTimeLimit o (watching d s) x = watching d (checkTimeLimit o s x) := by
  unfold checkTimeLimit
  split
  · rfl
  · split <;> rfl

theorem watching_tot {o : Opt} {d : PidSet} {s s1 : St} {t : Table} {x : Int} (h : handleTot o s t x = .ok s1) :
    handleTot o (watching d s) t x = .ok (watching d s1) := by
  unfold handleTot at h ⊢
  split at h
  · next hc => cases h; exact if_pos hc
  · next hc =>
    rw [if_neg hc]
    dsimp only at h ⊢
    have e : (if (!(watching d s).streaming) = true then checkTimeLimit o (watching d s) x else watching d s) =
        watching d (if (!s.streaming) = true then checkTimeLimit o s x else s) := by
      rw [watching_limit]
      show (if (!s.streaming) = true then _ else _) = _
      split <;> rfl
    rw [e]
    generalize (if (!s.streaming) = true then checkTimeLimit o s x else s) = s2 at h
    split at h
    · next hc => cases h; exact if_pos hc
    · next hc => exact (if_neg hc).trans (watching_clockTime h)

theorem watching_pmt {o : Opt} {d : PidSet} {s s1 : St} {t : Table} {m : Pmt} (h : handlePmt o s t m = .ok s1) :
    handlePmt o (watching d s) t m = .ok (watching d s1) := by
  unfold handlePmt at h ⊢
  split at h
  · next hc => cases h; exact if_pos hc
  · next hc =>
    rw [if_neg hc]
    split at h
    · next hc => cases h; exact if_pos hc
    · next hc =>
      rw [if_neg hc]
      cases h
      dsimp only [watching]
      split <;> rfl

theorem watching_eit {o : Opt} {d : PidSet} {s s1 : St} {t : Table} {e : Eit} (h : handleEit o s t e = .ok s1) :
    handleEit o (watching d s) t e = .ok (watching d s1) := by
  unfold handleEit at h ⊢
  split at h
  · next hc => cases h; exact if_pos hc
  · next hc =>
    rw [if_neg hc]
    split at h
    · next hc => cases h; exact if_pos hc
    · next hc =>
      rw [if_neg hc]
      split at h
      · cases h; rfl
      · next present rest _ =>
        split at h
        · next hc => exact (if_pos hc).trans (watching_eventTime h)
        · next hc =>
          rw [if_neg hc]
          split at h
          · split at h
            · next hc => cases h; exact if_pos hc
            · next hc => cases h; exact if_neg hc
          · next following _ =>
            split at h
            · next hc => exact (if_pos hc).trans (watching_eventTime h)
            · next hc =>
              rw [if_neg hc]
              split at h
              · next hc => cases h; exact if_pos hc
              · next hc =>
                refine (if_neg hc).trans ?_
                split at h
                · next hc => cases h; exact if_pos hc
                · next hc => cases h; exact if_neg hc

theorem watching_next {extra : Pmt → Nat} {d : PidSet} {s s1 : St} {x : Out} (h : nextPmt extra s = .ok (x, s1)) :
    nextPmt extra (watching d s) = .ok (x, watching d s1) := by
  unfold nextPmt at h ⊢
  obtain ⟨⟨y, pk⟩, h1, h⟩ := bind_ok_iff.1 h
  obtain ⟨_, h2, h⟩ := bind_ok_iff.1 h
  cases h
  exact bind_ok_iff.2 ⟨_, h1, bind_ok_iff.2 ⟨(), h2, rfl⟩⟩

theorem watching_cycle {extra : Pmt → Nat} {d : PidSet} : ∀ {fuel : Nat} {s s1 : St} {xs : List Out},
    sendCycle extra fuel s = .ok (xs, s1) → sendCycle extra fuel (watching d s) = .ok (xs, watching d s1)
  | 0, _, _, _, h => by cases h
  | fuel + 1, s, s1, xs, h => by
    unfold sendCycle at h ⊢
    obtain ⟨⟨x, s2⟩, h1, h⟩ := bind_ok_iff.1 h
    refine bind_ok_iff.2 ⟨_, watching_next h1, ?_⟩
    dsimp only at h ⊢
    split at h
    · next hc => cases h; exact if_pos hc
    · next hc =>
      refine (if_neg hc).trans ?_
      obtain ⟨⟨ys, s3⟩, h2, h⟩ := bind_ok_iff.1 h
      cases h
      exact bind_ok_iff.2 ⟨_, watching_cycle h2, rfl⟩

theorem watching_save (d : PidSet) (s : St) (p : Packet) : savePat (watching d s) p = watching d (savePat s p) := by
  unfold savePat
  split <;> rfl

theorem watching_start {o : Opt} {d : PidSet} {s s1 : St} {p : Packet} {r : Option (List Out × Bool)}
    (h : waitStart o s p = .ok (s1, r)) : waitStart o (watching d s) p = .ok (watching d s1, r) := by
  unfold waitStart at h ⊢
  split at h
  · next hc => cases h; exact if_pos hc
  · next hc =>
    refine (if_neg hc).trans ?_
    split at h
    · next hc => cases h; exact if_pos hc
    · next hc =>
      refine (if_neg hc).trans ?_
      rw [watching_save]
      dsimp only at h ⊢
      generalize savePat s p = s2 at h
      split at h
      · next hc => cases h; exact if_pos hc
      · next hc =>
        refine (if_neg hc).trans ?_
        split at h
        · next hc => cases h; exact if_pos hc
        · next hc =>
          refine (if_neg hc).trans ?_
          split at h
          · cases h; rfl
          · obtain ⟨s3, h1, h⟩ := bind_ok_iff.1 h
            refine bind_ok_iff.2 ⟨_, watching_syncClock h1, ?_⟩
            split at h
            · next hc => cases h; exact if_pos hc
            · next hc1 =>
              refine (if_neg hc1).trans ?_
              obtain ⟨c, h2, h⟩ := bind_ok_iff.1 h
              refine bind_ok_iff.2 ⟨c, h2, ?_⟩
              split at h
              · next hc2 => cases h; exact if_pos hc2
              · next hc2 =>
                refine (if_neg hc2).trans ?_
                obtain ⟨c', h3, h⟩ := bind_ok_iff.1 h
                refine bind_ok_iff.2 ⟨c', h3, ?_⟩
                split at h
                · next hc3 => cases h; exact if_pos hc3
                · next hc3 =>
                  refine (if_neg hc3).trans ?_
                  obtain ⟨_, h4, h⟩ := bind_ok_iff.1 h
                  cases h
                  exact bind_ok_iff.2 ⟨(), h4, rfl⟩

theorem watching_wait {extra : Pmt → Nat} {o : Opt} {d : PidSet} {s s1 : St} {p : Packet} {r : List Out × Bool}
    (h : waitReady extra o s p = .ok (s1, r)) : waitReady extra o (watching d s) p = .ok (watching d s1, r) := by
  unfold waitReady at h ⊢
  obtain ⟨⟨s2, r2⟩, h1, h⟩ := bind_ok_iff.1 h
  refine bind_ok_iff.2 ⟨_, watching_start h1, ?_⟩
  cases r2 with
  | some x => cases h; rfl
  | none =>
    dsimp only at h ⊢
    have e : (if o.preStreaming = true then watching d s2 else { watching d s2 with lastPat := [] }) =
        watching d (if o.preStreaming = true then s2 else { s2 with lastPat := [] }) := by
      split <;> rfl
    rw [e]
    generalize (if o.preStreaming = true then s2 else { s2 with lastPat := [] }) = s3 at h
    obtain ⟨⟨xs, s4⟩, h2, h⟩ := bind_ok_iff.1 h
    cases h
    exact bind_ok_iff.2 ⟨_, watching_cycle h2, rfl⟩

theorem watching_forward {extra : Pmt → Nat} {d : PidSet} {s s1 : St} {p : Packet} {r : List Out × Bool}
    (h : forward extra s p = .ok (s1, r)) : forward extra (watching d s) p = .ok (watching d s1, r) := by
  unfold forward at h ⊢
  split at h
  · next hc =>
    refine (if_pos hc).trans ?_
    obtain ⟨⟨x, s2⟩, h1, h⟩ := bind_ok_iff.1 h
    cases h
    exact bind_ok_iff.2 ⟨_, watching_next h1, rfl⟩
  · next hc =>
    refine (if_neg hc).trans ?_
    split at h
    · next hc => cases h; exact if_pos hc
    · next hc => cases h; exact if_neg hc

theorem watching_stream {extra : Pmt → Nat} {d : PidSet} {s s1 : St} {p : Packet} {r : List Out × Bool}
    (h : doStreaming extra s p = .ok (s1, r)) : doStreaming extra (watching d s) p = .ok (watching d s1, r) := by
  unfold doStreaming at h ⊢
  split at h
  · next hc => cases h; exact if_pos hc
  · next hc =>
    refine (if_neg hc).trans ?_
    split at h
    · next hc =>
      refine (if_pos hc).trans ?_
      split at h
      · cases h; rfl
      · obtain ⟨s2, h1, h⟩ := bind_ok_iff.1 h
        refine bind_ok_iff.2 ⟨_, watching_syncClock h1, ?_⟩
        split at h
        · next hc => cases h; exact if_pos hc
        · next hc1 =>
          refine (if_neg hc1).trans ?_
          obtain ⟨c, h2, h⟩ := bind_ok_iff.1 h
          refine bind_ok_iff.2 ⟨c, h2, ?_⟩
          split at h
          · next hc2 => cases h; exact if_pos hc2
          · next hc2 => exact (if_neg hc2).trans (watching_forward h)
    · next hc => exact (if_neg hc).trans (watching_forward h)

theorem handlePat_ignored {o : Opt} {s : St} {t : Table} {p : Pat}
    (h : ¬ (t.sourcePid = 0 ∧ t.valid = true ∧ p.tsId ≠ 0)) : handlePat o s t p = .ok s := by
  unfold handlePat
  split
  · rfl
  · split
    · rfl
    · split
      · rfl
      · next h1 h2 h3 => exact absurd ⟨by simpa [pidPat] using h1, by simpa using h2, by simpa using h3⟩ h

theorem handlePat_some {o : Opt} {s s1 : St} {t : Table} {p : Pat} (h0 : t.sourcePid = 0) (hv : t.valid = true)
    (h1 : p.tsId ≠ 0) : handlePat o s t p = .ok s1 ↔ ∃ q, p.pmts.find? o.sid = some q ∧
      s1 = { s with pmtPid := q, demux := (if s.pmtPid != pidNull then s.demux.remove s.pmtPid else s.demux).add q } := by
  unfold handlePat
  rw [if_neg (by simp [h0, pidPat]), if_neg (by simp [hv]), if_neg (by simp [h1])]
  cases p.pmts.find? o.sid with
  | none => exact ⟨fun h => (by cases h), fun ⟨_, h, _⟩ => by cases h⟩
  | some q =>
    exact ⟨fun h => ⟨q, rfl, (Except.ok.inj h).symm⟩, fun ⟨q', hq, hs⟩ => by cases hq; rw [hs]⟩

/-- The event times are taken from the event. -/
theorem eventTime_ok {o : Opt} {s s1 : St} {e : Event} (h : updateEventTime o s e = .ok s1) :
    Timed o s1 e ∧ s1 = { s with eventStart := s1.eventStart, eventEnd := s1.eventEnd, eventTimeReady := true,
                                 startPcr := s1.startPcr, endPcr := s1.endPcr } := by
  unfold updateEventTime at h
  obtain ⟨ms, h1, h⟩ := bind_ok_iff.1 h
  obtain ⟨du, h2, h⟩ := bind_ok_iff.1 h
  dsimp only at h
  split at h
  · have hr := ranged_range h
    obtain ⟨e, _⟩ := range_ok h
    refine ⟨⟨ms, du, h1, h2, by rw [e], by rw [e], by rw [e], hr⟩, ?_⟩
    have e1 : s1.eventStart = _ := congrArg St.eventStart e
    have e2 : s1.eventEnd = _ := congrArg St.eventEnd e
    rw [e1, e2]
    exact e
  · next hc =>
    cases h
    refine ⟨⟨ms, du, h1, h2, rfl, rfl, rfl, fun hp ht => ?_⟩, rfl⟩
    exact absurd (by simpa using And.intro ht hp) hc

/-- The event again. -/
theorem eventTime_again {o : Opt} {s : St} {e : Event} (h : Timed o s e) : updateEventTime o s e = .ok s := by
  obtain ⟨ms, du, h1, h2, h3, h4, h5, h6⟩ := h
  unfold updateEventTime
  refine bind_ok_iff.2 ⟨ms, h1, bind_ok_iff.2 ⟨du, h2, ?_⟩⟩
  dsimp only
  have e : { s with eventStart := e.startTime - o.startMargin, eventEnd := e.startTime + du, eventTimeReady := true } = s := by
    rw [← h3, ← h4, ← h5]
  split
  · next hc =>
    rw [e]
    have hc : s.clockTimeReady = true ∧ s.clockPcrReady = true := by simpa using hc
    obtain ⟨k1, k2⟩ := h6 hc.2 hc.1
    unfold updatePcrRange
    refine bind_ok_iff.2 ⟨(), assert_of h5, bind_ok_iff.2 ⟨(), assert_of hc.2, bind_ok_iff.2 ⟨(), assert_of hc.1,
      bind_ok_iff.2 ⟨_, k1, bind_ok_iff.2 ⟨_, k2, rfl⟩⟩⟩⟩⟩
  · rw [e]

/-- What a PMT of the service does. -/
theorem pmt_ok {o : Opt} {s s1 : St} {t : Table} {m : Pmt} (hv : t.valid = true) (hs : m.serviceId = o.sid)
    (h : handlePmt o s t m = .ok s1) :
    s1 = { s with pcrPid := m.pcrPid, pcrPidReady := true, clockPid := m.pcrPid, black := blackOf o m,
                  pk := { s.pk with pid := t.sourcePid, table := some (pmtOf o m) },
                  clockPcrReady := if s.clockPid = m.pcrPid then s.clockPcrReady else false,
                  clockTimeReady := if s.clockPid = m.pcrPid then s.clockTimeReady else false } := by
  unfold handlePmt at h
  rw [if_neg (by simp [hv]), if_neg (by simp [hs])] at h
  dsimp only at h
  by_cases hc : s.clockPid = m.pcrPid
  · rw [if_neg (by simp [hc])] at h
    cases h
    rw [if_pos hc, if_pos hc]
    obtain ⟨_, _, _, _, _, _, _, _, _, _, _, _, _, _, _, _, _, _, _, _⟩ := s
    dsimp only at hc
    subst hc
    rfl
  · rw [if_pos (by simpa using hc)] at h
    cases h
    rw [if_neg hc, if_neg hc]
    rfl

theorem absorbs (o : Opt) : Absorbs St.demux (handleTable o) Same (Shows o) where
  watch h pid := h.2 pid
  step := by
    intro s s' s1 t hR h
    obtain ⟨e, hd⟩ := hR
    generalize s'.demux = d at e hd
    subst e
    have fin : ∀ {f : St → Except Fault St}, (f s = .ok s1 → f (watching d s) = .ok (watching d s1)) → f s = .ok s1 →
        s1.demux = s.demux → ∃ s1', f { s with demux := d } = .ok s1' ∧ Same s1 s1' := by
      intro f h1 h2 h3
      exact ⟨_, h1 h2, rfl, fun p => by rw [h3]; exact hd p⟩
    unfold handleTable at h ⊢
    cases hb : t.body with
    | pat p =>
      rw [hb] at h
      dsimp only at h ⊢
      by_cases hu : t.sourcePid = 0 ∧ t.valid = true ∧ p.tsId ≠ 0
      · obtain ⟨h0, hv, h1⟩ := hu
        obtain ⟨q, hq, rfl⟩ := (handlePat_some h0 hv h1).1 h
        exact ⟨_, (handlePat_some h0 hv h1).2 ⟨q, hq, rfl⟩, rfl, contains_cong hd _ _⟩
      · rw [handlePat_ignored hu] at h
        cases h
        exact ⟨_, handlePat_ignored hu, rfl, hd⟩
    | pmt m =>
      rw [hb] at h
      refine fin (f := fun s => handlePmt o s t m) watching_pmt h ?_
      have h : handlePmt o s t m = .ok s1 := h
      by_cases hc : t.valid = true ∧ m.serviceId = o.sid
      · rw [pmt_ok hc.1 hc.2 h]
      · unfold handlePmt at h
        split at h
        · cases h; rfl
        · next h1 =>
          split at h
          · cases h; rfl
          · next h2 => exact absurd ⟨by simpa using h1, by simpa using h2⟩ hc
    | eit e =>
      rw [hb] at h
      refine fin (f := fun s => handleEit o s t e) watching_eit h ?_
      have h : handleEit o s t e = .ok s1 := h
      unfold handleEit at h
      repeat' split at h
      all_goals first
        | (cases h; rfl)
        | (rw [(eventTime_ok h).2])
    | tot x =>
      rw [hb] at h
      exact fin (f := fun s => handleTot o s t x) watching_tot h (keeps_tot h).demux
    | _ => rw [hb] at h; cases h; exact ⟨_, rfl, rfl, hd⟩
  own := by
    intro s s1 t hs h
    have hv := subject_valid hs
    unfold handleTable at h
    unfold Shows
    cases hb : t.body with
    | pat p =>
      rw [hb] at h
      obtain ⟨h0, h1, _⟩ := subject_pat hb hs
      obtain ⟨q, hq, rfl⟩ := (handlePat_some h0 hv h1).1 h
      exact ⟨q, hq, rfl, contains_add_self _ _⟩
    | pmt m =>
      rw [hb] at h
      intro he
      rw [pmt_ok hv he h]
      exact ⟨rfl, rfl, rfl, rfl, rfl, rfl⟩
    | eit e =>
      rw [hb] at h
      intro he
      dsimp only [handleEit] at h
      rw [if_neg (by simp [hv]), if_neg (by simp [he])] at h
      split at h
      · next hev => rw [hev]; cases h; rfl
      · next hev =>
        rw [hev]
        dsimp only
        split at h
        · next hc => rw [if_pos hc]; exact (eventTime_ok h).1
        · next hc =>
          rw [if_neg hc]
          split at h
          · dsimp only
            split at h
            · next hc => cases h; exact .inl hc
            · cases h; exact .inr rfl
          · dsimp only
            split at h
            · next hc => rw [if_pos hc]; exact (eventTime_ok h).1
            · next hc =>
              rw [if_neg hc]
              split at h
              · next hc => cases h; exact .inl hc
              · split at h
                · cases h; exact .inr (.inr rfl)
                · next hc => cases h; exact .inr (.inl (Bool.eq_false_iff.2 hc))
    | _ => trivial
  keep := by
    intro s s1 t u hA ht hne h
    have same : s1 = s → Shows o s1 t := fun e => e ▸ hA
    unfold handleTable at h
    cases hbu : u.body with
    | pat p =>
      rw [hbu] at h
      dsimp only at h
      by_cases hu : u.sourcePid = 0 ∧ u.valid = true ∧ p.tsId ≠ 0
      · have hsu := subject_usable hbu hu.2.1 hu.1 hu.2.2
        obtain ⟨q, hq, rfl⟩ := (handlePat_some hu.1 hu.2.1 hu.2.2).1 h
        cases hbt : t.body with
        | pat p' => exact absurd (hsu.trans (subject_pat hbt ht).2.2.symm) hne
        | eit e => exact shows_eit hbt hA rfl rfl rfl (fun _ h => h) id id
        | _ =>
          unfold Shows at hA ⊢
          rw [hbt] at hA ⊢
          exact hA
      · exact same (Except.ok.inj (h.symm.trans (handlePat_ignored hu)))
    | pmt m =>
      rw [hbu] at h
      have h : handlePmt o s u m = .ok s1 := h
      by_cases hc : u.valid = true ∧ m.serviceId = o.sid
      · have hsu := subject_pmt hbu hc.1
        have e := pmt_ok hc.1 hc.2 h
        cases hbt : t.body with
        | pmt m' =>
          unfold Shows
          rw [hbt]
          intro he
          rw [subject_pmt hbt (subject_valid ht), hsu] at hne
          exact absurd (by rw [he, hc.2]) hne
        | eit e' =>
          refine shows_eit hbt hA (by rw [e]) (by rw [e]) (by rw [e]) (fun _ hr => ?_)
            (fun h => by rw [e]; exact h) (fun h => by rw [e]; exact h)
          rw [e]
          intro h1 h2
          dsimp only at h1 h2 ⊢
          by_cases hp : s.clockPid = m.pcrPid
          · rw [if_pos hp] at h1 h2
            have hcc := convert_congr (s := s) (s1 := s1) (by rw [e]; exact if_pos hp) (by rw [e]; exact if_pos hp)
              (by rw [e]) (by rw [e])
            rw [e] at hcc
            rw [hcc, hcc]
            exact hr h1 h2
          · rw [if_neg hp] at h1; cases h1
        | pat p' =>
          unfold Shows at hA ⊢
          rw [hbt] at hA ⊢
          rw [e]
          exact hA
        | _ => unfold Shows; rw [hbt]; trivial
      · refine same ?_
        unfold handlePmt at h
        split at h
        · cases h; rfl
        · next h1 =>
          split at h
          · cases h; rfl
          · next h2 => exact absurd ⟨by simpa using h1, by simpa using h2⟩ hc
    | eit e =>
      rw [hbu] at h
      have h : handleEit o s u e = .ok s1 := h
      by_cases hc : u.valid = true ∧ e.serviceId = o.sid
      · have hsu := subject_eit hbu hc.1
        have e1 : s1 = { s with eventStart := s1.eventStart, eventEnd := s1.eventEnd, eventTimeReady := s1.eventTimeReady,
                                startPcr := s1.startPcr, endPcr := s1.endPcr, stop := s1.stop } := by
          unfold handleEit at h
          repeat' split at h
          all_goals first
            | (cases h; rfl)
            | (have e := (eventTime_ok h).2
               have e1 : s1.eventTimeReady = true := by rw [e]
               have e2 : s1.stop = s.stop := by rw [e]
               rw [e1, e2]
               exact e)
        cases hbt : t.body with
        | eit e' =>
          unfold Shows
          rw [hbt]
          intro he
          rw [subject_eit hbt (subject_valid ht), hsu] at hne
          exact absurd (by rw [he, hc.2]) hne
        | pmt m' =>
          unfold Shows at hA ⊢
          rw [hbt] at hA ⊢
          rw [e1]
          exact hA
        | pat p' =>
          unfold Shows at hA ⊢
          rw [hbt] at hA ⊢
          rw [e1]
          exact hA
        | _ => unfold Shows; rw [hbt]; trivial
      · refine same ?_
        unfold handleEit at h
        split at h
        · cases h; rfl
        · next h1 =>
          split at h
          · cases h; rfl
          · next h2 => exact absurd ⟨by simpa using h1, by simpa using h2⟩ hc
    | tot x =>
      rw [hbu] at h
      exact shows_keeps hA (keeps_tot h)
    | _ => rw [hbu] at h; exact same (Except.ok.inj h).symm
  like _ _ h := h
  absorb := by
    intro s s' t ht hR hA
    obtain ⟨e, hd⟩ := hR
    generalize s'.demux = d at e hd
    subst e
    have hv := subject_valid ht
    have fin : ∀ {f : St → Except Fault St}, (∀ {s1}, f s = .ok s1 → f (watching d s) = .ok (watching d s1)) → f s = .ok s →
        ∃ s1', f { s with demux := d } = .ok s1' ∧ Same s s1' :=
      fun h1 h2 => ⟨_, h1 h2, rfl, hd⟩
    unfold handleTable
    unfold Shows at hA
    cases hb : t.body with
    | pat p =>
      rw [hb] at hA
      obtain ⟨h0, h1, _⟩ := subject_pat hb ht
      obtain ⟨q, hq, a1, a2⟩ := hA
      refine ⟨_, (handlePat_some h0 hv h1).2 ⟨q, hq, rfl⟩, ?_, ?_⟩
      · rw [← a1]
      · intro p
        refine Eq.trans ?_ (hd p)
        show ((if s.pmtPid != pidNull then d.remove s.pmtPid else d).add q).contains p = d.contains p
        rw [a1]
        exact contains_readd (by rw [hd]; exact a2) p
    | pmt m =>
      rw [hb] at hA
      refine fin (f := fun s => handlePmt o s t m) watching_pmt ?_
      show handlePmt o s t m = .ok s
      by_cases he : m.serviceId = o.sid
      · obtain ⟨a1, a2, a3, a4, a5, a6⟩ := hA he
        cases h : handlePmt o s t m with
        | error x =>
          unfold handlePmt at h
          rw [if_neg (by simp [hv]), if_neg (by simp [he])] at h
          cases h
        | ok s1 =>
          rw [pmt_ok hv he h, if_pos a3, if_pos a3, ← a2]
          obtain ⟨_, _, _, _, ⟨_, _, _, _⟩, _, _, _, _, _, _, _, _, _, _, _, _, _, _, _⟩ := s
          dsimp only at a1 a3 a4 a5 a6 ⊢
          rw [a1, a3, a4, a5, a6]
      · unfold handlePmt
        rw [if_neg (by simp [hv]), if_pos (by simpa using he)]
    | eit e =>
      rw [hb] at hA
      refine fin (f := fun s => handleEit o s t e) watching_eit ?_
      show handleEit o s t e = .ok s
      have stop : s.stop = true → Except.ok (ε := Fault) { s with stop := true } = .ok s := by
        intro h; rw [← h]
      unfold handleEit
      rw [if_neg (by simp [hv])]
      by_cases he : e.serviceId = o.sid
      · rw [if_neg (by simp [he])]
        have hA := hA he
        split
        · next hev => rw [hev] at hA; exact stop hA
        · next hev =>
          rw [hev] at hA
          dsimp only at hA
          split
          · next hc => rw [if_pos hc] at hA; exact eventTime_again hA
          · next hc =>
            rw [if_neg hc] at hA
            split
            · split
              · rfl
              · next hc => exact stop (hA.resolve_left hc)
            · dsimp only at hA
              split
              · next hc => rw [if_pos hc] at hA; exact eventTime_again hA
              · next hc =>
                rw [if_neg hc] at hA
                split
                · rfl
                · next hc =>
                  split
                  · next hn => exact stop ((hA.resolve_left hc).resolve_left (by rw [hn]; simp))
                  · rfl
      · rw [if_pos (by simpa using he)]
    | tot x =>
      exfalso
      unfold subject at ht
      rw [if_pos hv, hb] at ht
      exact ht rfl
    | _ => exact ⟨_, rfl, rfl, hd⟩

/-- One packet with repeated tables. -/
theorem step_repeats {extra : Pmt → Nat} {o : Opt} {h : List Table} {s s' s1 : St} {i j : Input} {log us : List Table}
    {outs : List Out} {more : Bool}
    (hR : Same s s') (hA : Reflects (Shows o) h s) (hs : step extra o s i = .ok (s1, log, outs, more))
    (hr : Repeats h log us) (hp : j.packet = i.packet) (ht : j.tables = us) :
    ∃ s1' log', step extra o s' j = .ok (s1', log', outs, more) ∧ Same s1 s1' ∧ Reflects (Shows o) (h ++ log) s1 := by
  unfold step at hs
  obtain ⟨⟨s2, log2⟩, hf, hs⟩ := bind_ok_iff.1 hs
  obtain ⟨s2', log', hf', hR2, hA2⟩ := feedDemux_repeats (absorbs o) (log := log2) hR hA hf (by
    have : log = log2 := by
      dsimp only at hs
      split at hs <;> (obtain ⟨_, _, hs⟩ := bind_ok_iff.1 hs; cases hs; rfl)
    rw [← this]; exact hr)
  obtain ⟨e, hd⟩ := hR2
  generalize s2'.demux = d at e hd
  have fin : ∀ {f : St → Except Fault (St × List Out × Bool)}, f s2 >>= (fun r => .ok (r.1, log2, r.2.1, r.2.2)) =
      .ok (s1, log, outs, more) → (f s2 = .ok (s1, outs, more) → Keeps s2 s1) →
      (f s2 = .ok (s1, outs, more) → f (watching d s2) = .ok (watching d s1, outs, more)) →
      (f (watching d s2) >>= fun r => .ok (r.1, log', r.2.1, r.2.2)) = .ok (watching d s1, log', outs, more) ∧
      Same s1 (watching d s1) ∧ Reflects (Shows o) (h ++ log) s1 := by
    intro f h1 h2 h3
    obtain ⟨r, hr, h1⟩ := bind_ok_iff.1 h1
    cases h1
    have k := h2 hr
    exact ⟨by rw [h3 hr]; rfl, ⟨rfl, fun p => by rw [k.demux]; exact hd p⟩, fun t hu => shows_keeps (hA2 t hu) k⟩
  refine ⟨watching d s1, log', ?_⟩
  unfold step
  rw [ht, hp, hf', ok_bind]
  subst e
  dsimp only at hs ⊢
  split at hs
  · next hc =>
    obtain ⟨a, b⟩ := fin (f := fun s => doStreaming extra s i.packet) hs keeps_stream watching_stream
    exact ⟨(if_pos hc).trans a, b⟩
  · next hc =>
    obtain ⟨a, b⟩ := fin (f := fun s => waitReady extra o s i.packet) hs keeps_wait watching_wait
    exact ⟨(if_neg hc).trans a, b⟩

/-- The program filter with repeated tables. -/
theorem follows_repeated {σ : Type} {extra : Pmt → Nat} {o : Opt} {k : Sink Out σ} :
    ∀ {is js : List Input} {s s' f : St} {items : List Item} {h : List Table} {uss : List (List Table)} {d : σ},
    run extra o s is = .ok (f, items) → Same s s' → Reflects (Shows o) h s → Repeated h (items.map (·.handled)) uss →
    Retold is js uss →
    Follows (fun a b => Same a.1 b.1 ∧ b.2 = a.2) (sink extra o k) (sink extra o k) is js (s, d) (s', d)
  | [], js, s, s', f, items, h, uss, d, hr, hR, hA, hu, ht => by
    have : js = [] := List.map_eq_nil_iff.1 ht.packets
    subst this
    trivial
  | i :: is, js, s, s', f, items, h, uss, d, hr, hR, hA, hu, ht => by
    unfold run at hr
    obtain ⟨⟨s1, log, outs, more⟩, h1, hr⟩ := bind_ok_iff.1 hr
    dsimp only at hr
    have hu' : ∃ us uss', uss = us :: uss' ∧ Repeats h log us ∧
        (more = true → ∃ items2 f2, run extra o s1 is = .ok (f2, items2) ∧ Repeated (h ++ log) (items2.map (·.handled)) uss') := by
      cases more with
      | true =>
        rw [if_pos rfl] at hr
        obtain ⟨⟨f2, items2⟩, h2, hr⟩ := bind_ok_iff.1 hr
        cases hr
        cases hu with
        | cons a b => exact ⟨_, _, rfl, a, fun _ => ⟨items2, _, h2, b⟩⟩
      | false =>
        rw [if_neg (by simp)] at hr
        cases hr
        cases hu with
        | cons a b => exact ⟨_, _, rfl, a, fun hx => by cases hx⟩
    obtain ⟨us, uss', rfl, hu1, hu2⟩ := hu'
    obtain ⟨j, js', rfl, hp, htt, ht'⟩ := ht.cons
    obtain ⟨s1', log', h1', hR1, hA1⟩ := step_repeats hR hA h1 hu1 hp htt
    show Rel _ ((sink extra o k).handle (s, d) i) ((sink extra o k).handle (s', d) j)
    dsimp only [sink]
    rw [h1, h1']
    dsimp only
    cases hsend : sendAll k outs d with
    | error e => exact rfl
    | ok r =>
      refine ⟨rfl, ⟨hR1, rfl⟩, fun hx => ?_⟩
      have hm : more = true := ((Bool.and_eq_true _ _).mp hx).2
      obtain ⟨items2, f2, h2, hu3⟩ := hu2 hm
      exact follows_repeated h2 hR1 hA1 hu3 ht'

theorem alike_sink {σ : Type} {extra : Pmt → Nat} {o : Opt} {k : Sink Out σ} :
    Alike (fun a b => Same a.1 b.1 ∧ b.2 = a.2) (sink extra o k) (sink extra o k) where
  finish s s' hs := by
    dsimp only [sink]
    rw [hs.2]
    cases k.finish s.2 with
    | error e => exact rfl
    | ok r => exact ⟨hs.1, rfl⟩
  exitCode s s' hs := by
    have e : s'.1.retry = s.1.retry := by rw [hs.1.1]
    dsimp only [sink]
    rw [hs.2, e]

end Mirakc.ProgramFilter.Rep
