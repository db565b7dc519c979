import Verif.Proof.PreStreaming
/-
Lemmas: what `--wait-until` changes.
-/
namespace Mirakc.WaitUntil
open Mirakc.Main Mirakc.Pipeline Mirakc.Spec.Main Mirakc.Spec.Pipeline

/-! Two runs that are equal, unless the first goes bad. -/

/-- A run of the second sink is the same as a run of the first, unless the first refuses a packet in a bad state. -/
structure SinkUnless {P σ : Type} (G : P → Prop) (Bad : σ → Prop) (k k' : Sink P σ) : Prop where
  start : ∀ s, k'.start s = k.start s
  handle : ∀ s p r, G p → k.handle s p = .ok r → k'.handle s p = .ok r ∨ (r.1 = false ∧ Bad r.2)
  finish : ∀ s, k'.finish s = k.finish s
  bad : ∀ s s', Bad s → k.finish s = .ok s' → Bad s'
  exitCode : ∀ s, k'.exitCode s = k.exitCode s
  retry : ∀ s, Bad s → k.exitCode s = exitRetry

section
variable {P σ : Type} {G : P → Prop} {Bad : σ → Prop} {k k' : Sink P σ}

theorem foldP_unless (h : SinkUnless G Bad k k') : ∀ (ps : List P) (_ : ∀ p ∈ ps, G p) (s s' : σ),
    foldP k ps s = .ok s' → foldP k' ps s = .ok s' ∨ Bad s'
  | [], _, _, _, hs => Or.inl hs
  | p :: ps, hp, s, s', hs => by
    obtain ⟨⟨ok, s1⟩, h1, hs⟩ := bind_ok_iff.1 hs
    rcases h.handle _ _ _ (hp p (by simp)) h1 with h2 | ⟨h2, h3⟩
    · cases ok with
      | false =>
        cases hs
        exact Or.inl (bind_ok_iff.2 ⟨_, h2, rfl⟩)
      | true =>
        rcases foldP_unless h ps (fun q hq => hp q (by simp [hq])) _ _ hs with h3 | h3
        · exact Or.inl (bind_ok_iff.2 ⟨_, h2, h3⟩)
        · exact Or.inr h3
    · cases h2
      cases hs
      exact Or.inr h3

theorem around_unless (h : SinkUnless G Bad k k') {ps : List P} (hp : ∀ p ∈ ps, G p) {s : σ} {r : Nat × σ}
    (hr : around k s (foldP k ps) = .ok r) (hc : r.1 ≠ exitRetry) : around k' s (foldP k' ps) = .ok r := by
  unfold around at hr ⊢
  rw [h.start]
  obtain ⟨⟨ok, s1⟩, h1, hr⟩ := bind_ok_iff.1 hr
  refine bind_ok_iff.2 ⟨_, h1, ?_⟩
  cases ok with
  | false =>
    cases hr
    simp
  | true =>
    obtain ⟨s2, h2, hr⟩ := bind_ok_iff.1 hr
    obtain ⟨s3, h3, hr⟩ := bind_ok_iff.1 hr
    cases hr
    rcases foldP_unless h ps hp _ _ h2 with h4 | h4
    · refine bind_ok_iff.2 ⟨_, h4, bind_ok_iff.2 ⟨s3, ?_, ?_⟩⟩
      · rw [h.finish]; exact h3
      · rw [h.exitCode]
    · exact absurd (h.retry _ (h.bad _ _ h4 h3)) hc

theorem via_unless {Q : Type} (h : SinkUnless G Bad k k') (f : Nat → Q → P) :
    SinkUnless (fun q => ∀ n, G (f n q)) (fun s => Bad s.2) (via f k) (via f k') where
  start s := by simp only [via, h.start]
  handle s q r hq hr := by
    obtain ⟨⟨ok, d⟩, h1, hr⟩ := bind_ok_iff.1 hr
    cases hr
    rcases h.handle _ _ _ (hq s.1) h1 with h2 | h2
    · exact Or.inl (bind_ok_iff.2 ⟨_, h2, rfl⟩)
    · exact Or.inr h2
  finish s := by simp only [via, h.finish]
  bad s s' hs hr := by
    obtain ⟨d, h1, hr⟩ := bind_ok_iff.1 hr
    cases hr
    exact h.bad _ _ hs h1
  exitCode s := h.exitCode _
  retry s hs := h.retry _ hs

end

theorem service_unless {σ : Type} {G : ServiceFilter.Out → Prop} {Bad : σ → Prop} {k k' : Sink ServiceFilter.Out σ}
    (h : SinkUnless G Bad k k') (hG : ∀ x, G x) (o : ServiceFilter.Opt) :
    SinkUnless (fun _ => True) (fun s => Bad s.2) (ServiceFilter.sink o k) (ServiceFilter.sink o k') where
  start s := by simp only [ServiceFilter.sink, h.start]
  handle s i r _ hr := by
    obtain ⟨⟨f, log, act⟩, hstep, hr⟩ := bind_ok_iff.1 hr
    cases act with
    | stop => exact Or.inl (bind_ok_iff.2 ⟨_, hstep, hr⟩)
    | drop => exact Or.inl (bind_ok_iff.2 ⟨_, hstep, hr⟩)
    | send x =>
      obtain ⟨⟨ok, d⟩, h1, hr⟩ := bind_ok_iff.1 hr
      cases hr
      rcases h.handle _ _ _ (hG x) h1 with h2 | h2
      · exact Or.inl (bind_ok_iff.2 ⟨_, hstep, bind_ok_iff.2 ⟨_, h2, rfl⟩⟩)
      · exact Or.inr h2
  finish s := by simp only [ServiceFilter.sink, h.finish]
  bad s s' hs hr := by
    obtain ⟨d, h1, hr⟩ := bind_ok_iff.1 hr
    cases hr
    exact h.bad _ _ hs h1
  exitCode s := by simp only [ServiceFilter.sink, h.exitCode]
  retry s hs := by
    have := h.retry _ hs
    simp [ServiceFilter.sink, this, exitRetry, exitSuccess]

/-! The programme filter. -/

section
open ProgramFilter

theorem range_stop {s s' : St} (h : updatePcrRange s = .ok s') : s'.stop = s.stop := by
  unfold updatePcrRange at h
  obtain ⟨_, _, h⟩ := bind_ok_iff.1 h
  obtain ⟨_, _, h⟩ := bind_ok_iff.1 h
  obtain ⟨_, _, h⟩ := bind_ok_iff.1 h
  obtain ⟨_, _, h⟩ := bind_ok_iff.1 h
  obtain ⟨_, _, h⟩ := bind_ok_iff.1 h
  cases h
  rfl

theorem clockTime_stop {s s' : St} {x : Int} (h : updateClockTime s x = .ok s') : s'.stop = s.stop := by
  unfold updateClockTime at h
  obtain ⟨_, _, h⟩ := bind_ok_iff.1 h
  dsimp only at h
  split at h
  · have := range_stop h
    exact this
  · cases h; rfl

theorem event_stop {o : Opt} {s s' : St} {e : Event} (h : updateEventTime o s e = .ok s') : s'.stop = s.stop := by
  unfold updateEventTime at h
  obtain ⟨_, _, h⟩ := bind_ok_iff.1 h
  obtain ⟨_, _, h⟩ := bind_ok_iff.1 h
  dsimp only at h
  split at h
  · have := range_stop h
    exact this
  · cases h; rfl

/-- The rest of `handleTot`. -/
theorem tot_stop {s s' : St} {x : Int} (h : (if s.clockTimeReady then .ok s else updateClockTime s x) = .ok s') :
    s'.stop = s.stop := by
  split at h
  · cases h; rfl
  · exact clockTime_stop h

/-- A table never takes the decision to stop back. -/
theorem table_stop {o : Opt} {s s' : St} {t : Table} (h : handleTable o s t = .ok s') (hs : s.stop = true) :
    s'.stop = true := by
  unfold handleTable at h
  split at h
  · unfold handlePat at h
    repeat' split at h
    all_goals first | (cases h; exact hs) | cases h
  · unfold handlePmt at h
    dsimp only at h
    repeat' split at h
    all_goals first | (cases h; exact hs) | cases h
  · unfold handleEit at h
    repeat' split at h
    all_goals first | (rw [event_stop h]; exact hs) | (cases h; first | exact hs | rfl)
  · unfold handleTot at h
    split at h
    · cases h; exact hs
    · rw [tot_stop h]
      unfold checkTimeLimit
      repeat' split
      all_goals first | exact hs | rfl
  · cases h; exact hs

theorem tables_stop {o : Opt} {s s' : St} {pid : Nat} {ts log : List Table}
    (h : feedDemux St.demux (handleTable o) pid ts s = .ok (s', log)) (hs : s.stop = true) : s'.stop = true :=
  feedDemux_inv (fun a _ => a.stop = true) (fun _ _ _ _ hI _ _ h => table_stop h hI) ts s s' log [] hs h

/-- The second set of options takes the table like the first, unless the first stops. -/
def Lenient (A B : Opt) (t : Table) : Prop :=
  ∀ s, handleTable B s t = handleTable A s t ∨
    (s.streaming = false ∧ ∀ s', handleTable A s t = .ok s' → s'.stop = true)

theorem tables_lenient {A B : Opt} {pid : Nat} : ∀ (ts : List Table) (_ : ∀ t ∈ ts, Lenient A B t) (s : St),
    feedDemux St.demux (handleTable B) pid ts s = feedDemux St.demux (handleTable A) pid ts s ∨
      (s.streaming = false ∧ ∀ s' log, feedDemux St.demux (handleTable A) pid ts s = .ok (s', log) → s'.stop = true)
  | [], _, _ => Or.inl rfl
  | t :: ts, h, s => by
    unfold feedDemux
    by_cases hc : (t.sourcePid == pid && (St.demux s).contains pid) = true
    · rw [if_pos hc, if_pos hc]
      rcases h t (by simp) s with h1 | ⟨h1, h2⟩
      · rw [h1]
        cases ha : handleTable A s t with
        | error e => exact Or.inl rfl
        | ok s1 =>
          have hf := ExitCodes.table_flags ha
          rcases tables_lenient ts (fun q hq => h q (by simp [hq])) s1 with h3 | ⟨h3, h4⟩
          · left
            rw [ok_bind, ok_bind, h3]
          · right
            refine ⟨hf.1 ▸ h3, fun s' log hl => ?_⟩
            rw [ok_bind] at hl
            obtain ⟨⟨s2, l2⟩, h5, hl⟩ := bind_ok_iff.1 hl
            cases hl
            exact h4 _ _ h5
      · right
        refine ⟨h1, fun s' log hl => ?_⟩
        obtain ⟨s1, h3, hl⟩ := bind_ok_iff.1 hl
        obtain ⟨⟨s2, l2⟩, h5, hl⟩ := bind_ok_iff.1 hl
        cases hl
        exact tables_stop h5 (h2 _ h3)
    · rw [if_neg hc, if_neg hc]
      exact tables_lenient ts (fun q hq => h q (by simp [hq])) s

theorem waitStart_pre {A B : Opt} (h : B.preStreaming = A.preStreaming) (s : St) (p : Packet) :
    waitStart B s p = waitStart A s p := by
  simp only [waitStart, h]

theorem waitReady_pre {A B : Opt} (h : B.preStreaming = A.preStreaming) (extra : Pmt → Nat) (s : St) (p : Packet) :
    waitReady extra B s p = waitReady extra A s p := by
  simp only [waitReady, pendingPat, waitStart_pre h, h]

/-- One packet. -/
theorem step_lenient {A B : Opt} (hp : B.preStreaming = A.preStreaming) (extra : Pmt → Nat) (s : St) (i : Input)
    (h : ∀ t ∈ i.tables, Lenient A B t) :
    (step extra B s i = step extra A s i ∧ announced B s i = announced A s i) ∨
      (∃ f log, step extra A s i = .ok (f, log, [], false) ∧ f.retry = true) ∨
      (∃ e, step extra A s i = .error e ∧ announced A s i = []) := by
  rcases tables_lenient (pid := i.packet.pid) i.tables h s with h1 | ⟨h1, h2⟩
  · left
    simp only [step, announced, h1, waitStart_pre hp, waitReady_pre hp, pendingPat, hp]
    trivial
  · right
    cases ha : feedDemux St.demux (handleTable A) i.packet.pid i.tables s with
    | error e =>
      right
      refine ⟨e, ?_, ?_⟩
      · simp only [step, ha]; rfl
      · simp only [announced, ha]
    | ok r =>
      obtain ⟨s1, log⟩ := r
      left
      have h3 := h2 _ _ ha
      have h4 : s1.streaming = false := (ExitCodes.tables_flags ha).1.trans h1
      refine ⟨{ s1 with retry := true }, log, ?_, rfl⟩
      simp only [step, ha]
      rw [ok_bind]
      simp only [h4, waitReady, waitStart, h3]
      rfl

theorem program_unless {σ : Type} {A B : Opt} (hp : B.preStreaming = A.preStreaming) (extra : Pmt → Nat)
    (k : Sink Out σ) :
    SinkUnless (fun i : Input => ∀ t ∈ i.tables, Lenient A B t) (fun s : St × σ => s.1.retry = true)
      (ProgramFilter.sink extra A k) (ProgramFilter.sink extra B k) where
  start _ := rfl
  handle s i r hi hr := by
    rcases step_lenient hp extra s.1 i hi with ⟨h1, h2⟩ | ⟨f, log, h1, h2⟩ | ⟨e, h1, h2⟩
    · left
      rw [← hr]
      simp only [ProgramFilter.sink, h1, h2]
    · right
      simp only [ProgramFilter.sink, h1, sendAll] at hr
      cases hr
      exact ⟨rfl, h2⟩
    · simp only [ProgramFilter.sink, h1, h2, sendAll] at hr
      cases hr
  finish _ := rfl
  bad s s' hs hr := by
    obtain ⟨d, h1, hr⟩ := bind_ok_iff.1 hr
    cases hr
    exact hs
  exitCode _ := rfl
  retry s hs := by
    show (if s.1.retry then exitRetry else k.exitCode s.2) = exitRetry
    rw [if_pos hs]

/-- A set of options with another time limit. -/
def until_ (x : Option Int) (o : Opt) : Opt := { o with waitUntil := x }

/-- A table that is not a TOT is taken like before if there is a limit before and after. -/
theorem lenient_later {t t' : Int} (h : t ≤ t') (o : Opt) (x : Table) :
    Lenient (until_ (some t) o) (until_ (some t') o) x := by
  intro s
  unfold handleTable
  split
  · exact Or.inl rfl
  · exact Or.inl rfl
  · exact Or.inl rfl
  · next time _ =>
    by_cases hs : s.streaming = true
    · left
      simp [handleTot, hs]
    · by_cases hv : x.valid = true
      · by_cases h1 : time > t'
        · left
          have h2 : time > t := by omega
          simp [handleTot, checkTimeLimit, until_, h1, h2]
        · by_cases h2 : time > t
          · right
            refine ⟨by simpa using hs, fun s' hs' => ?_⟩
            simp only [handleTot, hv, Bool.not_true] at hs'
            simp only [Bool.false_eq_true, if_false] at hs'
            rw [tot_stop hs']
            simp [checkTimeLimit, until_, h2, hs]
          · left
            simp [handleTot, checkTimeLimit, until_, h1, h2]
      · left
        simp [handleTot, hv]
  · exact Or.inl rfl

theorem eit_without {t' : Int} (o : Opt) (x : Table) (eit : Eit) (s : St) :
    handleEit (until_ (some t') o) s x eit = handleEit (until_ none o) s x eit ∨
      (s.streaming = false ∧ ∀ s', handleEit (until_ none o) s x eit = .ok s' → s'.stop = true) := by
  have hu : ∀ e, updateEventTime (until_ (some t') o) s e = updateEventTime (until_ none o) s e := fun _ => rfl
  have h1 : (until_ (some t') o).sid = (until_ none o).sid := rfl
  have h2 : (until_ (some t') o).eid = (until_ none o).eid := rfl
  unfold handleEit
  rw [h1, h2]
  simp only [hu]
  by_cases hv : (!x.valid) = true
  · exact Or.inl (by rw [if_pos hv, if_pos hv])
  · rw [if_neg hv, if_neg hv]
    by_cases hi : (eit.serviceId != (until_ none o).sid) = true
    · exact Or.inl (by rw [if_pos hi, if_pos hi])
    · rw [if_neg hi, if_neg hi]
      rcases eit.events with _ | ⟨p, _ | ⟨f, r⟩⟩
      · exact Or.inl rfl
      · exact Or.inl rfl
      · dsimp only
        by_cases hp : (p.eventId == (until_ none o).eid) = true
        · exact Or.inl (by rw [if_pos hp, if_pos hp])
        · rw [if_neg hp, if_neg hp]
          by_cases hf : (f.eventId == (until_ none o).eid) = true
          · exact Or.inl (by rw [if_pos hf, if_pos hf])
          · rw [if_neg hf, if_neg hf]
            by_cases hs : s.streaming = true
            · exact Or.inl (by rw [if_pos hs, if_pos hs])
            · right
              refine ⟨by simpa using hs, fun s' h => ?_⟩
              rw [if_neg hs, if_pos (by rfl)] at h
              cases h
              rfl

/-- A limit instead of none, if the limit is not reached. -/
theorem lenient_without {t' : Int} (o : Opt) (x : Table)
    (h : ∀ time, x.body = .tot time → x.valid = true → time ≤ t') :
    Lenient (until_ none o) (until_ (some t') o) x := by
  intro s
  unfold handleTable
  split
  · exact Or.inl rfl
  · exact Or.inl rfl
  · next eit _ => exact eit_without o x eit s
  · next time hb =>
    left
    by_cases hv : x.valid = true
    · have h1 : ¬ time > t' := by have := h time hb hv; omega
      simp [handleTot, checkTimeLimit, until_, h1]
    · simp [handleTot, hv]
  · exact Or.inl rfl

end

/-- The command with other options. -/
theorem filterProgram_lenient {w : World} {ps : List (List UInt8)} (hr : Reads w ps) {A B : ProgramFilter.Opt}
    (hp : B.preStreaming = A.preStreaming) (hs : B.sid = A.sid) (hi : ProgramFilter.init B = ProgramFilter.init A)
    (hL : ∀ n x, ∀ t ∈ w.tables2 n x, Lenient A B t)
    {e : Ended} (h : Main.filterProgram w A = .ok e) (hc : e.code ≠ exitRetry) : Main.filterProgram w B = .ok e := by
  have H := service_unless (via_unless (program_unless hp w.extra (PreStreaming.behind w.codec)) (between w.codec w.tables2))
    (fun x n => hL n x) { sid := A.sid }
  have hA := feed_around hr (input w.codec w.tables) (ServiceFilter.sink { sid := A.sid }
    (via (between w.codec w.tables2) (ProgramFilter.sink w.extra A (PreStreaming.behind w.codec))))
    (ServiceFilter.init { sid := A.sid }, 0, ProgramFilter.init A, 0, StdoutSink.init w.write)
    (fun r => (.ok { code := r.1, bytes := r.2.2.2.2.2.out } : Except Stop Ended))
  have hB := feed_around hr (input w.codec w.tables) (ServiceFilter.sink { sid := B.sid }
    (via (between w.codec w.tables2) (ProgramFilter.sink w.extra B (PreStreaming.behind w.codec))))
    (ServiceFilter.init { sid := B.sid }, 0, ProgramFilter.init B, 0, StdoutSink.init w.write)
    (fun r => (.ok { code := r.1, bytes := r.2.2.2.2.2.out } : Except Stop Ended))
  change Main.filterProgram w A = _ at hA
  change Main.filterProgram w B = _ at hB
  rw [hA] at h
  rw [hB, hs, hi]
  obtain ⟨⟨code, r⟩, h1, h⟩ := bind_ok_iff.1 h
  cases h
  exact bind_ok_iff.2 ⟨_, mapError_ok_iff.2 (around_unless H (fun _ _ => trivial) (mapError_ok_iff.1 h1) hc), rfl⟩

end Mirakc.WaitUntil
