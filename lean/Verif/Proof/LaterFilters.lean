import Verif.Proof.LaterCollect
/-
Lemmas: the same broadcast at another time, for filter-service, seek-start and filter-program.
-/
namespace Mirakc.Main
open Mirakc.Pipeline Mirakc.Spec Mirakc.Spec.Main Mirakc.Spec.Pipeline

/-! filter-service and seek-start do not look at times. -/

theorem service_rel {σ σ' : Type} {S : σ → σ' → Prop} {k : Sink ServiceFilter.Out σ} {k' : Sink ServiceFilter.Out σ'}
    (h : SinkRel (fun x x' => x' = x) S k k') (T : Int) (sid : Nat) :
    SinkRel (LaterInput T) (fun a b => b.1 = a.1 ∧ S a.2 b.2) (ServiceFilter.sink { sid := sid } k)
      (ServiceFilter.sink { sid := sid } k') where
  start s s' hs := (h.start _ _ hs.2).bind fun a b hab => ⟨hab.1, hs.1, hab.2⟩
  handle s s' i i' hs hi := by
    have hh : ∀ s t, ServiceFilter.handleTable { sid := sid } s (laterTable T t) =
        ServiceFilter.handleTable { sid := sid } s t := by
      rintro s ⟨sp, v, body, fp, ver⟩
      cases body <;> rfl
    have hst : Rel (fun a b => b.1 = a.1 ∧ b.2.2 = a.2.2) (ServiceFilter.step { sid := sid } s.1 i)
        (ServiceFilter.step { sid := sid } s'.1 i') := by
      unfold ServiceFilter.step
      rw [hs.1, hi.1, hi.2]
      refine (feedDemux_timeless hh _ _ _).bind fun a b hab => ?_
      obtain ⟨a, x⟩ := a
      obtain ⟨b, y⟩ := b
      cases hab
      refine Rel.ite Iff.rfl (fun _ => ⟨rfl, rfl⟩) fun _ => ?_
      refine Rel.ite Iff.rfl (fun _ => ⟨rfl, rfl⟩) fun _ => ?_
      refine Rel.ite Iff.rfl (fun _ => ?_) fun _ => ?_
      · cases a.packetizer
        · exact rfl
        · exact ⟨rfl, rfl⟩
      · refine Rel.bind_same fun _ => ?_
        exact ⟨rfl, rfl⟩
    refine hst.bind fun a b hab => ?_
    obtain ⟨a, x, act⟩ := a
    obtain ⟨b, y, act'⟩ := b
    obtain ⟨h1, h2⟩ := hab
    cases h1
    cases h2
    cases act with
    | stop => exact ⟨rfl, rfl, hs.2⟩
    | drop => exact ⟨rfl, rfl, hs.2⟩
    | send x => exact (h.handle _ _ x x hs.2 rfl).bind fun a b hab => ⟨hab.1, rfl, hab.2⟩
  finish s s' hs := (h.finish _ _ hs.2).bind fun a b hab => ⟨hs.1, hab⟩
  exitCode s s' hs := by
    show (if (k'.exitCode s'.2 == exitSuccess) = true then if s'.1.error = true then _ else _ else _) = _
    rw [hs.1, h.exitCode _ _ hs.2]
    rfl

theorem seeker_rel {σ : Type} (k : Sink Packet σ) (T : Int) (o : StartSeeker.Opt) :
    SinkRel (LaterInput T) (fun a b => b = a) (StartSeeker.sink o k) (StartSeeker.sink o k) where
  start s s' hs := by subst hs; exact (Rel.of_eq rfl).mono fun a b h => by subst h; exact ⟨rfl, rfl⟩
  handle s s' i i' hs hi := by
    subst hs
    have hh : ∀ s t, StartSeeker.handleTable o s (laterTable T t) = StartSeeker.handleTable o s t := by
      rintro s ⟨sp, v, body, fp, ver⟩
      cases body <;> rfl
    have hst : Rel (fun a b => b.1 = a.1 ∧ b.2.2 = a.2.2) (StartSeeker.step o s'.1 i) (StartSeeker.step o s'.1 i') := by
      unfold StartSeeker.step
      rw [hi.1, hi.2]
      refine (feedDemux_timeless hh _ _ _).bind fun a b hab => ?_
      obtain ⟨a, x⟩ := a
      obtain ⟨b, y⟩ := b
      cases hab
      exact Rel.ite Iff.rfl (fun _ => ⟨rfl, rfl⟩) fun _ => Rel.bind_same fun _ => ⟨rfl, rfl⟩
    refine hst.bind fun a b hab => ?_
    obtain ⟨a, x, act⟩ := a
    obtain ⟨b, y, act'⟩ := b
    obtain ⟨h1, h2⟩ := hab
    cases h1
    cases h2
    exact Rel.bind_same fun _ => ⟨rfl, rfl⟩
  finish s s' hs := by subst hs; exact (Rel.of_eq rfl).mono fun a b h => h
  exitCode s s' hs := by subst hs; rfl

/-! filter-program -/

/-- The options, later. -/
def laterProgram (T : Int) (o : ProgramFilter.Opt) : ProgramFilter.Opt :=
  { o with clockTime := o.clockTime + T, waitUntil := o.waitUntil.map (· + T) }

/-- The state with another time and another event. -/
def moved (T a b : Int) (s : ProgramFilter.St) : ProgramFilter.St :=
  { s with clockTime := s.clockTime + T, eventStart := a, eventEnd := b }

/-- The relation between the states of filter-program: times are later, or have not been read. -/
def ProgLater (T : Int) (s s' : ProgramFilter.St) : Prop :=
  ∃ a b, s' = moved T a b s ∧ (s.eventTimeReady = true → a = s.eventStart + T ∧ b = s.eventEnd + T)

theorem convert_later (T a b : Int) (s : ProgramFilter.St) (t : Int) :
    ProgramFilter.convertTimeToPcr (moved T a b s) (t + T) = ProgramFilter.convertTimeToPcr s t := by
  unfold ProgramFilter.convertTimeToPcr
  simp only [moved]
  rw [show t + T - (s.clockTime + T) = t - s.clockTime by omega]

theorem range_later (T : Int) (s s' : ProgramFilter.St) (h : ProgLater T s s') :
    Rel (ProgLater T) (ProgramFilter.updatePcrRange s) (ProgramFilter.updatePcrRange s') := by
  obtain ⟨a, b, rfl, h⟩ := h
  unfold ProgramFilter.updatePcrRange
  show Rel _ _ (assertThat s.eventTimeReady >>= _)
  by_cases he : s.eventTimeReady = true
  case neg =>
    rw [Bool.eq_false_iff.mpr he]
    exact rfl
  case pos =>
    obtain ⟨rfl, rfl⟩ := h he
    refine Rel.bind_same fun _ => ?_
    refine Rel.bind_same fun _ => ?_
    refine Rel.bind_same fun _ => ?_
    show Rel _ _ (ProgramFilter.convertTimeToPcr (moved T _ _ s) (s.eventStart + T) >>= _)
    rw [convert_later]
    refine Rel.bind_same fun x => ?_
    show Rel _ _ (ProgramFilter.convertTimeToPcr (moved T _ _ s) (s.eventEnd + T) >>= _)
    rw [convert_later]
    exact Rel.bind_same fun y => ⟨_, _, rfl, fun _ => ⟨rfl, rfl⟩⟩

theorem clockPcr_later (T : Int) (s s' : ProgramFilter.St) (pcr : Int) (h : ProgLater T s s') :
    Rel (ProgLater T) (ProgramFilter.updateClockPcr s pcr) (ProgramFilter.updateClockPcr s' pcr) := by
  obtain ⟨a, b, rfl, h⟩ := h
  refine Rel.bind_same fun _ => ?_
  have h1 : ProgLater T { s with clockPcr := pcr, clockPcrReady := true }
      { moved T a b s with clockPcr := pcr, clockPcrReady := true } := ⟨a, b, rfl, h⟩
  exact Rel.ite Iff.rfl (fun _ => range_later T _ _ h1) fun _ => h1

theorem clockTime_later (T : Int) (s s' : ProgramFilter.St) (t : Int) (h : ProgLater T s s') :
    Rel (ProgLater T) (ProgramFilter.updateClockTime s t) (ProgramFilter.updateClockTime s' (t + T)) := by
  obtain ⟨a, b, rfl, h⟩ := h
  refine Rel.bind_same fun _ => ?_
  have h1 : ProgLater T { s with clockTime := t, clockTimeReady := true }
      { moved T a b s with clockTime := t + T, clockTimeReady := true } := ⟨a, b, rfl, h⟩
  exact Rel.ite Iff.rfl (fun _ => range_later T _ _ h1) fun _ => h1

theorem eventTime_later (T : Int) (o : ProgramFilter.Opt) (s s' : ProgramFilter.St) (e : Event) (h : ProgLater T s s') :
    Rel (ProgLater T) (ProgramFilter.updateEventTime o s e)
      (ProgramFilter.updateEventTime (laterProgram T o) s' (laterEvent T e)) := by
  obtain ⟨a, b, rfl, h⟩ := h
  refine Rel.bind_same fun _ => ?_
  refine Rel.bind_same fun d => ?_
  have h1 : ProgLater T
      { s with eventStart := e.startTime - o.startMargin, eventEnd := e.startTime + d, eventTimeReady := true }
      { moved T a b s with
        eventStart := e.startTime + T - o.startMargin, eventEnd := e.startTime + T + d, eventTimeReady := true } :=
    ⟨e.startTime + T - o.startMargin, e.startTime + T + d, rfl, fun _ => ⟨by
      show _ = e.startTime - o.startMargin + T
      omega, by
      show _ = e.startTime + d + T
      omega⟩⟩
  exact Rel.ite Iff.rfl (fun _ => range_later T _ _ h1) fun _ => h1

theorem program_handle (T : Int) (o : ProgramFilter.Opt) (s s' : ProgramFilter.St) (t : Table) (h : ProgLater T s s') :
    Rel (ProgLater T) (ProgramFilter.handleTable o s t)
      (ProgramFilter.handleTable (laterProgram T o) s' (laterTable T t)) := by
  obtain ⟨sp, v, body, fp, ver⟩ := t
  cases body with
  | pat pat =>
    obtain ⟨a, b, rfl, h⟩ := h
    show Rel _ (ProgramFilter.handlePat o s _ pat) (ProgramFilter.handlePat _ _ _ pat)
    unfold ProgramFilter.handlePat
    refine Rel.ite Iff.rfl (fun _ => ⟨a, b, rfl, h⟩) fun _ => ?_
    refine Rel.ite Iff.rfl (fun _ => ⟨a, b, rfl, h⟩) fun _ => ?_
    refine Rel.ite Iff.rfl (fun _ => ⟨a, b, rfl, h⟩) fun _ => ?_
    show Rel _ (match pat.pmts.find? o.sid with | none => _ | some x => _)
      (match pat.pmts.find? o.sid with | none => _ | some x => _)
    cases pat.pmts.find? o.sid with
    | none => exact rfl
    | some pid => exact ⟨a, b, rfl, h⟩
  | pmt pmt =>
    obtain ⟨a, b, rfl, h⟩ := h
    show Rel _ (ProgramFilter.handlePmt o s _ pmt) (ProgramFilter.handlePmt _ _ _ pmt)
    unfold ProgramFilter.handlePmt
    refine Rel.ite Iff.rfl (fun _ => ⟨a, b, rfl, h⟩) fun _ => ?_
    refine Rel.ite Iff.rfl (fun _ => ⟨a, b, rfl, h⟩) fun _ => ?_
    have hp : ∀ s s' x pid p, ProgLater T s s' →
        ProgLater T { s with black := x, pk := { s.pk with pid := pid, table := some p } }
          { s' with black := x, pk := { s'.pk with pid := pid, table := some p } } := by
      rintro s s' x pid p ⟨a, b, rfl, h⟩
      exact ⟨a, b, rfl, h⟩
    refine hp _ _ _ _ _ ?_
    exact rel_ite (R := ProgLater T) Iff.rfl (fun _ => ⟨a, b, rfl, h⟩) fun _ => ⟨a, b, rfl, h⟩
  | eit e =>
    show Rel _ (ProgramFilter.handleEit o s _ e) (ProgramFilter.handleEit _ _ _ (laterEit T e))
    unfold ProgramFilter.handleEit
    refine Rel.ite Iff.rfl (fun _ => h) fun _ => ?_
    refine Rel.ite Iff.rfl (fun _ => h) fun _ => ?_
    obtain ⟨sid, tsid, nid, evs⟩ := e
    show Rel _ _ (match evs.map (laterEvent T) with | [] => _ | present :: rest => _)
    have hs : s'.streaming = s.streaming := by obtain ⟨a, b, rfl, _⟩ := h; rfl
    have hstop : ProgLater T { s with stop := true } { s' with stop := true } := by
      obtain ⟨a, b, rfl, h⟩ := h; exact ⟨a, b, rfl, h⟩
    match evs with
    | [] => exact hstop
    | present :: rest =>
      refine Rel.ite Iff.rfl (fun _ => eventTime_later T o s s' present h) fun _ => ?_
      match rest with
      | [] => exact Rel.ite (by rw [hs]) (fun _ => h) fun _ => hstop
      | following :: _ =>
        refine Rel.ite Iff.rfl (fun _ => eventTime_later T o s s' following h) fun _ => ?_
        refine Rel.ite (by rw [hs]) (fun _ => h) fun _ => ?_
        refine Rel.ite ?_ (fun _ => hstop) fun _ => h
        show (o.waitUntil.map (· + T)).isNone = true ↔ _
        cases o.waitUntil <;> exact Iff.rfl
  | tot time =>
    show Rel _ (ProgramFilter.handleTot o s _ time) (ProgramFilter.handleTot _ _ _ (time + T))
    unfold ProgramFilter.handleTot
    refine Rel.ite Iff.rfl (fun _ => h) fun _ => ?_
    have hl : ProgLater T (if (!s.streaming) = true then ProgramFilter.checkTimeLimit o s time else s)
        (if (!s'.streaming) = true then ProgramFilter.checkTimeLimit (laterProgram T o) s' (time + T) else s') := by
      refine rel_ite (R := ProgLater T) (by obtain ⟨a, b, rfl, _⟩ := h; exact Iff.rfl) (fun _ => ?_) fun _ => h
      unfold ProgramFilter.checkTimeLimit
      show ProgLater T _ (match o.waitUntil.map (· + T) with | none => _ | some limit => _)
      cases o.waitUntil with
      | none => exact h
      | some limit =>
        refine rel_ite (R := ProgLater T) ⟨fun h => ?_, fun h => ?_⟩ (fun _ => ?_) fun _ => h
        · exact (show time + T > limit + T from h) |> fun h => by omega
        · show time + T > limit + T
          omega
        · obtain ⟨a, b, rfl, h⟩ := h
          exact ⟨a, b, rfl, h⟩
    refine Rel.ite (by obtain ⟨a, b, e, _⟩ := hl; rw [e]; exact Iff.rfl) (fun _ => hl) fun _ => ?_
    exact clockTime_later T _ _ time hl
  | _ => exact h

/-- The relation between results. -/
def ProgAlike {α : Type} (T : Int) (a b : ProgramFilter.St × α) : Prop := ProgLater T a.1 b.1 ∧ b.2 = a.2

theorem syncClock_later (T : Int) (s s' : ProgramFilter.St) (pcr : Int) (h : ProgLater T s s') :
    Rel (ProgLater T) (ProgramFilter.syncClock s pcr) (ProgramFilter.syncClock s' pcr) := by
  unfold ProgramFilter.syncClock
  refine Rel.ite ?_ (fun _ => clockPcr_later T s s' pcr h) fun _ => h
  obtain ⟨a, b, rfl, _⟩ := h
  exact Iff.rfl

theorem nextPmt_later (T : Int) (extra : Pmt → Nat) (s s' : ProgramFilter.St) (h : ProgLater T s s') :
    Rel (fun a b => b.1 = a.1 ∧ ProgLater T a.2 b.2) (ProgramFilter.nextPmt extra s) (ProgramFilter.nextPmt extra s') := by
  obtain ⟨a, b, rfl, h⟩ := h
  refine Rel.bind_same fun x => ?_
  refine Rel.bind_same fun _ => ?_
  exact ⟨rfl, a, b, rfl, h⟩

theorem sendCycle_later (T : Int) (extra : Pmt → Nat) : ∀ fuel s s', ProgLater T s s' →
    Rel (fun a b => b.1 = a.1 ∧ ProgLater T a.2 b.2) (ProgramFilter.sendCycle extra fuel s)
      (ProgramFilter.sendCycle extra fuel s')
  | 0, _, _, _ => rfl
  | fuel + 1, s, s', h => by
    refine (nextPmt_later T extra s s' h).bind fun x y hxy => ?_
    obtain ⟨x, s⟩ := x
    obtain ⟨y, s'⟩ := y
    obtain ⟨h1, h2⟩ := hxy
    cases h1
    refine Rel.ite (by obtain ⟨a, b, e, _⟩ := h2; cases e; exact Iff.rfl) (fun _ => ?_) fun _ => ?_
    · exact ⟨rfl, h2⟩
    · refine (sendCycle_later T extra fuel s s' h2).bind fun x y hxy => ?_
      obtain ⟨x, s⟩ := x
      obtain ⟨y, s'⟩ := y
      obtain ⟨h1, h2⟩ := hxy
      cases h1
      exact ⟨rfl, h2⟩

theorem waitStart_later (T : Int) (o : ProgramFilter.Opt) (s s' : ProgramFilter.St) (p : Packet) (h : ProgLater T s s') :
    Rel (ProgAlike T) (ProgramFilter.waitStart o s p) (ProgramFilter.waitStart (laterProgram T o) s' p) := by
  unfold ProgramFilter.waitStart
  refine Rel.ite (by obtain ⟨a, b, rfl, _⟩ := h; exact Iff.rfl) (fun _ => ?_) fun _ => ?_
  · obtain ⟨a, b, rfl, h⟩ := h
    exact ⟨⟨a, b, rfl, h⟩, rfl⟩
  refine Rel.ite Iff.rfl (fun _ => ⟨h, rfl⟩) fun _ => ?_
  have hs : ProgLater T (ProgramFilter.savePat s p) (ProgramFilter.savePat s' p) := by
    unfold ProgramFilter.savePat
    refine rel_ite (R := ProgLater T) Iff.rfl (fun _ => ?_) fun _ => h
    obtain ⟨a, b, rfl, h⟩ := h
    exact ⟨a, b, rfl, h⟩
  generalize ProgramFilter.savePat s p = s at *
  generalize ProgramFilter.savePat s' p = s' at *
  refine Rel.ite (by obtain ⟨a, b, rfl, _⟩ := hs; exact Iff.rfl) (fun _ => ⟨hs, rfl⟩) fun _ => ?_
  refine Rel.ite (by obtain ⟨a, b, rfl, _⟩ := hs; exact Iff.rfl) (fun _ => ⟨hs, rfl⟩) fun _ => ?_
  cases p.pcr with
  | none => exact ⟨hs, rfl⟩
  | some pcr =>
    refine (syncClock_later T s s' pcr hs).bind fun s s' h => ?_
    refine Rel.ite (by obtain ⟨a, b, rfl, _⟩ := h; exact Iff.rfl) (fun _ => ⟨h, rfl⟩) fun _ => ?_
    rw [show s'.endPcr = s.endPcr by obtain ⟨a, b, rfl, _⟩ := h; rfl]
    refine Rel.bind_same fun c => ?_
    refine Rel.ite Iff.rfl (fun _ => ⟨h, rfl⟩) fun _ => ?_
    rw [show s'.startPcr = s.startPcr by obtain ⟨a, b, rfl, _⟩ := h; rfl]
    refine Rel.bind_same fun c => ?_
    refine Rel.ite Iff.rfl (fun _ => ⟨h, rfl⟩) fun _ => ?_
    rw [show s'.lastPat = s.lastPat by obtain ⟨a, b, rfl, _⟩ := h; rfl]
    refine Rel.bind_same fun c => ?_
    exact ⟨h, rfl⟩

theorem forward_later (T : Int) (extra : Pmt → Nat) (s s' : ProgramFilter.St) (p : Packet) (h : ProgLater T s s') :
    Rel (ProgAlike T) (ProgramFilter.forward extra s p) (ProgramFilter.forward extra s' p) := by
  unfold ProgramFilter.forward
  refine Rel.ite (by obtain ⟨a, b, rfl, _⟩ := h; exact Iff.rfl) (fun _ => ?_) fun _ => ?_
  · refine (nextPmt_later T extra s s' h).bind fun x y hxy => ?_
    obtain ⟨x, s⟩ := x
    obtain ⟨y, s'⟩ := y
    obtain ⟨h1, h2⟩ := hxy
    cases h1
    exact ⟨h2, rfl⟩
  · exact Rel.ite (by obtain ⟨a, b, rfl, _⟩ := h; exact Iff.rfl) (fun _ => ⟨h, rfl⟩) fun _ => ⟨h, rfl⟩

theorem doStreaming_later (T : Int) (extra : Pmt → Nat) (s s' : ProgramFilter.St) (p : Packet) (h : ProgLater T s s') :
    Rel (ProgAlike T) (ProgramFilter.doStreaming extra s p) (ProgramFilter.doStreaming extra s' p) := by
  unfold ProgramFilter.doStreaming
  refine Rel.ite (by obtain ⟨a, b, rfl, _⟩ := h; exact Iff.rfl) (fun _ => ⟨h, rfl⟩) fun _ => ?_
  refine Rel.ite (by obtain ⟨a, b, rfl, _⟩ := h; exact Iff.rfl) (fun _ => ?_) fun _ => forward_later T extra s s' p h
  cases p.pcr with
  | none => exact ⟨h, rfl⟩
  | some pcr =>
    refine (syncClock_later T s s' pcr h).bind fun s s' h => ?_
    refine Rel.ite (by obtain ⟨a, b, rfl, _⟩ := h; exact Iff.rfl) (fun _ => ⟨h, rfl⟩) fun _ => ?_
    rw [show s'.endPcr = s.endPcr by obtain ⟨a, b, rfl, _⟩ := h; rfl]
    refine Rel.bind_same fun c => ?_
    exact Rel.ite Iff.rfl (fun _ => ⟨h, rfl⟩) fun _ => forward_later T extra s s' p h

theorem waitReady_later (T : Int) (extra : Pmt → Nat) (o : ProgramFilter.Opt) (s s' : ProgramFilter.St) (p : Packet)
    (h : ProgLater T s s') :
    Rel (ProgAlike T) (ProgramFilter.waitReady extra o s p) (ProgramFilter.waitReady extra (laterProgram T o) s' p) := by
  unfold ProgramFilter.waitReady
  refine (waitStart_later T o s s' p h).bind fun x y hxy => ?_
  obtain ⟨s, x⟩ := x
  obtain ⟨s', y⟩ := y
  obtain ⟨h1, h2⟩ := hxy
  cases h2
  match x with
  | some (outs, ok) => exact ⟨h1, rfl⟩
  | none =>
    obtain ⟨a, b, e, h⟩ := h1
    simp only at e h
    subst e
    have hs : ProgLater T (if o.preStreaming then s else { s with lastPat := [] })
        (if (laterProgram T o).preStreaming then moved T a b s else { moved T a b s with lastPat := [] }) :=
      rel_ite (R := ProgLater T) Iff.rfl (fun _ => ⟨a, b, rfl, h⟩) fun _ => ⟨a, b, rfl, h⟩
    generalize hq : (if o.preStreaming then s else { s with lastPat := [] }) = q at hs
    generalize hq' : (if (laterProgram T o).preStreaming then moved T a b s
      else { moved T a b s with lastPat := [] }) = q' at hs
    show Rel (ProgAlike T)
      (ProgramFilter.sendCycle extra
        (((if o.preStreaming then s else { s with lastPat := [] }).pk.cur.map (extra ·.1)).getD 0 +
          ((if o.preStreaming then s else { s with lastPat := [] }).pk.table.map extra).getD 0 + 1)
        (if o.preStreaming then s else { s with lastPat := [] }) >>= fun r =>
          .ok ({ r.2 with streaming := true }, ProgramFilter.pendingPat o s ++ r.1 ++ [.orig p], true))
      (ProgramFilter.sendCycle extra
        (((if (laterProgram T o).preStreaming then moved T a b s
          else { moved T a b s with lastPat := [] }).pk.cur.map (extra ·.1)).getD 0 +
          ((if (laterProgram T o).preStreaming then moved T a b s
            else { moved T a b s with lastPat := [] }).pk.table.map extra).getD 0 + 1)
        (if (laterProgram T o).preStreaming then moved T a b s else { moved T a b s with lastPat := [] }) >>= fun r =>
          .ok ({ r.2 with streaming := true }, ProgramFilter.pendingPat o s ++ r.1 ++ [.orig p], true))
    rw [hq, hq', show q'.pk = q.pk by obtain ⟨a, b, rfl, _⟩ := hs; rfl]
    refine (sendCycle_later T extra _ q q' hs).bind fun x y hxy => ?_
    obtain ⟨x, s⟩ := x
    obtain ⟨y, s'⟩ := y
    obtain ⟨h1, h2⟩ := hxy
    cases h1
    obtain ⟨a, b, e, h⟩ := h2
    simp only at e h
    subst e
    exact ⟨⟨a, b, rfl, h⟩, rfl⟩

theorem program_demux (T : Int) (o : ProgramFilter.Opt) (s s' : ProgramFilter.St) (i i' : Input)
    (h : ProgLater T s s') (hi : LaterInput T i i') :
    Rel (fun a b => ProgLater T a.1 b.1)
      (feedDemux ProgramFilter.St.demux (ProgramFilter.handleTable o) i.packet.pid i.tables s)
      (feedDemux ProgramFilter.St.demux (ProgramFilter.handleTable (laterProgram T o)) i'.packet.pid i'.tables s') := by
  rw [hi.1, hi.2]
  exact (feedDemux_rel (R := ProgLater T) (T := T) (by rintro s s' ⟨a, b, rfl, _⟩; rfl)
    (fun s s' t hs => program_handle T o s s' t hs) _ _ _ _ h).mono fun a b hab => hab.1

theorem program_step (T : Int) (extra : Pmt → Nat) (o : ProgramFilter.Opt) (s s' : ProgramFilter.St) (i i' : Input)
    (h : ProgLater T s s') (hi : LaterInput T i i') :
    Rel (fun a b => ProgLater T a.1 b.1 ∧ b.2.2 = a.2.2) (ProgramFilter.step extra o s i)
      (ProgramFilter.step extra (laterProgram T o) s' i') := by
  unfold ProgramFilter.step
  refine (program_demux T o s s' i i' h hi).bind fun a b hab => ?_
  obtain ⟨s, x⟩ := a
  obtain ⟨s', y⟩ := b
  simp only at hab
  rw [hi.1]
  refine Rel.ite (by obtain ⟨a, b, rfl, _⟩ := hab; exact Iff.rfl) (fun _ => ?_) fun _ => ?_
  · refine (doStreaming_later T extra s s' _ hab).bind fun a b hab => ?_
    obtain ⟨s, x⟩ := a
    obtain ⟨s', y⟩ := b
    obtain ⟨h1, h2⟩ := hab
    cases h2
    exact ⟨h1, rfl⟩
  · refine (waitReady_later T extra o s s' _ hab).bind fun a b hab => ?_
    obtain ⟨s, x⟩ := a
    obtain ⟨s', y⟩ := b
    obtain ⟨h1, h2⟩ := hab
    cases h2
    exact ⟨h1, rfl⟩

theorem announced_later (T : Int) (o : ProgramFilter.Opt) (s s' : ProgramFilter.St) (i i' : Input)
    (h : ProgLater T s s') (hi : LaterInput T i i') :
    ProgramFilter.announced (laterProgram T o) s' i' = ProgramFilter.announced o s i := by
  unfold ProgramFilter.announced
  have hd := program_demux T o s s' i i' h hi
  generalize feedDemux ProgramFilter.St.demux (ProgramFilter.handleTable o) i.packet.pid i.tables s = x at hd
  generalize feedDemux ProgramFilter.St.demux (ProgramFilter.handleTable (laterProgram T o)) i'.packet.pid i'.tables s' =
    y at hd
  cases x with
  | error e =>
    cases y with
    | error e' => rfl
    | ok y => exact hd.elim
  | ok x =>
    cases y with
    | error e' => exact hd.elim
    | ok y =>
      obtain ⟨s, x⟩ := x
      obtain ⟨s', y⟩ := y
      have hd : ProgLater T s s' := hd
      refine rel_ite (R := fun a b => b = a) (by obtain ⟨a, b, rfl, _⟩ := hd; exact Iff.rfl) (fun _ => rfl) fun _ => ?_
      have hw := waitStart_later T o s s' i.packet hd
      rw [hi.1]
      generalize ProgramFilter.waitStart o s i.packet = x at hw
      generalize ProgramFilter.waitStart (laterProgram T o) s' i.packet = y at hw
      cases x with
      | error e =>
        cases y with
        | error e' => rfl
        | ok y => exact hw.elim
      | ok x =>
        cases y with
        | error e' => exact hw.elim
        | ok y =>
          obtain ⟨s, x⟩ := x
          obtain ⟨s', y⟩ := y
          obtain ⟨⟨a, b, e, _⟩, h2⟩ := hw
          cases h2
          simp only at e
          subst e
          cases x <;> rfl

theorem program_rel {σ : Type} (k : Sink ProgramFilter.Out σ) (T : Int) (extra : Pmt → Nat) (o : ProgramFilter.Opt) :
    SinkRel (LaterInput T) (fun a b => b.2 = a.2 ∧ ProgLater T a.1 b.1) (ProgramFilter.sink extra o k)
      (ProgramFilter.sink extra (laterProgram T o) k) where
  start s s' hs := by
    obtain ⟨f, d⟩ := s
    obtain ⟨f', d'⟩ := s'
    obtain ⟨h1, h2⟩ := hs
    cases h1
    refine Rel.bind_same fun a => ?_
    exact ⟨rfl, rfl, h2⟩
  handle s s' i i' hs hi := by
    obtain ⟨f, d⟩ := s
    obtain ⟨f', d'⟩ := s'
    obtain ⟨h1, h2⟩ := hs
    cases h1
    have hp := program_step T extra o f f' i i' h2 hi
    have ha := announced_later T o f f' i i' h2 hi
    unfold ProgramFilter.sink
    simp only at ha ⊢
    rw [ha]
    generalize ProgramFilter.step extra o f i = x at hp
    generalize ProgramFilter.step extra (laterProgram T o) f' i' = y at hp
    cases x with
    | error e =>
      cases y with
      | ok y => exact hp.elim
      | error e' =>
        cases hp
        refine Rel.bind_same fun a => ?_
        exact Rel.ite Iff.rfl (fun _ => rfl) fun _ => ⟨rfl, rfl, h2⟩
    | ok x =>
      cases y with
      | error e' => exact hp.elim
      | ok y =>
        obtain ⟨g, _, outs, ok⟩ := x
        obtain ⟨g', _, outs', ok'⟩ := y
        obtain ⟨h3, h4⟩ := hp
        cases h4
        refine Rel.bind_same fun a => ?_
        exact ⟨rfl, rfl, h3⟩
  finish s s' hs := by
    obtain ⟨f, d⟩ := s
    obtain ⟨f', d'⟩ := s'
    obtain ⟨h1, h2⟩ := hs
    cases h1
    refine Rel.bind_same fun a => ?_
    exact ⟨rfl, h2⟩
  exitCode s s' hs := by
    obtain ⟨f, d⟩ := s
    obtain ⟨f', d'⟩ := s'
    obtain ⟨h1, a, b, e, _⟩ := hs
    cases h1
    simp only at e
    subst e
    rfl

section
variable {w : World} {ps : List (List UInt8)} (hr : Reads w ps) (T L : Int)
include hr

theorem service_later (o : ServiceFilter.Opt) :
    filterService (later T L w) o = (filterService w o).map (laterEnded T) := by
  refine feed_rel hr (reads_later hr T L) (service_rel (sink_refl (via (fun _ => outBytes w.codec) StdoutSink.sink)) T o.sid)
    (packet_later T L) ⟨rfl, rfl⟩ (fun r => .ok { code := r.1, bytes := r.2.2.2.out })
    (fun r => .ok { code := r.1, bytes := r.2.2.2.out }) fun n a b hab => ?_
  obtain ⟨h1, h2⟩ := hab
  show _ = _
  rw [h2]
  rfl

theorem seek_later (o : StartSeeker.Opt) :
    seekStart (later T L w) o = (seekStart w o).map (laterEnded T) := by
  refine feed_rel hr (reads_later hr T L) (seeker_rel (via (fun _ => w.codec.bytes) StdoutSink.sink) T o)
    (packet_later T L) rfl (fun r => .ok { code := r.1, bytes := r.2.2.2.out })
    (fun r => .ok { code := r.1, bytes := r.2.2.2.out }) fun n a b hab => ?_
  cases hab
  rfl

theorem program_later (o : ProgramFilter.Opt) :
    filterProgram (later T L w) (laterProgram T o) = (filterProgram w o).map (laterEnded T) := by
  have hp := program_rel (via (fun _ => programBytes w.codec) StdoutSink.sink) T w.extra o
  have hb := via_rel (H := fun (x x' : ServiceFilter.Out) => x' = x) (f := between w.codec w.tables2)
    (f' := between w.codec (fun n x => (w.tables2 n x).map (laterTable T))) hp
    (fun n q q' h => by subst h; exact ⟨rfl, rfl⟩)
  refine feed_rel hr (reads_later hr T L) (service_rel hb T o.sid)
    (packet_later T L) (by refine ⟨rfl, rfl, rfl, 0, 0, rfl, fun h => ?_⟩; cases h)
    (fun r => .ok { code := r.1, bytes := r.2.2.2.2.2.out })
    (fun r => .ok { code := r.1, bytes := r.2.2.2.2.2.out }) fun n a b hab => ?_
  obtain ⟨h1, h2, h3, h4⟩ := hab
  show _ = _
  rw [h3]
  rfl

end
end Mirakc.Main
