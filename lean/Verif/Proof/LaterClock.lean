import Verif.Proof.LaterFilters
/-
Lemmas: the same broadcast at another time, for record-service.
-/
namespace Mirakc.Main
open Mirakc.Pipeline Mirakc.Spec Mirakc.Spec.Main Mirakc.Spec.Pipeline

/-- The clock, later. -/
def laterClock (T L : Int) (c : Clock) : Clock :=
  { c with baseline := { c.baseline with time := c.baseline.time + T }, localTime := c.localTime + L }

/-- The relation between clocks: times are later, or have not been read.  The latter is impossible if `u`. -/
def ClockLater (T L : Int) (u : Prop) (c c' : Clock) : Prop :=
  c' = laterClock T L c ∨ c' = c ∧ c.baseline.timeReady = false ∧ ¬ u

theorem ClockLater.baseline {T L : Int} {u : Prop} {c c' : Clock} (h : ClockLater T L u c c') :
    c'.isReady = c.isReady ∧ c'.hasPid = c.hasPid ∧ c'.baseline.pid = c.baseline.pid := by
  rcases h with rfl | ⟨rfl, _⟩ <;> exact ⟨rfl, rfl, rfl⟩

theorem ClockLater.setPid {T L : Int} {u : Prop} {c c' : Clock} (h : ClockLater T L u c c') (pid : Nat) :
    ClockLater T L u (c.setPid pid) (c'.setPid pid) := by
  rcases h with rfl | ⟨rfl, _, h⟩
  · exact .inl rfl
  · exact .inr ⟨rfl, rfl, h⟩

theorem ClockLater.updateTime {T L : Int} {u : Prop} {c c' : Clock} (h : ClockLater T L u c c') (t l : Int) :
    Rel (fun a b => b = laterClock T L a) (c.updateTime t l) (c'.updateTime (t + T) (l + L)) := by
  unfold Clock.updateTime
  refine Rel.ite ?_ (fun _ => ?_) fun _ => ?_
  · rcases h with rfl | ⟨rfl, _⟩ <;> exact Iff.rfl
  · unfold Clock.syncPcr ClockBaseline.setPcr
    rcases h with rfl | ⟨rfl, _⟩
    · show Rel _ (assertThat (isValidPcr c.lastPcr) >>= _ >>= _) (assertThat (isValidPcr c.lastPcr) >>= _ >>= _)
      cases isValidPcr c.lastPcr <;> exact rfl
    · show Rel _ (assertThat (isValidPcr c'.lastPcr) >>= _ >>= _) (assertThat (isValidPcr c'.lastPcr) >>= _ >>= _)
      cases isValidPcr c'.lastPcr <;> exact rfl
  · rcases h with rfl | ⟨rfl, _⟩ <;> exact rfl

theorem ClockLater.syncPcr {T L : Int} {u : Prop} {c c' : Clock} (h : ClockLater T L u c c') :
    Rel (ClockLater T L u) c.syncPcr c'.syncPcr := by
  unfold Clock.syncPcr ClockBaseline.setPcr
  rcases h with rfl | ⟨rfl, h⟩
  · show Rel _ (assertThat (isValidPcr c.lastPcr) >>= _ >>= _) (assertThat (isValidPcr c.lastPcr) >>= _ >>= _)
    cases isValidPcr c.lastPcr
    · exact rfl
    · exact .inl rfl
  · cases isValidPcr c'.lastPcr
    · exact rfl
    · exact .inr ⟨rfl, h⟩

theorem ClockLater.acceptPcr {T L : Int} {u : Prop} {c c' : Clock} (h : ClockLater T L u c c') (pcr : Int) :
    Rel (ClockLater T L u) (c.acceptPcr pcr) (c'.acceptPcr pcr) := by
  unfold Clock.acceptPcr
  have h1 : ClockLater T L u (if pcr < c.lastPcr then { c with wrapped := true } else c)
      (if pcr < c'.lastPcr then { c' with wrapped := true } else c') := by
    refine rel_ite (R := ClockLater T L u) ?_ (fun _ => ?_) fun _ => h
    · rcases h with rfl | ⟨rfl, _⟩ <;> exact Iff.rfl
    · rcases h with rfl | ⟨rfl, h⟩
      · exact .inl rfl
      · exact .inr ⟨rfl, h⟩
  generalize (if pcr < c.lastPcr then { c with wrapped := true } else c) = d at h1
  generalize (if pcr < c'.lastPcr then { c' with wrapped := true } else c') = d' at h1
  have h2 : ClockLater T L u { d with lastPcr := pcr, ready := true } { d' with lastPcr := pcr, ready := true } := by
    rcases h1 with rfl | ⟨rfl, h⟩
    · exact .inl rfl
    · exact .inr ⟨rfl, h⟩
  refine Rel.ite ?_ (fun _ => h2.syncPcr) fun _ => h2
  rcases h1 with rfl | ⟨rfl, _⟩ <;> exact Iff.rfl

theorem ClockLater.updatePcr {T L : Int} {u : Prop} {c c' : Clock} (h : ClockLater T L u c c') (pcr : Int) :
    Rel (ClockLater T L u) (c.updatePcr pcr) (c'.updatePcr pcr) := by
  unfold Clock.updatePcr
  refine Rel.bind_same fun _ => ?_
  refine Rel.ite (by rw [h.baseline.1]) (fun _ => ?_) fun _ => h.acceptPcr pcr
  have hl : c'.lastPcr = c.lastPcr := by rcases h with rfl | ⟨rfl, _⟩ <;> rfl
  show Rel _ _ (assertThat (decide (Clock.computeDelta pcr c'.lastPcr ≥ 0)) >>= _)
  refine (Rel.of_eq (by rw [hl])).bind fun _ _ _ => ?_
  refine Rel.ite (by rw [hl]) (fun _ => ?_) fun _ => ?_
  · have hg : ClockLater T L u { c with gapCount := (c.gapCount + 1) % 256 }
        { c' with gapCount := (c'.gapCount + 1) % 256 } := by
      rcases h with rfl | ⟨rfl, h⟩
      · exact .inl rfl
      · exact .inr ⟨rfl, h⟩
    refine Rel.ite ?_ (fun _ => hg) fun _ => ?_
    · rcases h with rfl | ⟨rfl, _⟩ <;> exact Iff.rfl
    · rcases h with rfl | ⟨rfl, h⟩
      · exact .inl rfl
      · exact .inr ⟨rfl, rfl, h.2⟩
  · refine ClockLater.acceptPcr ?_ pcr
    rcases h with rfl | ⟨rfl, h⟩
    · exact .inl rfl
    · exact .inr ⟨rfl, h⟩

theorem pcrToTime_later (T : Int) (b : ClockBaseline) (pcr : Int) :
    ClockBaseline.pcrToTime { b with time := b.time + T } pcr = (b.pcrToTime pcr).map (· + T) := by
  unfold ClockBaseline.pcrToTime
  show (assertThat b.isReady >>= _) = _
  cases b.isReady with
  | false => rfl
  | true =>
    show Except.ok _ = Except.ok _
    refine congrArg _ ?_
    show b.time + T + (pcr - b.pcr).tdiv pcrTicksPerMs = b.time + (pcr - b.pcr).tdiv pcrTicksPerMs + T
    omega

theorem now_later (T L : Int) (c : Clock) (l : Int) :
    (laterClock T L c).now (l + L) = (c.now l).map (· + T) := by
  refine Rel.eq ?_
  unfold Clock.now
  refine Rel.ite Iff.rfl (fun _ => ?_) fun _ => ?_
  · refine Rel.ite Iff.rfl (fun _ => ?_) fun _ => ?_
    · refine Rel.bind_same fun _ => ?_
      show Rel _ _ (ClockBaseline.pcrToTime { c.baseline with time := c.baseline.time + T } _)
      rw [pcrToTime_later]
      show Rel _ _ (Except.map _ (c.baseline.pcrToTime (c.lastPcr + pcrUpperBound)))
      cases c.baseline.pcrToTime (c.lastPcr + pcrUpperBound) <;> exact rfl
    · show Rel _ _ (ClockBaseline.pcrToTime { c.baseline with time := c.baseline.time + T } _)
      rw [pcrToTime_later]
      show Rel _ _ (Except.map _ (c.baseline.pcrToTime c.lastPcr))
      cases c.baseline.pcrToTime c.lastPcr <;> exact rfl
  · show c.baseline.time + T + (l + L - (c.localTime + L)) = c.baseline.time + (l - c.localTime) + T
    omega

/-! record-service -/

/-- What record-service does, later. -/
def laterTr (T : Int) : ServiceRecorder.Tr → ServiceRecorder.Tr
  | .msg m => .msg (laterMsg T m)
  | .op o => .op o

/-- The relation between the states of record-service: times are later, or not in use. -/
structure RecLater (T L : Int) (s s' : ServiceRecorder.St) : Prop where
  demux : s'.demux = s.demux
  ring : s'.ring = s.ring
  clock : ClockLater T L (s.recording = true) s.clock s'.clock
  pos : s'.boundPos = s.boundPos
  eit : s'.eit = s.eit.map (laterEit T)
  newEit : s'.newEit = s.newEit.map (laterEit T)
  pmtPid : s'.pmtPid = s.pmtPid
  recording : s'.recording = s.recording
  started : s'.started = s.started
  time : s.recording = true → s'.boundTime = s.boundTime + T

/-- Packets with local times. -/
structure LaterRec (T L : Int) (i i' : ServiceRecorder.Input) : Prop where
  packet : i'.packet = i.packet
  bytes : i'.bytes = i.bytes
  tables : i'.tables = i.tables.map (laterTable T)
  totLocal : i'.totLocal = i.totLocal + L
  nowLocal : i'.nowLocal = i.nowLocal + L
  chunkLocal : i'.chunkLocal = i.chunkLocal + L

section
variable {T L : Int} {s s' : ServiceRecorder.St}

theorem laterEit_events (e : Option Eit) :
    Rel (fun a b => b = (laterEit T a.1, laterEvent T a.2)) (ServiceRecorder.getEvent e)
      (ServiceRecorder.getEvent (e.map (laterEit T))) := by
  match e with
  | none => exact rfl
  | some ⟨sid, tsid, nid, []⟩ => exact rfl
  | some ⟨sid, tsid, nid, ev :: evs⟩ => exact rfl

theorem record_handle (o : ServiceRecorder.Opt) (l : Int) (t : Table) (h : RecLater T L s s') :
    Rel (RecLater T L) (ServiceRecorder.handleTable o l s t)
      (ServiceRecorder.handleTable o (l + L) s' (laterTable T t)) := by
  obtain ⟨sp, v, body, fp, ver⟩ := t
  cases body with
  | pat pat =>
    show Rel _ (ServiceRecorder.handlePat o s _ pat) (ServiceRecorder.handlePat o s' _ pat)
    unfold ServiceRecorder.handlePat
    refine Rel.ite Iff.rfl (fun _ => h) fun _ => ?_
    refine Rel.ite Iff.rfl (fun _ => h) fun _ => ?_
    refine Rel.ite Iff.rfl (fun _ => h) fun _ => ?_
    cases pat.pmts.find? o.sid with
    | none => exact rfl
    | some pid =>
      refine { h with pmtPid := rfl, demux := ?_ }
      show (if _ then _ else _ : PidSet).add pid = (if _ then _ else _ : PidSet).add pid
      rw [h.pmtPid, h.demux]
  | pmt pmt =>
    show Rel _ (ServiceRecorder.handlePmt o s _ pmt) (ServiceRecorder.handlePmt o s' _ pmt)
    unfold ServiceRecorder.handlePmt
    refine Rel.ite Iff.rfl (fun _ => h) fun _ => ?_
    refine Rel.ite Iff.rfl (fun _ => h) fun _ => ?_
    refine Rel.ite (by rw [h.clock.baseline.2.1]) (fun _ => ?_) fun _ => ?_
    · exact { h with clock := h.clock.setPid pmt.pcrPid }
    refine Rel.ite (by rw [h.clock.baseline.2.2]) (fun _ => ?_) fun _ => h
    exact { h with clock := h.clock.setPid pmt.pcrPid }
  | eit e =>
    show Rel _ (ServiceRecorder.handleEit o s _ e) (ServiceRecorder.handleEit o s' _ (laterEit T e))
    unfold ServiceRecorder.handleEit
    refine Rel.ite Iff.rfl (fun _ => h) fun _ => ?_
    refine Rel.ite Iff.rfl (fun _ => h) fun _ => ?_
    refine Rel.ite (by rw [show (laterEit T e).events.length = e.events.length from List.length_map ..]) (fun _ => h)
      fun _ => ?_
    exact { h with newEit := rfl }
  | tot time =>
    show Rel _ (ServiceRecorder.handleTot s _ time l) (ServiceRecorder.handleTot s' _ (time + T) (l + L))
    unfold ServiceRecorder.handleTot
    refine Rel.ite Iff.rfl (fun _ => h) fun _ => ?_
    refine (h.clock.updateTime time l).bind fun a b hab => ?_
    exact { h with clock := .inl hab }
  | _ => exact h

theorem record_tick (p : Packet) (h : RecLater T L s s') :
    Rel (RecLater T L) (ServiceRecorder.tick s p) (ServiceRecorder.tick s' p) := by
  unfold ServiceRecorder.tick
  refine Rel.ite (by rw [h.clock.baseline.2.1, h.clock.baseline.2.2]) (fun _ => ?_) fun _ => h
  cases p.pcr with
  | none => exact h
  | some pcr =>
    refine (h.clock.updatePcr pcr).bind fun a b hab => ?_
    exact { h with clock := hab }

theorem RecLater.now (h : RecLater T L s s') (hrec : s.recording = true) (l : Int) :
    Rel (fun a b => b = a + T) (s.clock.now l) (s'.clock.now (l + L)) := by
  rcases h.clock with e | ⟨_, _, hn⟩
  · rw [e, now_later]
    cases s.clock.now l <;> exact rfl
  · exact absurd hrec hn

theorem record_chunk (pos : Nat) (l : Int) (h : RecLater T L s s') (hrec : s.recording = true) :
    Rel (fun a b => b = a.map (laterTr T)) (ServiceRecorder.onEndOfChunk s pos l)
      (ServiceRecorder.onEndOfChunk s' pos (l + L)) := by
  refine (h.now hrec l).bind fun a b hab => ?_
  subst hab
  refine Rel.ite (by rw [h.started]) (fun _ => ?_) fun _ => ?_
  · rw [h.eit]
    refine (laterEit_events s.eit).bind fun a b hab => ?_
    subst hab
    rw [h.ring]
    exact rfl
  · rw [h.ring]
    exact rfl

theorem record_expand (l : Int) (h : RecLater T L s s') (hrec : s.recording = true) : ∀ ops,
    Rel (fun a b => b = a.map (laterTr T)) (ServiceRecorder.expand s l ops) (ServiceRecorder.expand s' (l + L) ops)
  | [] => rfl
  | op :: ops => by
    cases op with
    | notify pos =>
      refine (record_chunk pos l h hrec).bind fun a b hab => ?_
      subst hab
      refine (record_expand l h hrec ops).bind fun a b hab => ?_
      subst hab
      show _ = _
      simp only [List.map_append, List.map_cons, List.cons_append]
      rfl
    | _ =>
      refine (record_expand l h hrec ops).bind fun a b hab => ?_
      subst hab
      exact rfl

/-- The relation between results. -/
def RecAlike (T L : Int) (a b : ServiceRecorder.St × List ServiceRecorder.Tr) : Prop :=
  RecLater T L a.1 b.1 ∧ b.2 = a.2.map (laterTr T)

theorem laterEvent_end (ev : Event) :
    ServiceRecorder.endTime (laterEvent T ev) = ServiceRecorder.endTime ev + T := by
  unfold ServiceRecorder.endTime laterEvent
  simp only
  omega

theorem record_preparing (o : ServiceRecorder.Opt) {i i' : ServiceRecorder.Input} (hi : LaterRec T L i i')
    (h : RecLater T L s s') :
    Rel (RecAlike T L) (ServiceRecorder.onPreparing o s i) (ServiceRecorder.onPreparing o s' i') := by
  unfold ServiceRecorder.onPreparing
  refine Rel.ite (by rw [h.clock.baseline.1, h.newEit]; cases s.newEit <;> exact Iff.rfl) (fun hc => ?_)
    fun _ => ⟨h, rfl⟩
  have hcl : s'.clock = laterClock T L s.clock := by
    rcases h.clock with e | ⟨_, hn, _⟩
    · exact e
    · simp only [Clock.isReady, ClockBaseline.isReady, hn, Bool.and_false, Bool.false_and, Bool.false_eq_true] at hc
  have hn : Rel (fun a b => b = a + T) (s.clock.now i.nowLocal) (s'.clock.now i'.nowLocal) := by
    rw [hi.nowLocal, hcl, now_later]
    cases s.clock.now i.nowLocal <;> exact rfl
  refine hn.bind fun a b hab => ?_
  subst hab
  rw [h.ring]
  refine Rel.bind_same fun _ => ?_
  refine Rel.bind_same fun _ => ?_
  show Rel _ (ServiceRecorder.getEvent s.newEit >>= _) (ServiceRecorder.getEvent s'.newEit >>= _)
  rw [h.newEit]
  refine (laterEit_events s.newEit).bind fun e e' he => ?_
  subst he
  refine Rel.ite ?_ (fun _ => ?_) fun _ => ?_
  case refine_2 =>
    exact ⟨⟨h.demux, by first | exact rfl | exact h.ring, .inl hcl, rfl, by first | exact rfl | exact h.newEit, rfl,
      h.pmtPid, rfl, rfl, fun _ => rfl⟩, rfl⟩
  case refine_3 =>
    exact ⟨⟨h.demux, by first | exact rfl | exact h.ring, .inl hcl, rfl, by first | exact rfl | exact h.newEit, rfl,
      h.pmtPid, rfl, rfl, fun _ => rfl⟩, rfl⟩
  rw [laterEvent_end]
  show (_ || decide (a + T < ServiceRecorder.endTime e.2 + T)) = true ↔ (_ || decide (a < ServiceRecorder.endTime e.2)) = true
  rw [show decide (a + T < ServiceRecorder.endTime e.2 + T) = decide (a < ServiceRecorder.endTime e.2) from
    decide_eq_decide.mpr (by omega)]
  exact Iff.rfl

theorem record_eit (h : RecLater T L s s') :
    Rel (fun a b => b.1 = a.1 ∧ b.2.1 = a.2.1.map (laterEit T) ∧ RecLater T L a.2.2 b.2.2 ∧
      a.2.2.recording = s.recording) (ServiceRecorder.updateEit s) (ServiceRecorder.updateEit s') := by
  unfold ServiceRecorder.updateEit
  rw [h.newEit]
  cases hn : s.newEit with
  | none => exact ⟨rfl, h.eit, h, rfl⟩
  | some n =>
    show Rel _ (ServiceRecorder.getEvent s.eit >>= _) (ServiceRecorder.getEvent s'.eit >>= _)
    rw [h.eit]
    refine (laterEit_events s.eit).bind fun e e' he => ?_
    subst he
    refine (laterEit_events (some n)).bind fun f f' hf => ?_
    subst hf
    refine Rel.ite Iff.rfl (fun _ => ?_) fun _ => ?_
    · exact ⟨rfl, rfl, ⟨h.demux, h.ring, h.clock, h.pos, rfl, rfl, h.pmtPid, h.recording, h.started, h.time⟩, rfl⟩
    · exact ⟨rfl, rfl, ⟨h.demux, h.ring, h.clock, h.pos, rfl, rfl, h.pmtPid, h.recording, h.started, h.time⟩, rfl⟩

theorem record_event (h : RecLater T L s s') (hrec : s.recording = true) (now : Int) (changed : Bool) (eit newEit : Option Eit) :
    Rel (fun a b => RecAlike T L a b ∧ a.1.recording = true) (ServiceRecorder.updateEvent s now changed eit newEit)
      (ServiceRecorder.updateEvent s' (now + T) changed (eit.map (laterEit T)) (newEit.map (laterEit T))) := by
  unfold ServiceRecorder.updateEvent
  refine Rel.ite (by rw [h.started]) (fun _ => ?_) fun _ => ?_
  · refine Rel.ite Iff.rfl (fun _ => ?_) fun _ => ?_
    · refine (laterEit_events eit).bind fun e e' he => ?_
      subst he
      refine (laterEit_events newEit).bind fun f f' hf => ?_
      subst hf
      refine ⟨⟨⟨h.demux, h.ring, h.clock, by show s'.ring.ringPos = _; rw [h.ring], h.eit, h.newEit, h.pmtPid,
        h.recording, h.started, fun _ => rfl⟩, ?_⟩, hrec⟩
      show _ = _
      simp only [h.ring]
      rfl
    · refine (laterEit_events eit).bind fun e e' he => ?_
      subst he
      refine Rel.ite Iff.rfl (fun _ => ⟨⟨h, rfl⟩, hrec⟩) fun _ => ?_
      have hend : ServiceRecorder.endTime (laterEvent T e.2) = ServiceRecorder.endTime e.2 + T := laterEvent_end e.2
      refine Rel.ite (by simp only [hend]; omega) (fun _ => ?_) fun _ => ⟨⟨h, rfl⟩, hrec⟩
      refine ⟨⟨⟨h.demux, h.ring, h.clock, by show s'.ring.ringPos = _; rw [h.ring], h.eit, h.newEit, h.pmtPid,
        h.recording, rfl, fun _ => hend⟩, ?_⟩, hrec⟩
      show _ = _
      simp only [h.ring, hend]
      rfl
  · refine Rel.ite Iff.rfl (fun _ => ?_) fun _ => ⟨⟨h, rfl⟩, hrec⟩
    refine (laterEit_events newEit).bind fun f f' hf => ?_
    subst hf
    refine ⟨⟨⟨h.demux, h.ring, h.clock, h.pos, h.eit, h.newEit, h.pmtPid, h.recording, rfl, h.time⟩, ?_⟩, hrec⟩
    show _ = _
    simp only [h.pos, h.time hrec]
    rfl

theorem record_recording {i i' : ServiceRecorder.Input} (hi : LaterRec T L i i') (h : RecLater T L s s')
    (hrec : s.recording = true) :
    Rel (fun a b => b.1 = a.1 ∧ RecAlike T L a.2 b.2) (ServiceRecorder.onRecording s i)
      (ServiceRecorder.onRecording s' i') := by
  unfold ServiceRecorder.onRecording
  rw [hi.nowLocal]
  refine (h.now hrec i.nowLocal).bind fun now now' hn => ?_
  subst hn
  refine (record_eit h).bind fun a b hab => ?_
  obtain ⟨ch, eit, s1⟩ := a
  obtain ⟨ch', eit', s1'⟩ := b
  obtain ⟨h1, h2, h3, h4⟩ := hab
  cases h1
  cases h2
  show Rel _ _ (ServiceRecorder.updateEvent s1' (now + T) ch (eit.map (laterEit T)) s'.newEit >>= _)
  rw [h.newEit]
  refine (record_event h3 (h4.trans hrec) now ch eit s.newEit).bind fun a b hab => ?_
  obtain ⟨s2, out⟩ := a
  obtain ⟨s2', out'⟩ := b
  obtain ⟨⟨h5, h6⟩, h7⟩ := hab
  cases h6
  show Rel _ (RingFileSink.handlePacket s2.ring i.bytes >>= _) (RingFileSink.handlePacket s2'.ring i'.bytes >>= _)
  rw [show s2'.ring = s2.ring from h5.ring, hi.bytes]
  refine Rel.bind_same fun r => ?_
  obtain ⟨ok, ring⟩ := r
  show Rel _ (ServiceRecorder.expand s2 i.chunkLocal (ring.log.drop s2.ring.log.length) >>= _)
    (ServiceRecorder.expand s2' i'.chunkLocal (ring.log.drop s2.ring.log.length) >>= _)
  rw [hi.chunkLocal]
  refine (record_expand i.chunkLocal h5 h7 _).bind fun ops ops' ho => ?_
  subst ho
  refine ⟨rfl, ⟨h5.demux, rfl, h5.clock, h5.pos, h5.eit, h5.newEit, h5.pmtPid, h5.recording, h5.started, h5.time⟩, ?_⟩
  show _ = _
  simp only [List.map_append]

theorem record_step (o : ServiceRecorder.Opt) {i i' : ServiceRecorder.Input} (hi : LaterRec T L i i')
    (h : RecLater T L s s') :
    Rel (fun a b => RecLater T L a.1 b.1 ∧ b.2.more = a.2.more ∧ b.2.out = a.2.out.map (laterTr T))
      (ServiceRecorder.step o s i) (ServiceRecorder.step o s' i') := by
  unfold ServiceRecorder.step
  rw [hi.packet, hi.tables, hi.totLocal]
  refine (record_tick i.packet h).bind fun s s' h => ?_
  refine (feedDemux_rel (R := RecLater T L) (T := T) (fun s s' h => h.demux)
    (fun s s' t h => record_handle o i.totLocal t h) _ _ _ _ h).bind fun a b hab => ?_
  obtain ⟨s, x⟩ := a
  obtain ⟨s', y⟩ := b
  obtain ⟨h, _⟩ := hab
  simp only at h
  refine Rel.ite (by rw [h.recording]) (fun hrec => ?_) fun _ => ?_
  · refine (record_recording hi h hrec).bind fun a b hab => ?_
    obtain ⟨ok, s, out⟩ := a
    obtain ⟨ok', s', out'⟩ := b
    obtain ⟨h1, h2, h3⟩ := hab
    exact ⟨h2, h1, h3⟩
  · refine (record_preparing o hi h).bind fun a b hab => ?_
    obtain ⟨s, out⟩ := a
    obtain ⟨s', out'⟩ := b
    obtain ⟨h2, h3⟩ := hab
    exact ⟨h2, rfl, h3⟩

end

/-- The relation between the histories of record-service. -/
def RecTold (T L : Int) (a b : ServiceRecorder.Hist) : Prop :=
  RecLater T L a.st b.st ∧ b.trace = a.trace.map (laterTr T)

theorem recorder_rel (T L : Int) (o : ServiceRecorder.Opt) :
    SinkRel (LaterRec T L) (RecTold T L) (ServiceRecorder.sink o) (ServiceRecorder.sink o) where
  start h h' hh := by
    obtain ⟨h1, h2⟩ := hh
    have hk : ∀ ok r, Rel (fun a b => b.1 = a.1 ∧ RecTold T L a.2 b.2)
        (if ok = true then
          .ok (true, { h with
            st := { h.st with ring := r }, trace := h.trace ++ (r.log.drop h.st.ring.log.length).map .op ++ [.msg .start] })
         else .ok (false, { h with st := { h.st with ring := r }, trace := h.trace ++ (r.log.drop h.st.ring.log.length).map .op })
         : Except Fault (Bool × ServiceRecorder.Hist))
        (if ok = true then
          .ok (true, { h' with
            st := { h'.st with ring := r }, trace := h'.trace ++ (r.log.drop h'.st.ring.log.length).map .op ++ [.msg .start] })
         else .ok (false, { h' with
           st := { h'.st with ring := r }, trace := h'.trace ++ (r.log.drop h'.st.ring.log.length).map .op })) := by
      intro ok r
      have hm : ∀ l : List RingFileSink.Op, (l.map ServiceRecorder.Tr.op).map (laterTr T) = l.map ServiceRecorder.Tr.op := by
        intro l
        rw [List.map_map]
        rfl
      refine Rel.ite Iff.rfl (fun _ => ⟨rfl, ⟨h1.demux, rfl, h1.clock, h1.pos, h1.eit, h1.newEit, h1.pmtPid,
        h1.recording, h1.started, h1.time⟩, ?_⟩) fun _ => ⟨rfl, ⟨h1.demux, rfl, h1.clock, h1.pos, h1.eit, h1.newEit,
        h1.pmtPid, h1.recording, h1.started, h1.time⟩, ?_⟩
      · show _ = _
        rw [List.map_append, List.map_append, hm, ← h2, h1.ring]
        rfl
      · show _ = _
        rw [List.map_append, hm, ← h2, h1.ring]
    show Rel _ (ServiceRecorder.start o h) (ServiceRecorder.start o h')
    unfold ServiceRecorder.start
    refine Rel.ite Iff.rfl (fun _ => ?_) fun _ => ?_
    · rw [show RingFileSink.setPosition h'.st.ring o.startPos = RingFileSink.setPosition h.st.ring o.startPos by rw [h1.ring]]
      refine Rel.bind_same fun r => ?_
      exact hk r.1 r.2
    · have := hk true h.st.ring
      rw [show h'.st.ring.log = h.st.ring.log by rw [h1.ring]] at this
      rw [h1.ring]
      exact this
  handle h h' i i' hh hi := by
    obtain ⟨h1, h2⟩ := hh
    refine (record_step o hi h1).bind fun a b hab => ?_
    obtain ⟨h3, h4, h5⟩ := hab
    refine ⟨h4, h3, ?_⟩
    show _ = _
    rw [List.map_append, ← h2, ← h5]
  finish h h' hh := by
    obtain ⟨h1, h2⟩ := hh
    refine ⟨h1, ?_⟩
    show _ = _
    rw [List.map_append, ← h2, h1.ring]
    rfl
  exitCode h h' hh := by
    show RingFileSink.sink.exitCode h'.st.ring = RingFileSink.sink.exitCode h.st.ring
    rw [hh.1.ring]

section
variable {w : World} {ps : List (List UInt8)} (hr : Reads w ps) (T L : Int)
include hr

theorem record_later (o : ServiceRecorder.Opt) :
    recordService (later T L w) o = (recordService w o).map (laterEnded T) := by
  have hb := via_rel (H := fun (x x' : ServiceFilter.Out) => x' = x) (f := betweenRec w.codec w.tables2 w.times)
    (f' := betweenRec w.codec (later T L w).tables2 (later T L w).times) (recorder_rel T L o)
    (fun n q q' h => by subst h; exact ⟨rfl, rfl, rfl, rfl, rfl, rfl⟩)
  unfold recordService
  refine Rel.eq ?_
  cases hi : ServiceRecorder.init o w.file with
  | error e =>
    show Rel _ _ ((ServiceRecorder.init o w.file).mapError _ >>= _)
    rw [hi]
    exact rfl
  | ok h0 =>
    have h0t : RecTold T L h0 h0 := by
      obtain ⟨r, hr, he⟩ := bind_ok_iff.mp hi
      cases he
      exact ⟨⟨rfl, rfl, .inr ⟨rfl, rfl, by simp⟩, rfl, rfl, rfl, rfl, rfl, rfl, by simp⟩, rfl⟩
    show Rel _ _ ((ServiceRecorder.init o w.file).mapError _ >>= _)
    rw [hi]
    have hf := feed_rel hr (reads_later hr T L) (T := T) (service_rel hb T o.sid) (packet_later (w := w) T L)
      (s := (ServiceFilter.init { sid := o.sid }, 0, h0)) (s' := (ServiceFilter.init { sid := o.sid }, 0, h0))
      ⟨rfl, rfl, h0t⟩
      (fun r => .ok { code := r.1, docs := messages r.2.2.2.trace, ops := operations r.2.2.2.trace })
      (fun r => .ok { code := r.1, docs := messages r.2.2.2.trace, ops := operations r.2.2.2.trace }) fun n a b hab => by
        obtain ⟨_, _, _, h2⟩ := hab
        show _ = _
        rw [h2]
        have e1 : messages (a.2.2.trace.map (laterTr T)) = (messages a.2.2.trace).map (laterDoc T) := by
          unfold messages
          rw [List.filterMap_map, List.map_filterMap]
          congr 1
          funext x
          cases x <;> rfl
        have e2 : operations (a.2.2.trace.map (laterTr T)) = operations a.2.2.trace := by
          unfold operations
          rw [List.filterMap_map]
          congr 1
          funext x
          cases x <;> rfl
        show Ended.mk _ _ (messages (a.2.2.trace.map (laterTr T))) (operations (a.2.2.trace.map (laterTr T))) = _
        rw [e1, e2]
        rfl
    show Rel _ (feed w _ _ >>= _) (feed (later T L w) _ _ >>= _)
    have : ∀ {x y : Except Stop Ended}, y = x.map (laterEnded T) → Rel (fun a b => b = laterEnded T a) x y := by
      intro x y h
      subst h
      cases x <;> exact rfl
    exact this hf

end

end Mirakc.Main
