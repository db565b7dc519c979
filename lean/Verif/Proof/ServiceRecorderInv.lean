import Verif.Proof.ServiceRecorderRun
/-
The history invariant of `ServiceRecorder`.
-/
set_option linter.unusedSimpArgs false

namespace Mirakc.RingFileSink

theorem call_log (op : Op) (s : St) : s.log <+: (call op s).2.log := by
  unfold call
  split
  · exact List.prefix_append _ _
  · split <;> exact List.prefix_append _ _

theorem writeLoop_log (buf : List UInt8) : ∀ (rs : List Int) (n : Nat) (log : List Op),
    log <+: (writeLoop buf n log rs).2.2 := by
  intro rs
  induction rs with
  | nil => intro n log; unfold writeLoop; split <;> simp
  | cons r rs ih =>
    intro n log
    unfold writeLoop
    split
    · split
      · exact List.prefix_append _ _
      · exact (List.prefix_append _ _).trans (ih _ _)
    · exact List.prefix_refl _

theorem endChunk_log {s s' : St} {b : Bool} (h : endChunk s = .ok (b, s')) : s.log <+: s'.log := by
  unfold endChunk at h
  obtain ⟨_, _, h⟩ := bind_eq_ok h
  split at h
  · obtain ⟨_, _, h⟩ := bind_eq_ok h
    obtain ⟨_, _, h⟩ := bind_eq_ok h
    split at h
    next ok s1 e =>
    have := call_log .sync { s with chunkPos := s.chunkPos + bufferSize }
    rw [e] at this
    split at h
    · cases h; exact this.trans (List.prefix_append _ _)
    · cases h; exact this
  · cases h; exact List.prefix_refl _

theorem endRing_log (s : St) : s.log <+: (endRing s).2.log := by
  unfold endRing
  split
  · have h1 := call_log (.trunc s.ringSize) s
    split
    next ok s1 e =>
    rw [e] at h1
    split
    · have h2 := call_log (.seek 0) s1
      split
      next ok2 s2 e2 =>
      rw [e2] at h2
      split <;> exact h1.trans h2
    · exact h1
  · exact List.prefix_refl _

theorem flush_log {s s' : St} {b : Bool} (h : flush s = .ok (b, s')) : s.log <+: s'.log := by
  unfold flush at h
  obtain ⟨_, _, h⟩ := bind_eq_ok h
  have h1 := writeLoop_log s.buf s.results 0 s.log
  split at h
  next rs log e => rw [e] at h1; cases h; exact h1
  next rs log e =>
  rw [e] at h1
  obtain ⟨⟨ok, s2⟩, h2, h⟩ := bind_eq_ok h
  have h3 := endChunk_log h2
  dsimp only at h
  split at h
  · simp only [Except.ok.injEq] at h
    have h4 := endRing_log s2
    rw [h] at h4
    exact (h1.trans h3).trans h4
  · cases h; exact h1.trans h3

theorem handleLoop_log : ∀ (fuel : Nat) {s s' : St} {b : Bool} {p : List UInt8},
    handleLoop fuel s p = .ok (b, s') → s.log <+: s'.log := by
  intro fuel
  induction fuel with
  | zero => intro s s' b p h; cases h
  | succ n ih =>
    intro s s' b p h
    unfold handleLoop at h
    obtain ⟨⟨m, s1⟩, h1, h⟩ := bind_eq_ok h
    have e1 : s1.log = s.log := by
      unfold fillBuffer at h1
      obtain ⟨_, _, h1⟩ := bind_eq_ok h1
      obtain ⟨_, _, h1⟩ := bind_eq_ok h1
      cases h1; rfl
    rw [← e1]
    have fin : ∀ (x : Bool × St), s1.log <+: x.2.log →
        (if x.1 = true then
          if (p.drop m).length > 0 then handleLoop n x.2 (p.drop m) else .ok (true, x.2)
        else .ok (false, { x.2 with broken := true })) = .ok (b, s') → s1.log <+: s'.log := by
      intro x e2 h
      split at h
      · split at h
        · exact e2.trans (ih h)
        · cases h; exact e2
      · cases h; exact e2
    dsimp only at h
    split at h
    · obtain ⟨x, h2, h⟩ := bind_eq_ok h
      exact fin x (flush_log h2) h
    · exact fin (true, s1) (List.prefix_refl _) h

theorem handlePacket_log {s s' : St} {b : Bool} {p : List UInt8}
    (h : handlePacket s p = .ok (b, s')) : s'.log = s.log ++ s'.log.drop s.log.length := by
  obtain ⟨t, ht⟩ := handleLoop_log 3 h
  rw [← ht]; simp

end Mirakc.RingFileSink

namespace Mirakc.ServiceRecorder
open Mirakc.Spec Mirakc.Spec.ServiceRecorder
open Mirakc.Spec.ServiceFilter (latest validPmt validTot usablePat)
open Mirakc.ServiceFilter (latest_append latest_some latest_none latest_mem)

theorem step_cases {o : Opt} {s s' : St} {i : Input} {it : Item} {items : List Item}
    (ht : Told o (clockCalls o.sid [] items) (received items) s)
    (hs : step o s i = .ok (s', it)) :
    ∃ sf, Frame s sf ∧ it.input = i ∧
      Told o (clockCalls o.sid [] (items ++ [it])) (received (items ++ [it])) sf ∧
      ((s.recording = false ∧ it.stored = false ∧ it.more = true ∧
          onPreparing o sf i = .ok (s', it.out)) ∨
       (s.recording = true ∧ it.stored = true ∧ onRecording sf i = .ok (it.more, s', it.out))) := by
  unfold step at hs
  obtain ⟨s1, h1, hs⟩ := bind_eq_ok hs
  obtain ⟨⟨sf, log⟩, h2, hs⟩ := bind_eq_ok hs
  obtain ⟨k1, k2⟩ := feed_spec ht h1 h2
  have hk : ∀ x : Item, x.input = i → x.handled = log →
      Told o (clockCalls o.sid [] (items ++ [x])) (received (items ++ [x])) sf := by
    intro x e1 e2
    rw [clockCalls_append, received_append]
    simp only [clockCalls, received, List.flatMap_cons, List.flatMap_nil, List.append_nil, e1, e2,
      List.nil_append] at k1 ⊢
    exact k1
  refine ⟨sf, k2, ?_⟩
  dsimp only at hs
  by_cases hr : sf.recording = true
  · rw [if_pos hr] at hs
    obtain ⟨⟨ok, s3, out⟩, h3, hs⟩ := bind_eq_ok hs
    cases hs
    exact ⟨rfl, hk _ rfl rfl, .inr ⟨by rw [← k2.recording]; exact hr, rfl, h3⟩⟩
  · rw [if_neg hr] at hs
    obtain ⟨⟨s3, out⟩, h3, hs⟩ := bind_eq_ok hs
    cases hs
    exact ⟨rfl, hk _ rfl rfl, .inl ⟨by rw [← k2.recording]; simpa using hr, rfl, rfl, h3⟩⟩

/-- Everything sent and done during a piece of history. -/
def outs (items : List Item) : List Tr := items.flatMap (·.out)

theorem outs_append (a b : List Item) : outs (a ++ b) = outs a ++ outs b := by simp [outs]
theorem outs_one (it : Item) : outs [it] = it.out := by simp [outs]

theorem stored_append (a b : List Item) : stored (a ++ b) = stored a ++ stored b := by
  simp [stored]

/-- The record of the current event boundary, read off the messages. -/
def boundary (ms : List Msg) : Option (Int × Nat) :=
  (ends ms).getLast?.or (chunkRecords ms).head?

/-- The phase a reader of the messages is in. -/
def PhaseOf (s : St) (ph : Phase) : Prop :=
  (s.recording = false ∧ ph = .preparing) ∨
  (s.recording = true ∧ s.started = false ∧ ph = .idle) ∨
  (s.recording = true ∧ s.started = true ∧ ∃ e ev, s.eit = some e ∧ e.events.head? = some ev ∧
    ph = .event ev.eventId)

theorem accepts_snoc {σ P : Type} {snk : Sink P σ} {s s1 s2 : σ} {ps : List P} {p : P}
    (h : Accepts snk s ps s1) (h2 : snk.handle s1 p = .ok (true, s2)) :
    Accepts snk s (ps ++ [p]) s2 := by
  induction h with
  | nil => exact .cons h2 .nil
  | cons h _ ih => exact .cons h (ih h2)

theorem consumes_snoc {σ P : Type} {snk : Sink P σ} {s s1 s2 : σ} {ps : List P} {p : P} {b : Bool}
    (h : Accepts snk s ps s1) (h2 : snk.handle s1 p = .ok (b, s2)) :
    Consumes snk s (ps ++ [p]) (ps ++ [p]) s2 := by
  induction h with
  | nil =>
    cases b with
    | true => exact .accept h2 .eof
    | false => exact .refuse h2
  | cons h _ ih => exact .accept h (ih h2)

theorem read_append (ph : Phase) (a b : List Msg) :
    ph.read (a ++ b) = (ph.read a).bind (fun ph => ph.read b) := by
  induction a generalizing ph with
  | nil => rfl
  | cons m a ih =>
    simp only [List.cons_append, Phase.read]
    cases ph.next m with
    | none => rfl
    | some ph' => exact ih ph'

theorem ends_append (a b : List Msg) : ends (a ++ b) = ends a ++ ends b := by simp [ends]
theorem chunkRecords_append (a b : List Msg) :
    chunkRecords (a ++ b) = chunkRecords a ++ chunkRecords b := by simp [chunkRecords]

theorem boundary_append_none {a b : List Msg} {x : Int × Nat} (h : boundary a = some x)
    (hb : ends b = []) : boundary (a ++ b) = some x := by
  unfold boundary at *
  rw [ends_append, hb, List.append_nil, chunkRecords_append]
  cases h1 : (ends a).getLast? with
  | some y => rw [h1] at h; exact h
  | none =>
    rw [h1] at h
    simp only [Option.none_or] at h ⊢
    cases h2 : chunkRecords a with
    | nil => rw [h2] at h; cases h
    | cons y l => rw [h2] at h; exact h

theorem boundary_append_end {a b : List Msg} {x : Int × Nat} (hb : (ends b).getLast? = some x) :
    boundary (a ++ b) = some x := by
  unfold boundary
  rw [ends_append, List.getLast?_append, hb]; rfl

/-- Messages from notifications do not change the phase. -/
theorem expandTo_read {s : St} {now : Int} {ops : List RingFileSink.Op} {tr : List Tr} {ph : Phase}
    (h : ExpandTo s now ops tr) (hr : s.recording = true) (hp : PhaseOf s ph) :
    ph.read (messages tr) = some ph := by
  induction h with
  | nil => rfl
  | @idle pos ops tr hst h0 ih =>
    rcases hp with ⟨h, _⟩ | ⟨_, _, rfl⟩ | ⟨_, h, _⟩
    · rw [hr] at h; cases h
    · simp only [messages, List.filterMap_cons, Phase.read, Phase.next] at ih ⊢; exact ih
    · rw [hst] at h; cases h
  | @event pos ops tr e ev hst he hev h0 ih =>
    rcases hp with ⟨h, _⟩ | ⟨_, h, _⟩ | ⟨_, _, e', ev', h1, h2, rfl⟩
    · rw [hr] at h; cases h
    · rw [hst] at h; cases h
    · rw [he] at h1; cases h1
      rw [hev] at h2; cases h2
      simp only [messages, List.filterMap_cons, Phase.read, Phase.next, if_true] at ih ⊢; exact ih
  | @other op ops tr hn h0 ih =>
    simp only [messages, List.filterMap_cons] at ih ⊢; exact ih

theorem expandTo_ends {s : St} {now : Int} {ops : List RingFileSink.Op} {tr : List Tr}
    (h : ExpandTo s now ops tr) : ends (messages tr) = [] := by
  induction h with
  | nil => rfl
  | idle _ _ ih => simp only [ends, messages, List.filterMap_cons] at ih ⊢; exact ih
  | event _ _ _ _ ih => simp only [ends, messages, List.filterMap_cons] at ih ⊢; exact ih
  | other _ _ ih => simp only [ends, messages, List.filterMap_cons] at ih ⊢; exact ih

theorem evStep_read {s s2 : St} {e0 : Eit} {ev0 : Event} {now : Int} {evs : List Msg} {ph : Phase}
    (h : EvStep s e0 ev0 now s2 evs) (hr : s.recording = true) (he : s.eit = some e0)
    (hev : e0.events.head? = some ev0) (hp : PhaseOf s ph) :
    ∃ ph', ph.read evs = some ph' ∧ PhaseOf s2 ph' := by
  have hp' : (s.started = false → ph = .idle) ∧ (s.started = true → ph = .event ev0.eventId) := by
    rcases hp with ⟨h, _⟩ | ⟨_, h, rfl⟩ | ⟨_, h, e', ev', h1, h2, rfl⟩
    · rw [hr] at h; cases h
    · exact ⟨fun _ => rfl, fun k => absurd (h.symm.trans k) (by simp)⟩
    · rw [he] at h1; cases h1
      rw [hev] at h2; cases h2
      exact ⟨fun k => absurd (h.symm.trans k) (by simp), fun _ => rfl⟩
  cases h with
  | switch h1 h2 h3 h4 =>
    rw [hp'.2 h1]
    exact ⟨_, by simp [Phase.read, Phase.next], .inr (.inr ⟨hr, h1, _, _, rfl, h3, rfl⟩)⟩
  | finish h1 h2 h3 h4 h5 =>
    rw [hp'.2 h1]
    exact ⟨_, by simp [Phase.read, Phase.next, h4], .inr (.inl ⟨hr, rfl, rfl⟩)⟩
  | go h1 h2 h3 h4 h5 =>
    rw [hp'.2 h1]
    exact ⟨_, rfl, .inr (.inr ⟨hr, h1, _, _, rfl, h3, by rw [h4]⟩)⟩
  | begin h1 h2 h3 h4 =>
    rw [hp'.1 h1]
    exact ⟨_, rfl, .inr (.inr ⟨hr, rfl, _, _, rfl, h3, rfl⟩)⟩
  | wait h1 h2 h3 h4 =>
    rw [hp'.1 h1]
    exact ⟨_, rfl, .inr (.inl ⟨hr, h1, rfl⟩)⟩

theorem evStep_boundary {s s2 : St} {e0 : Eit} {ev0 : Event} {now : Int} {evs ms : List Msg}
    (h : EvStep s e0 ev0 now s2 evs) (hb : boundary ms = some (s.boundTime, s.boundPos)) :
    boundary (ms ++ evs) = some (s2.boundTime, s2.boundPos) := by
  cases h with
  | switch => exact boundary_append_end rfl
  | finish => exact boundary_append_end rfl
  | go => simpa using hb
  | begin => exact boundary_append_none hb rfl
  | wait => simpa using hb

theorem evStep_chunks {s s2 : St} {e0 : Eit} {ev0 : Event} {now : Int} {evs : List Msg}
    (h : EvStep s e0 ev0 now s2 evs) : chunks evs = 0 ∧ ∀ t p, Msg.chunk t p ∉ evs := by
  cases h <;> simp [chunks]

/-- What is known after a piece of history. -/
structure Inv (o : Opt) (r0 : RingFileSink.St) (items : List Item) (s : St) : Prop where
  told : Told o (clockCalls o.sid [] items) (received items) s
  prep : s.recording = false → stored items = [] ∧ s.ring = r0 ∧ s.started = false ∧
    s.eit = none ∧ ¬ HasBeenReady o.sid items ∧ outs items = []
  record : s.recording = true → HasBeenReady o.sid items ∧ s.newEit = none ∧
    (∃ e ev, s.eit = some e ∧ e.events.head? = some ev) ∧
    boundary (messages (outs items)) = some (s.boundTime, s.boundPos) ∧
    chunks (messages (outs items)) = (announced (fileOps (outs items))).length + 1
  consumes : Consumes RingFileSink.sink r0 (stored items) (stored items) s.ring
  accepts : (∀ x ∈ items, x.more = true) → Accepts RingFileSink.sink r0 (stored items) s.ring
  ops : s.ring.log = r0.log ++ fileOps (outs items)
  phase : ∃ ph, Phase.preparing.read (messages (outs items)) = some ph ∧ PhaseOf s ph

theorem hasBeenReady_mono {sid : Nat} {a b : List Item} (h : HasBeenReady sid a) :
    HasBeenReady sid (a ++ b) := by
  obtain ⟨pre, post, rfl, h⟩ := h
  exact ⟨pre, post ++ b, by simp, h⟩

theorem ready_iff {o : Opt} {items : List Item} {s : St}
    (h : Told o (clockCalls o.sid [] items) (received items) s) (he : s.eit = none) :
    Ready o.sid items ↔ (s.clock.isReady = true ∧ s.newEit.isSome = true) := by
  have h1 := h.clock
  have h2 := h.eit
  rw [he, Option.or_none] at h2
  unfold Ready ClockIs
  rw [h1, ← h2]
  constructor
  · rintro ⟨⟨c, e, hr⟩, x, hx⟩; cases e; exact ⟨hr, by rw [hx]; rfl⟩
  · rintro ⟨hr, hx⟩; exact ⟨⟨_, rfl, hr⟩, Option.isSome_iff_exists.1 hx⟩

theorem inv_step {o : Opt} {r0 : RingFileSink.St} {items : List Item} {s s' : St} {i : Input}
    {it : Item} (hi : Inv o r0 items s) (hm : ∀ x ∈ items, x.more = true)
    (hs : step o s i = .ok (s', it)) : Inv o r0 (items ++ [it]) s' := by
  obtain ⟨sf, hf, hin, ht, hc⟩ := step_cases hi.told hs
  obtain ⟨ph, hph, hpo⟩ := hi.phase
  rcases hc with ⟨hr, hst, hmore, hp⟩ | ⟨hr, hst, hp⟩
  · obtain ⟨p1, p2, p3, p4, p5, p6⟩ := hi.prep hr
    have hrf : sf.recording = false := by rw [hf.recording]; exact hr
    have hef : sf.eit = none := by rw [hf.eit]; exact p4
    have hring : sf.ring = r0 := by rw [hf.ring]; exact p2
    have hst' : stored (items ++ [it]) = [] := by
      rw [stored_append, p1]; simp [stored, hst]
    have hready := ready_iff ht hef
    rcases prepare_spec hp with ⟨q1, q2, q3⟩ | ⟨q1, e, ev, now, q2, q3, q4, q5, q6, q7⟩
    · subst q2
      have ho : outs (items ++ [it]) = [] := by rw [outs_append, p6, outs_one, q3]; rfl
      refine ⟨ht, fun _ => ⟨hst', hring, ?_, hef, ?_, ho⟩, ?_, ?_, ?_, ?_, ?_⟩
      · rw [hf.started]; exact p3
      · rintro ⟨pre, post, e, h⟩
        rcases List.eq_nil_or_concat post with rfl | ⟨post', x, rfl⟩
        · rw [List.append_nil] at e; rw [← e] at h; exact q1 (hready.1 h)
        · rw [List.concat_eq_append, ← List.append_assoc] at e
          have := List.append_inj' e rfl
          exact p5 ⟨pre, post', this.1, h⟩
      · intro h; rw [hrf] at h; cases h
      · rw [hst', hring]; exact .eof
      · intro _; rw [hst', hring]; exact .nil
      · rw [ho, hring]; simp [fileOps]
      · exact ⟨.preparing, by rw [ho]; rfl, .inl ⟨hrf, rfl⟩⟩
    · have hrdy : HasBeenReady o.sid (items ++ [it]) :=
        ⟨items ++ [it], [], by simp, hready.2 ⟨q1, by rw [q2]; rfl⟩⟩
      have heit : latest (presentEit o.sid) (received (items ++ [it])) = some e := by
        rw [← ht.eit, q2]; rfl
      have hops : fileOps it.out = [] := by
        rcases q7 with ⟨_, _, q7⟩ | ⟨_, _, q7⟩ <;> rw [q7] <;> rfl
      have hso : outs (items ++ [it]) = it.out := by rw [outs_append, p6, outs_one]; rfl
      rcases q7 with ⟨k1, k2, k3⟩ | ⟨k1, k2, k3⟩
      · subst k2
        refine ⟨⟨ht.clock, ht.pid, heit.symm⟩, by simp, fun _ => ⟨hrdy, rfl, ⟨e, ev, rfl, q3⟩, ?_, ?_⟩,
          ?_, ?_, ?_, ?_⟩
        · rw [hso, k3]; rfl
        · rw [hso, k3]; rfl
        · rw [hst', hring]; exact .eof
        · intro _; rw [hst', hring]; exact .nil
        · rw [hso, hops, hring]; simp
        · rw [hso, k3]
          exact ⟨.idle, rfl, .inr (.inl ⟨rfl, rfl, rfl⟩)⟩
      · subst k2
        refine ⟨⟨ht.clock, ht.pid, heit.symm⟩, by simp, fun _ => ⟨hrdy, rfl, ⟨e, ev, rfl, q3⟩, ?_, ?_⟩,
          ?_, ?_, ?_, ?_⟩
        · rw [hso, k3]; rfl
        · rw [hso, k3]; rfl
        · rw [hst', hring]; exact .eof
        · intro _; rw [hst', hring]; exact .nil
        · rw [hso, hops, hring]; simp
        · rw [hso, k3]
          exact ⟨.event ev.eventId, rfl, .inr (.inr ⟨rfl, rfl, e, ev, rfl, q3, rfl⟩)⟩
  · obtain ⟨p1, p2, ⟨e0, ev0, p3, p4⟩, p5, p6⟩ := hi.record hr
    have hrf : sf.recording = true := by rw [hf.recording]; exact hr
    obtain ⟨now, s2, evs, ring, ops, q1, q2, q3, q4, q5, q6⟩ :=
      record_spec (by rw [hf.eit]; exact p3) p4 hp
    obtain ⟨f1, f2, f3, f4, e, ev, f5, f6, f7⟩ := q2.frame
    obtain ⟨now2, x1, x2⟩ := expand_spec q4
    have hacc := hi.accepts hm
    have hring : sf.ring = s.ring := hf.ring
    have hst' : stored (items ++ [it]) = stored items ++ [i.bytes] := by
      rw [stored_append]; simp [stored, hst, hin]
    have hpf : PhaseOf sf ph := by
      unfold PhaseOf at hpo ⊢
      rw [hf.recording, hf.started, hf.eit]; exact hpo
    obtain ⟨ph', r1, r2⟩ := evStep_read q2 hrf (by rw [hf.eit]; exact p3) p4 hpf
    have r3 := expandTo_read x1 (by rw [f3]; exact hrf) r2
    have hms : messages (outs (items ++ [it])) = messages (outs items) ++ (evs ++ messages ops) := by
      rw [outs_append, outs_one, q6, messages_append, messages_append, messages_msg]
    have hfo : fileOps (outs (items ++ [it])) =
        fileOps (outs items) ++ ring.log.drop s.ring.log.length := by
      rw [outs_append, outs_one, q6, fileOps_append, fileOps_append, fileOps_msg,
        expandTo_fileOps x1, hring]
      rfl
    subst q5
    refine ⟨⟨?_, ?_, ?_⟩, ?_, fun _ => ⟨hasBeenReady_mono p1, f4, ⟨e, ev, f6, f7⟩, ?_, ?_⟩,
      ?_, ?_, ?_, ?_⟩
    · rw [f2]; exact ht.clock
    · rw [f2]; exact ht.pid
    · rw [f4, f6, ← ht.eit, f5]; rfl
    · intro h; simp only [f3, hrf] at h; cases h
    · rw [hms, ← List.append_assoc]
      have hb := evStep_boundary q2 (by rw [hf.boundTime, hf.boundPos]; exact p5)
      exact boundary_append_none hb (expandTo_ends x1)
    · rw [hms, hfo, chunks_append, chunks_append, (evStep_chunks q2).1, expandTo_chunks x1, p6,
        RingFileSink.announced_append, List.length_append, hring]
      omega
    · rw [hst']
      exact consumes_snoc hacc (by rw [← hring]; exact q3)
    · intro h
      rw [hst']
      refine accepts_snoc hacc ?_
      have : it.more = true := h it (by simp)
      rw [← hring, ← this]; exact q3
    · rw [hfo, ← List.append_assoc, ← hi.ops]
      rw [hring] at q3
      exact RingFileSink.handlePacket_log q3
    · refine ⟨ph', ?_, ?_⟩
      · rw [hms, read_append, hph, Option.bind_some, read_append, r1, Option.bind_some]
        exact r3
      · unfold PhaseOf at r2 ⊢; exact r2

theorem inv_reach {o : Opt} {r0 : RingFileSink.St} {items : List Item} {s : St}
    (h : Reach o { ring := r0 } items s) : Inv o r0 items s := by
  induction h with
  | nil =>
    refine ⟨⟨rfl, rfl, rfl⟩, fun _ => ⟨rfl, rfl, rfl, rfl, ?_, rfl⟩, ?_, .eof, fun _ => .nil, ?_,
      .preparing, rfl, .inl ⟨rfl, rfl⟩⟩
    · rintro ⟨pre, post, e, h⟩
      have : pre = [] := by cases pre; rfl; cases e
      subst this
      obtain ⟨⟨c, h1, h2⟩, _⟩ := h
      cases h1; cases h2
    · intro h; cases h
    · simp [outs, fileOps]
  | snoc hr hm hs ih => exact inv_step ih hm hs

end Mirakc.ServiceRecorder
