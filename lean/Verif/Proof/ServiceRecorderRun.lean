import Verif.Proof.ServiceRecorder
/-
The state machine of `ServiceRecorder`.
-/
set_option linter.unusedSimpArgs false

namespace Mirakc.ServiceRecorder
open Mirakc.Spec Mirakc.Spec.ServiceRecorder
open Mirakc.Spec.ServiceFilter (latest validPmt validTot usablePat)
open Mirakc.ServiceFilter (latest_append latest_some latest_none latest_mem)

theorem getEvent_ok {eo : Option Eit} {e : Eit} {ev : Event} (h : getEvent eo = .ok (e, ev)) :
    eo = some e ∧ e.events.head? = some ev := by
  unfold getEvent at h
  split at h
  · cases h
  · split at h
    · cases h
    · next x _ _ hl => cases h; exact ⟨rfl, by rw [hl]; rfl⟩

theorem getEvent_some {e : Eit} {ev : Event} (h : e.events.head? = some ev) :
    getEvent (some e) = .ok (e, ev) := by
  unfold getEvent
  cases hl : e.events with
  | nil => rw [hl] at h; cases h
  | cons x l => rw [hl] at h; cases h; simp only [hl]

theorem over_iff (ev : Event) (now : Int) :
    Over ev now ↔ (unspecified ev = false ∧ endTime ev ≤ now) := by
  simp [Over, unspecified, endTime]

/-- What `OnRecording` does before it hands the packet over; `e0`, `ev0` is the EIT known
before. -/
inductive EvStep (s : St) (e0 : Eit) (ev0 : Event) (now : Int) : St → List Msg → Prop
  | switch {n ev'} : s.started = true → s.newEit = some n → n.events.head? = some ev' →
      ev0.eventId ≠ ev'.eventId →
      EvStep s e0 ev0 now
        { s with eit := some n, newEit := none, boundTime := now, boundPos := s.ring.ringPos }
        [.eventEnd e0 ev0 now s.ring.ringPos, .eventStart n ev' now s.ring.ringPos]
  | finish {e ev} : s.started = true → s.newEit.or s.eit = some e → e.events.head? = some ev →
      ev.eventId = ev0.eventId → Over ev now →
      EvStep s e0 ev0 now
        { s with eit := some e, newEit := none, boundTime := ev.startTime + ev.duration * 1000,
                 boundPos := s.ring.ringPos, started := false }
        [.eventEnd e ev (ev.startTime + ev.duration * 1000) s.ring.ringPos]
  | go {e ev} : s.started = true → s.newEit.or s.eit = some e → e.events.head? = some ev →
      ev.eventId = ev0.eventId → ¬ Over ev now →
      EvStep s e0 ev0 now { s with eit := some e, newEit := none } []
  | begin {n ev'} : s.started = false → s.newEit = some n → n.events.head? = some ev' →
      ev0.eventId ≠ ev'.eventId →
      EvStep s e0 ev0 now { s with eit := some n, newEit := none, started := true }
        [.eventStart n ev' s.boundTime s.boundPos]
  | wait {e ev} : s.started = false → s.newEit.or s.eit = some e → e.events.head? = some ev →
      ev.eventId = ev0.eventId →
      EvStep s e0 ev0 now { s with eit := some e, newEit := none } []

theorem event_spec {s s1 s2 : St} {e0 : Eit} {ev0 : Event} {now : Int} {changed : Bool}
    {eit : Option Eit} {out : List Tr} (he : s.eit = some e0) (hev : e0.events.head? = some ev0)
    (h1 : updateEit s = .ok (changed, eit, s1))
    (h2 : updateEvent s1 now changed eit s.newEit = .ok (s2, out)) :
    ∃ evs, EvStep s e0 ev0 now s2 evs ∧ out = evs.map .msg := by
  -- the cases without a change
  have same : ∀ {e ev}, s.newEit.or s.eit = some e → e.events.head? = some ev →
      ev.eventId = ev0.eventId →
      updateEvent { s with eit := some e, newEit := none } now false (some e) s.newEit =
        .ok (s2, out) → ∃ evs, EvStep s e0 ev0 now s2 evs ∧ out = evs.map .msg := by
    intro e ev hk hh hid h
    simp only [updateEvent] at h
    by_cases hst : s.started = true
    · simp only [hst, if_true, Bool.false_eq_true, if_false, getEvent_some hh, ok_bind] at h
      split at h
      · next hu =>
        cases h
        exact ⟨[], hst ▸ .go hst hk hh hid (by rw [over_iff, hu]; simp), rfl⟩
      · next hu =>
        simp only [Bool.not_eq_true] at hu
        split at h
        · next ht =>
          cases h
          exact ⟨_, .finish hst hk hh hid (by rw [over_iff]; exact ⟨hu, ht⟩), rfl⟩
        · next ht =>
          cases h
          exact ⟨[], hst ▸ .go hst hk hh hid (by rw [over_iff]; exact fun h => ht h.2), rfl⟩
    · simp only [hst, if_false, Bool.false_eq_true] at h
      simp only [Bool.not_eq_true] at hst
      cases h
      exact ⟨[], hst ▸ .wait hst hk hh hid, rfl⟩
  unfold updateEit at h1
  cases hn : s.newEit with
  | none =>
    rw [hn] at h1
    simp only [Except.ok.injEq, Prod.mk.injEq] at h1
    obtain ⟨rfl, rfl, rfl⟩ := h1
    refine same (by rw [hn, he]; rfl) hev rfl ?_
    rw [he] at h2
    have : { s with eit := some e0, newEit := none } = s := by
      cases s; simp_all
    rw [this]; exact h2
  | some n =>
    rw [hn] at h1
    dsimp only at h1
    rw [he, getEvent_some hev] at h1
    simp only [ok_bind] at h1
    obtain ⟨⟨n', ev'⟩, h3, h4⟩ := bind_eq_ok h1
    obtain ⟨h5, h6⟩ := getEvent_ok h3
    cases h5
    dsimp only at h4
    split at h4
    · next hne =>
      simp only [bne_iff_ne] at hne
      simp only [Except.ok.injEq, Prod.mk.injEq] at h4
      obtain ⟨rfl, rfl, rfl⟩ := h4
      rw [hn] at h2
      simp only [updateEvent] at h2
      by_cases hst : s.started = true
      · simp only [hst, if_true, getEvent_some hev, getEvent_some h6, ok_bind] at h2
        cases h2
        have k := EvStep.switch (e0 := e0) (now := now) hst hn h6 hne
        rw [hst] at k
        exact ⟨_, k, rfl⟩
      · simp only [hst, if_true, if_false, getEvent_some h6, ok_bind, Bool.false_eq_true] at h2
        simp only [Bool.not_eq_true] at hst
        cases h2
        exact ⟨_, .begin hst hn h6 hne, rfl⟩
    · next heq =>
      simp only [bne_iff_ne, Decidable.not_not] at heq
      simp only [Except.ok.injEq, Prod.mk.injEq] at h4
      obtain ⟨rfl, rfl, rfl⟩ := h4
      exact same (by rw [hn]; rfl) h6 heq.symm h2

/-- `OnPreparing`. -/
theorem prepare_spec {o : Opt} {s s' : St} {i : Input} {out : List Tr}
    (h : onPreparing o s i = .ok (s', out)) :
    (¬ (s.clock.isReady = true ∧ s.newEit.isSome = true) ∧ s' = s ∧ out = []) ∨
    (s.clock.isReady = true ∧ ∃ e ev now, s.newEit = some e ∧ e.events.head? = some ev ∧
      s.clock.now i.nowLocal = .ok now ∧ s.ring.ringPos < s.ring.ringSize ∧
      s.ring.ringPos % o.chunkSize = 0 ∧
      ((Over ev now ∧
          s' = { s with eit := some e, newEit := none, recording := true, boundTime := now,
                        boundPos := s.ring.ringPos, started := false } ∧
          out = [.msg (.chunk now s.ring.ringPos)]) ∨
       (¬ Over ev now ∧
          s' = { s with eit := some e, newEit := none, recording := true, boundTime := now,
                        boundPos := s.ring.ringPos, started := true } ∧
          out = [.msg (.chunk now s.ring.ringPos),
            .msg (.eventStart e ev now s.ring.ringPos)]))) := by
  unfold onPreparing at h
  split at h
  · next hc =>
    simp only [Bool.and_eq_true] at hc
    right
    refine ⟨hc.1, ?_⟩
    obtain ⟨now, h1, h⟩ := bind_eq_ok h
    obtain ⟨_, h2, h⟩ := bind_eq_ok h
    obtain ⟨_, h3, h⟩ := bind_eq_ok h
    obtain ⟨⟨e, ev⟩, h4, h⟩ := bind_eq_ok h
    obtain ⟨h5, h6⟩ := getEvent_ok h4
    have h2 := assert_ok h2
    have h3 := assert_ok h3
    simp only [decide_eq_true_eq, beq_iff_eq] at h2 h3
    simp only at h5 h
    refine ⟨e, ev, now, h5, h6, h1, h2, h3, ?_⟩
    split at h
    · next hu =>
      cases h
      right
      refine ⟨?_, by rw [h5], rfl⟩
      rw [over_iff]
      rintro ⟨k1, k2⟩
      simp [k1] at hu
      omega
    · next hu =>
      cases h
      left
      refine ⟨?_, by rw [h5], rfl⟩
      rw [over_iff]
      simp only [Bool.or_eq_true, not_or, Bool.not_eq_true, decide_eq_false_iff_not] at hu
      exact ⟨hu.1, by omega⟩
  · next hc =>
    left
    cases h
    exact ⟨by simpa using hc, rfl, rfl⟩

/-- `OnRecording`. -/
theorem record_spec {s s' : St} {i : Input} {ok : Bool} {out : List Tr} {e0 : Eit} {ev0 : Event}
    (he : s.eit = some e0) (hev : e0.events.head? = some ev0)
    (h : onRecording s i = .ok (ok, s', out)) :
    ∃ now s2 evs ring ops, s.clock.now i.nowLocal = .ok now ∧ EvStep s e0 ev0 now s2 evs ∧
      RingFileSink.handlePacket s.ring i.bytes = .ok (ok, ring) ∧
      expand s2 i.chunkLocal (ring.log.drop s.ring.log.length) = .ok ops ∧
      s' = { s2 with ring := ring } ∧ out = evs.map .msg ++ ops := by
  unfold onRecording at h
  obtain ⟨now, h1, h⟩ := bind_eq_ok h
  obtain ⟨⟨changed, eit, s1⟩, h2, h⟩ := bind_eq_ok h
  obtain ⟨⟨s2, out1⟩, h3, h⟩ := bind_eq_ok h
  obtain ⟨⟨ok', ring⟩, h4, h⟩ := bind_eq_ok h
  obtain ⟨ops, h5, h⟩ := bind_eq_ok h
  cases h
  obtain ⟨evs, h6, rfl⟩ := event_spec he hev h2 h3
  have hr : s2.ring = s.ring := by cases h6 <;> rfl
  simp only [hr] at h4 h5
  exact ⟨now, s2, evs, ring, ops, h1, h6, h4, h5, rfl, rfl⟩

theorem EvStep.frame {s : St} {e0 : Eit} {ev0 : Event} {now : Int} {s2 : St} {evs : List Msg}
    (h : EvStep s e0 ev0 now s2 evs) :
    s2.ring = s.ring ∧ s2.clock = s.clock ∧ s2.recording = s.recording ∧ s2.newEit = none ∧
      ∃ e ev, s.newEit.or s.eit = some e ∧ s2.eit = some e ∧ e.events.head? = some ev := by
  cases h with
  | switch h1 h2 h3 h4 => exact ⟨rfl, rfl, rfl, rfl, _, _, by rw [h2]; rfl, rfl, h3⟩
  | finish h1 h2 h3 h4 h5 => exact ⟨rfl, rfl, rfl, rfl, _, _, h2, rfl, h3⟩
  | go h1 h2 h3 h4 h5 => exact ⟨rfl, rfl, rfl, rfl, _, _, h2, rfl, h3⟩
  | begin h1 h2 h3 h4 => exact ⟨rfl, rfl, rfl, rfl, _, _, by rw [h2]; rfl, rfl, h3⟩
  | wait h1 h2 h3 h4 => exact ⟨rfl, rfl, rfl, rfl, _, _, h2, rfl, h3⟩

/-! ### The messages sent from notifications -/

theorem messages_append (a b : List Tr) : messages (a ++ b) = messages a ++ messages b := by
  simp [messages]

theorem fileOps_append (a b : List Tr) : fileOps (a ++ b) = fileOps a ++ fileOps b := by
  simp [fileOps]

theorem messages_msg (ms : List Msg) : messages (ms.map .msg) = ms := by
  induction ms with
  | nil => rfl
  | cons m ms ih => simp only [messages, List.map_cons, List.filterMap_cons] at *; rw [ih]

theorem fileOps_msg (ms : List Msg) : fileOps (ms.map .msg) = [] := by
  induction ms with
  | nil => rfl
  | cons m ms ih => simp only [fileOps, List.map_cons, List.filterMap_cons] at *; exact ih

theorem fileOps_op (ops : List RingFileSink.Op) : fileOps (ops.map .op) = ops := by
  induction ops with
  | nil => rfl
  | cons m ms ih => simp only [fileOps, List.map_cons, List.filterMap_cons] at *; rw [ih]

theorem messages_op (ops : List RingFileSink.Op) : messages (ops.map .op) = [] := by
  induction ops with
  | nil => rfl
  | cons m ms ih => simp only [messages, List.map_cons, List.filterMap_cons] at *; exact ih

theorem chunks_append (a b : List Msg) : chunks (a ++ b) = chunks a + chunks b := by
  simp [chunks]

/-- `ExpandTo s now ops tr`: the operations with the messages of the notifications. -/
inductive ExpandTo (s : St) (now : Int) : List RingFileSink.Op → List Tr → Prop
  | nil : ExpandTo s now [] []
  | idle {pos ops tr} : s.started = false → ExpandTo s now ops tr →
      ExpandTo s now (.notify pos :: ops)
        (.op (.notify pos) :: .msg (.chunk now (if pos = s.ring.ringSize then 0 else pos)) :: tr)
  | event {pos ops tr e ev} : s.started = true → s.eit = some e → e.events.head? = some ev →
      ExpandTo s now ops tr →
      ExpandTo s now (.notify pos :: ops)
        (.op (.notify pos) ::
          .msg (.eventUpdate e ev now (if pos = s.ring.ringSize then 0 else pos)) ::
          .msg (.chunk now (if pos = s.ring.ringSize then 0 else pos)) :: tr)
  | other {op ops tr} : (∀ pos, op ≠ .notify pos) → ExpandTo s now ops tr →
      ExpandTo s now (op :: ops) (.op op :: tr)

theorem expand_spec {s : St} {l : Int} : ∀ {ops : List RingFileSink.Op} {tr : List Tr},
    expand s l ops = .ok tr → ∃ now, ExpandTo s now ops tr ∧
      ((∃ pos, RingFileSink.Op.notify pos ∈ ops) → s.clock.now l = .ok now) := by
  intro ops
  have main : ∀ (ops : List RingFileSink.Op) (tr : List Tr), expand s l ops = .ok tr →
      (∀ now, (∀ pos, RingFileSink.Op.notify pos ∉ ops) → ExpandTo s now ops tr) ∧
      (∀ now, s.clock.now l = .ok now → ExpandTo s now ops tr) ∧
      ((∃ pos, RingFileSink.Op.notify pos ∈ ops) → ∃ now, s.clock.now l = .ok now) := by
    intro ops
    induction ops with
    | nil => intro tr h; cases h; exact ⟨fun _ _ => .nil, fun _ _ => .nil, by simp⟩
    | cons op ops ih =>
      intro tr h
      by_cases hn : ∃ pos, op = .notify pos
      · obtain ⟨pos, rfl⟩ := hn
        simp only [expand] at h
        obtain ⟨ms, h1, h⟩ := bind_eq_ok h
        obtain ⟨rest, h2, h⟩ := bind_eq_ok h
        cases h
        unfold onEndOfChunk at h1
        obtain ⟨now, h3, h1⟩ := bind_eq_ok h1
        refine ⟨fun _ hno => absurd (by simp) (hno pos), ?_, fun _ => ⟨now, h3⟩⟩
        intro now' h4
        rw [h3] at h4; cases h4
        have hr := (ih rest h2).2.1 now h3
        by_cases hst : s.started = true
        · simp only [hst, if_true] at h1
          obtain ⟨⟨e, ev⟩, h5, h1⟩ := bind_eq_ok h1
          obtain ⟨h6, h7⟩ := getEvent_ok h5
          cases h1
          exact .event hst h6 h7 hr
        · simp only [hst, if_false] at h1
          cases h1
          exact .idle (by simpa using hst) hr
      · have hn' : ∀ pos, op ≠ .notify pos := fun pos e => hn ⟨pos, e⟩
        have h' : (do let rest ← expand s l ops; (.ok (.op op :: rest) : Except Fault (List Tr))) = .ok tr := by
          unfold expand at h
          split at h
          · next heq => cases heq
          · next heq => cases heq; exact absurd rfl (hn' _)
          · next heq => cases heq; exact h
        obtain ⟨rest, h2, h'⟩ := bind_eq_ok h'
        cases h'
        obtain ⟨k1, k2, k3⟩ := ih rest h2
        refine ⟨fun now hno => .other hn' (k1 now fun pos hp => hno pos (by simp [hp])),
          fun now hnow => .other hn' (k2 now hnow), ?_⟩
        rintro ⟨pos, hp⟩
        rcases List.mem_cons.1 hp with hp | hp
        · exact absurd hp.symm (hn' pos)
        · exact k3 ⟨pos, hp⟩
  intro tr h
  obtain ⟨k1, k2, k3⟩ := main ops tr h
  by_cases hp : ∃ pos, RingFileSink.Op.notify pos ∈ ops
  · obtain ⟨now, hnow⟩ := k3 hp
    exact ⟨now, k2 now hnow, fun _ => hnow⟩
  · exact ⟨0, k1 0 (fun pos h => hp ⟨pos, h⟩), fun h => absurd h hp⟩

theorem expandTo_fileOps {s : St} {now : Int} {ops : List RingFileSink.Op} {tr : List Tr}
    (h : ExpandTo s now ops tr) : fileOps tr = ops := by
  induction h with
  | nil => rfl
  | idle _ _ ih => simp only [Spec.ServiceRecorder.fileOps, List.filterMap_cons] at *; rw [ih]
  | event _ _ _ _ ih => simp only [Spec.ServiceRecorder.fileOps, List.filterMap_cons] at *; rw [ih]
  | other _ _ ih => simp only [Spec.ServiceRecorder.fileOps, List.filterMap_cons] at *; rw [ih]

theorem expandTo_chunks {s : St} {now : Int} {ops : List RingFileSink.Op} {tr : List Tr}
    (h : ExpandTo s now ops tr) : chunks (messages tr) = (announced ops).length := by
  induction h with
  | nil => rfl
  | idle _ _ ih =>
    simp only [Spec.ServiceRecorder.chunks, messages, announced, List.filterMap_cons,
      List.filter_cons, if_true, List.length_cons] at *
    rw [ih]
  | event _ _ _ _ ih =>
    simp only [Spec.ServiceRecorder.chunks, messages, announced, List.filterMap_cons,
      List.filter_cons, if_true, List.length_cons, Bool.false_eq_true, if_false] at *
    rw [ih]
  | other hn _ ih =>
    rename_i op _ _ _
    simp only [Spec.ServiceRecorder.chunks, messages, announced, List.filterMap_cons,
      List.filter_cons, if_true, List.length_cons] at *
    cases op <;> simp at hn <;> simpa using ih

/-- Every chunk message follows its notification, and the event-update message if an
event is being recorded. -/
theorem expandTo_split {s : St} {now : Int} {ops : List RingFileSink.Op} {tr : List Tr}
    (h : ExpandTo s now ops tr) : ∀ pre t p post, tr = pre ++ .msg (.chunk t p) :: post →
      t = now ∧ (∃ a p0, fileOps pre = a ++ [.notify p0] ∧
        p = (if p0 = s.ring.ringSize then 0 else p0)) ∧
      chunks (messages pre) + 1 = (announced (fileOps pre)).length ∧
      (s.started = true → ∃ pre' e ev, pre = pre' ++ [.msg (.eventUpdate e ev t p)]) ∧
      (s.started = false → ∀ m ∈ messages pre, ∃ t p, m = .chunk t p) := by
  induction h with
  | nil => intro pre t p post h; simp at h
  | @idle pos ops tr hst h0 ih =>
    intro pre t p post h
    match pre with
    | [] => simp at h
    | [x] =>
      simp only [List.cons_append, List.nil_append, List.cons.injEq, Tr.msg.injEq,
        Msg.chunk.injEq] at h
      obtain ⟨rfl, ⟨rfl, rfl⟩, rfl⟩ := h
      refine ⟨rfl, ⟨[], pos, rfl, rfl⟩, rfl, fun h => ?_, fun _ => by simp [messages]⟩
      rw [hst] at h; cases h
    | x :: y :: pre =>
      simp only [List.cons_append, List.cons.injEq] at h
      obtain ⟨rfl, rfl, h⟩ := h
      obtain ⟨k1, ⟨a, p0, k2, k3⟩, k4, k5, k6⟩ := ih pre t p post h
      refine ⟨k1, ⟨.notify pos :: a, p0, ?_, k3⟩, ?_, ?_, ?_⟩
      · simp only [Spec.ServiceRecorder.fileOps, List.filterMap_cons] at *; rw [k2]; rfl
      · simp only [Spec.ServiceRecorder.fileOps, Spec.ServiceRecorder.chunks, messages, announced,
          List.filterMap_cons, List.filter_cons, if_true, List.length_cons] at *
        rw [← k4]
      · intro h; rw [hst] at h; cases h
      · intro _ m hm
        simp only [messages, List.filterMap_cons, List.mem_cons] at hm
        rcases hm with rfl | hm
        · exact ⟨_, _, rfl⟩
        · exact k6 hst m hm
  | @event pos ops tr e ev hst he hev h0 ih =>
    intro pre t p post h
    match pre with
    | [] => simp at h
    | [x] => simp at h
    | [x, y] =>
      simp only [List.cons_append, List.nil_append, List.cons.injEq, Tr.msg.injEq,
        Msg.chunk.injEq] at h
      obtain ⟨rfl, rfl, ⟨rfl, rfl⟩, rfl⟩ := h
      refine ⟨rfl, ⟨[], pos, rfl, rfl⟩, rfl, fun _ => ⟨[_], e, ev, rfl⟩, fun h => ?_⟩
      rw [hst] at h; cases h
    | x :: y :: z :: pre =>
      simp only [List.cons_append, List.cons.injEq] at h
      obtain ⟨rfl, rfl, rfl, h⟩ := h
      obtain ⟨k1, ⟨a, p0, k2, k3⟩, k4, k5, k6⟩ := ih pre t p post h
      refine ⟨k1, ⟨.notify pos :: a, p0, ?_, k3⟩, ?_, ?_, ?_⟩
      · simp only [Spec.ServiceRecorder.fileOps, List.filterMap_cons] at *; rw [k2]; rfl
      · simp only [Spec.ServiceRecorder.fileOps, Spec.ServiceRecorder.chunks, messages, announced,
          List.filterMap_cons, List.filter_cons, if_true, List.length_cons, Bool.false_eq_true,
          if_false] at *
        rw [← k4]
      · intro h
        obtain ⟨pre', e', ev', k⟩ := k5 h
        exact ⟨_ :: _ :: _ :: pre', e', ev', by rw [k]; rfl⟩
      · intro h; rw [hst] at h; cases h
  | @other op ops tr hn h0 ih =>
    intro pre t p post h
    match pre with
    | [] => simp at h
    | x :: pre =>
      simp only [List.cons_append, List.cons.injEq] at h
      obtain ⟨rfl, h⟩ := h
      obtain ⟨k1, ⟨a, p0, k2, k3⟩, k4, k5, k6⟩ := ih pre t p post h
      refine ⟨k1, ⟨op :: a, p0, ?_, k3⟩, ?_, ?_, ?_⟩
      · simp only [Spec.ServiceRecorder.fileOps, List.filterMap_cons] at *; rw [k2]; rfl
      · simp only [Spec.ServiceRecorder.fileOps, Spec.ServiceRecorder.chunks, messages, announced,
          List.filterMap_cons, List.filter_cons, if_true, List.length_cons] at *
        cases op <;> simp at hn <;> simpa using k4
      · intro h
        obtain ⟨pre', e', ev', k⟩ := k5 h
        exact ⟨_ :: pre', e', ev', by rw [k]; rfl⟩
      · intro h m hm
        simp only [messages, List.filterMap_cons] at hm
        exact k6 h m hm

end Mirakc.ServiceRecorder
