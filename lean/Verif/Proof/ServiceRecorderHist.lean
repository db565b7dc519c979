import Verif.Proof.ServiceRecorderInv
import Verif.Proof.PacketLoop
/-
What can be read off the history of `ServiceRecorder`.
-/
set_option linter.unusedSimpArgs false

namespace Mirakc.ServiceRecorder
open Mirakc.Spec Mirakc.Spec.ServiceRecorder
open Mirakc.Spec.ServiceFilter (latest validPmt validTot usablePat)
open Mirakc.ServiceFilter (latest_append latest_some latest_none latest_mem)

theorem split_append {α : Type} {l1 l2 pre post : List α} {x : α}
    (h : l1 ++ l2 = pre ++ x :: post) :
    (∃ post', l1 = pre ++ x :: post' ∧ post = post' ++ l2) ∨
    (∃ pre2, pre = l1 ++ pre2 ∧ l2 = pre2 ++ x :: post) := by
  rcases List.append_eq_append_iff.1 h with ⟨as, h1, h2⟩ | ⟨bs, h1, h2⟩
  · exact .inr ⟨as, h1, h2⟩
  · cases bs with
    | nil => exact .inr ⟨[], by simpa using h1.symm, by simpa using h2.symm⟩
    | cons y bs =>
      simp only [List.cons_append, List.cons.injEq] at h2
      obtain ⟨rfl, rfl⟩ := h2
      exact .inl ⟨bs, h1, rfl⟩

/-! ### The whole command -/

theorem session {o : Opt} {results : List Int} {τ : Type} {src : Source Input τ} {t : τ}
    {is : List Input} {fuel : Nat} {h0 h : Hist} {code : Nat} (hy : Yields src t is)
    (hf : is.length < fuel) (hi : init o results = .ok h0)
    (hr : feedPackets src (sink o) fuel t h0 = .ok (code, h)) :
    ∃ ok r0, RingFileSink.openAt o.chunkSize o.numChunks o.startPos results = .ok (ok, r0) ∧
      ((ok = false ∧ h.items = [] ∧ h.trace = r0.log.map .op ∧ code = 1) ∨
       (ok = true ∧ Reach o { ring := r0 } h.items h.st ∧
        h.trace = r0.log.map .op ++ .msg .start :: (outs h.items ++ [.msg (.stop h.st.ring.broken)]) ∧
        code = RingFileSink.sink.exitCode h.st.ring ∧ h.items.map (·.input) <+: is ∧
        ((h.items.map (·.input) = is ∧ ∀ x ∈ h.items, x.more = true) ∨
          ∃ x, h.items.getLast? = some x ∧ x.more = false))) := by
  unfold init at hi
  obtain ⟨r, h1, hi⟩ := bind_eq_ok hi
  cases hi
  have hlog : r.log = [] := by
    unfold RingFileSink.new at h1
    obtain ⟨_, _, h1⟩ := bind_eq_ok h1
    obtain ⟨_, _, h1⟩ := bind_eq_ok h1
    obtain ⟨_, _, h1⟩ := bind_eq_ok h1
    obtain ⟨_, _, h1⟩ := bind_eq_ok h1
    obtain ⟨_, _, h1⟩ := bind_eq_ok h1
    cases h1; rfl
  unfold feedPackets at hr
  obtain ⟨⟨ok, hs⟩, h2, hr⟩ := bind_eq_ok hr
  simp only [sink, start] at h2
  have main : ∀ x : Bool × RingFileSink.St,
      RingFileSink.openAt o.chunkSize o.numChunks o.startPos results = .ok x →
      (if x.1 = true then
        (.ok (true, { st := { ring := x.2 }, items := [],
                      trace := [] ++ (x.2.log.drop r.log.length).map Tr.op ++ [.msg .start] }) :
          Except Fault (Bool × Hist))
       else .ok (false, { st := { ring := x.2 }, items := [],
                          trace := [] ++ (x.2.log.drop r.log.length).map Tr.op })) = .ok (ok, hs) →
      ∃ ok r0, RingFileSink.openAt o.chunkSize o.numChunks o.startPos results = .ok (ok, r0) ∧
        ((ok = false ∧ h.items = [] ∧ h.trace = r0.log.map .op ∧ code = 1) ∨
         (ok = true ∧ Reach o { ring := r0 } h.items h.st ∧
          h.trace = r0.log.map .op ++ .msg .start :: (outs h.items ++ [.msg (.stop h.st.ring.broken)]) ∧
          code = RingFileSink.sink.exitCode h.st.ring ∧ h.items.map (·.input) <+: is ∧
          ((h.items.map (·.input) = is ∧ ∀ x ∈ h.items, x.more = true) ∨
            ∃ x, h.items.getLast? = some x ∧ x.more = false))) := by
    intro x ho h3
    refine ⟨x.1, x.2, ho, ?_⟩
    by_cases hx : x.1 = true
    · rw [if_pos hx] at h3
      cases h3
      right
      refine ⟨hx, ?_⟩
      simp only [if_true] at hr
      obtain ⟨⟨t', h4⟩, h5, hr⟩ := bind_eq_ok hr
      obtain ⟨h6, h7, hr⟩ := bind_eq_ok hr
      obtain ⟨cs, hc⟩ := feedLoop_consumes src (sink o) hy fuel _ t' h4 hf h5
      obtain ⟨items, k1, k2, k3, k4, k5, k6⟩ := reach_of_consumes hc (s0 := { ring := x.2 }) .nil (by simp)
      simp only [sink, Except.ok.injEq] at h7
      subst h7
      cases hr
      simp only [List.nil_append] at k1
      rw [← k1] at k3 k4 k6
      refine ⟨k2, ?_, rfl, by rw [k4]; exact k5, ?_⟩
      · simp only [k3, hlog, outs]
        simp
      · rw [k4]; exact k6
    · simp only [Bool.not_eq_true] at hx
      rw [hx] at h3
      simp only [Bool.false_eq_true, if_false] at h3
      cases h3
      left
      refine ⟨hx, ?_⟩
      simp only [Bool.false_eq_true, if_false] at hr
      cases hr
      exact ⟨rfl, by simp [hlog], rfl⟩
  have ho : ∀ x, (if o.startPos ≠ 0 then RingFileSink.setPosition r o.startPos else .ok (true, r)) = .ok x →
      RingFileSink.openAt o.chunkSize o.numChunks o.startPos results = .ok x := by
    intro x hx
    unfold RingFileSink.openAt
    rw [h1, ok_bind]; exact hx
  by_cases hsp : o.startPos ≠ 0
  · rw [if_pos hsp] at ho h2
    obtain ⟨x, h3, h4⟩ := bind_eq_ok h2
    exact main x (ho x h3) h4
  · rw [if_neg hsp] at ho h2
    exact main _ (ho _ rfl) h2

/-! ### Chunk messages -/

theorem chunk_split {o : Opt} {r0 : RingFileSink.St} {R : Nat}
    (hsz : ∀ items s, Reach o { ring := r0 } items s → (∀ x ∈ items, x.more = true) →
      (∀ p ∈ stored items, p.length = 188) → s.ring.ringSize = R)
    {items : List Item} {s : St} (h : Reach o { ring := r0 } items s)
    (hb : ∀ p ∈ stored items, p.length = 188) :
    ∀ pre t p post, outs items = pre ++ .msg (.chunk t p) :: post →
      chunks (messages pre) = (announced (fileOps pre)).length ∧
      ((fileOps pre = [] ∧ p = r0.ringPos ∧ p < R ∧ p % o.chunkSize = 0) ∨
        ∃ a p0, fileOps pre = a ++ [.notify p0] ∧ p = if p0 = R then 0 else p0) ∧
      (∀ id, Phase.preparing.read (messages pre) = some (.event id) →
        ∃ pre' e ev, pre = pre' ++ [.msg (.eventUpdate e ev t p)]) := by
  induction h with
  | nil => intro pre t p post h; simp [outs] at h
  | @snoc items s i s' it hr hm hs ih =>
    intro pre t p post h
    have hb' : ∀ p ∈ stored items, p.length = 188 := fun q hq => hb q (by
      rw [stored_append]; exact List.mem_append_left _ hq)
    rw [outs_append, outs_one] at h
    rcases split_append h with ⟨post', h1, _⟩ | ⟨pre2, rfl, h2⟩
    · exact ih hb' pre t p post' h1
    · have hi := inv_reach hr
      have hsize := hsz _ _ hr hm hb'
      obtain ⟨sf, hf, hin, ht, hc⟩ := step_cases hi.told hs
      rcases hc with ⟨hrec, hst, hmore, hp⟩ | ⟨hrec, hst, hp⟩
      · obtain ⟨p1, p2, p3, p4, p5, p6⟩ := hi.prep hrec
        rw [p6, List.nil_append]
        have first : it.out.head? = some (.msg (.chunk t p)) ∧ pre2 = [] ∧ sf.ring.ringPos = p ∧
            sf.ring.ringPos < sf.ring.ringSize ∧ sf.ring.ringPos % o.chunkSize = 0 := by
          rcases prepare_spec hp with ⟨q1, q2, q3⟩ | ⟨q1, e, ev, now, q2, q3, q4, q5, q6, q7⟩
          · rw [q3] at h2; simp at h2
          · have hpre : pre2 = [] ∧ sf.ring.ringPos = p := by
              rcases q7 with ⟨_, _, q7⟩ | ⟨_, _, q7⟩
              · rw [q7] at h2
                match pre2, h2 with
                | [], h2 => simp at h2; exact ⟨rfl, h2.1.2⟩
                | x :: l, h2 => simp at h2
              · rw [q7] at h2
                match pre2, h2 with
                | [], h2 => simp at h2; exact ⟨rfl, h2.1.2⟩
                | [x], h2 => simp at h2
                | x :: y :: l, h2 => simp at h2
            refine ⟨?_, hpre.1, hpre.2, q5, q6⟩
            rw [h2, hpre.1]; rfl
        obtain ⟨_, rfl, f1, f2, f3⟩ := first
        have hring : sf.ring = r0 := by rw [hf.ring]; exact p2
        refine ⟨rfl, .inl ⟨rfl, by rw [← f1, hring], ?_, by rw [← f1]; exact f3⟩, ?_⟩
        · rw [← f1, ← hsize, ← hf.ring]; exact f2
        · intro id h; simp [messages, Phase.read] at h
      · obtain ⟨p1, p2, ⟨e0, ev0, p3, p4⟩, p5, p6⟩ := hi.record hrec
        obtain ⟨ph, hph, hpo⟩ := hi.phase
        have hrf : sf.recording = true := by rw [hf.recording]; exact hrec
        obtain ⟨now, s2, evs, ring, ops, q1, q2, q3, q4, q5, q6⟩ :=
          record_spec (by rw [hf.eit]; exact p3) p4 hp
        obtain ⟨f1, f2, f3, f4, _⟩ := q2.frame
        obtain ⟨now2, x1, x2⟩ := expand_spec q4
        have hpf : PhaseOf sf ph := by
          unfold PhaseOf at hpo ⊢
          rw [hf.recording, hf.started, hf.eit]; exact hpo
        obtain ⟨ph', r1, r2⟩ := evStep_read q2 hrf (by rw [hf.eit]; exact p3) p4 hpf
        rw [q6] at h2
        rcases split_append h2 with ⟨post', h3, _⟩ | ⟨pre3, rfl, h4⟩
        · exfalso
          have : Tr.msg (.chunk t p) ∈ evs.map Tr.msg := by rw [h3]; simp
          simp only [List.mem_map, Tr.msg.injEq, exists_eq_right] at this
          exact (evStep_chunks q2).2 t p this
        · obtain ⟨k1, ⟨a, p0, k2, k3⟩, k4, k5, k6⟩ := expandTo_split x1 pre3 t p post h4
          have hsz2 : s2.ring.ringSize = R := by rw [f1, hf.ring]; exact hsize
          rw [hsz2] at k3
          refine ⟨?_, .inr ⟨fileOps (outs items) ++ a, p0, ?_, k3⟩, ?_⟩
          · simp only [messages_append, fileOps_append, messages_msg, fileOps_msg, chunks_append,
              RingFileSink.announced_append, List.length_append, p6, (evStep_chunks q2).1,
              List.nil_append]
            omega
          · simp only [fileOps_append, fileOps_msg, k2, List.nil_append, List.append_assoc]
          · intro id hid
            by_cases hst2 : s2.started = true
            · obtain ⟨pre', e, ev, k⟩ := k5 hst2
              exact ⟨outs items ++ (evs.map .msg ++ pre'), e, ev, by rw [k]; simp⟩
            · exfalso
              simp only [Bool.not_eq_true] at hst2
              have hidle : ph' = .idle := by
                rcases r2 with ⟨h, _⟩ | ⟨_, _, h⟩ | ⟨_, h, _⟩
                · rw [f3, hrf] at h; cases h
                · exact h
                · rw [hst2] at h; cases h
              have hread : ∀ ms : List Msg, (∀ m ∈ ms, ∃ t p, m = .chunk t p) →
                  Phase.idle.read ms = some .idle := by
                intro ms
                induction ms with
                | nil => intro _; rfl
                | cons m ms ihm =>
                  intro hall
                  obtain ⟨t, p, rfl⟩ := hall m (by simp)
                  simp only [Phase.read, Phase.next]
                  exact ihm (fun m hm => hall m (by simp [hm]))
              rw [messages_append, messages_append, messages_msg, read_append, hph,
                Option.bind_some, read_append, r1, Option.bind_some, hidle,
                hread _ (k6 hst2)] at hid
              cases hid

/-! ### Events -/

theorem expandTo_no_event {s : St} {now : Int} {ops : List RingFileSink.Op} {tr : List Tr}
    (h : ExpandTo s now ops tr) : ∀ m ∈ messages tr,
      (∃ p, m = .chunk now p) ∨ ∃ e ev p, m = .eventUpdate e ev now p ∧ s.eit = some e ∧
        e.events.head? = some ev := by
  induction h with
  | nil => intro m hm; simp [messages] at hm
  | idle _ _ ih =>
    intro m hm
    simp only [messages, List.filterMap_cons, List.mem_cons] at hm ih
    rcases hm with rfl | hm
    · exact .inl ⟨_, rfl⟩
    · exact ih m hm
  | event _ he hev _ ih =>
    intro m hm
    simp only [messages, List.filterMap_cons, List.mem_cons] at hm ih
    rcases hm with rfl | rfl | hm
    · exact .inr ⟨_, _, _, rfl, he, hev⟩
    · exact .inl ⟨_, rfl⟩
    · exact ih m hm
  | other _ _ ih =>
    intro m hm
    simp only [messages, List.filterMap_cons] at hm ih
    exact ih m hm

theorem expandTo_notify {s : St} {now : Int} {ops : List RingFileSink.Op} {tr : List Tr}
    (h : ExpandTo s now ops tr) (hne : messages tr ≠ []) : ∃ pos, .notify pos ∈ ops := by
  induction h with
  | nil => exact absurd rfl hne
  | @idle pos => exact ⟨pos, by simp⟩
  | @event pos => exact ⟨pos, by simp⟩
  | other _ _ ih =>
    simp only [messages, List.filterMap_cons] at hne ih
    obtain ⟨pos, hp⟩ := ih hne
    exact ⟨pos, by simp [hp]⟩

theorem start_split {o : Opt} {r0 : RingFileSink.St} {items : List Item} {s : St}
    (h : Reach o { ring := r0 } items s) :
    ∀ pre e ev t p post, messages (outs items) = pre ++ .eventStart e ev t p :: post →
      boundary pre = some (t, p) := by
  induction h with
  | nil => intro pre e ev t p post h; simp [outs, messages] at h
  | @snoc items s i s' it hr hm hs ih =>
    intro pre e ev t p post h
    rw [outs_append, outs_one, messages_append] at h
    rcases split_append h with ⟨post', h1, _⟩ | ⟨pre2, rfl, h2⟩
    · exact ih pre e ev t p post' h1
    · have hi := inv_reach hr
      obtain ⟨sf, hf, hin, ht, hc⟩ := step_cases hi.told hs
      rcases hc with ⟨hrec, hst, hmore, hp⟩ | ⟨hrec, hst, hp⟩
      · obtain ⟨p1, p2, p3, p4, p5, p6⟩ := hi.prep hrec
        rw [p6]
        rcases prepare_spec hp with ⟨q1, q2, q3⟩ | ⟨q1, e, ev, now, q2, q3, q4, q5, q6, q7⟩
        · rw [q3] at h2; simp [messages] at h2
        · rcases q7 with ⟨_, _, q7⟩ | ⟨_, _, q7⟩
          · rw [q7] at h2
            match pre2, h2 with
            | [], h2 => simp [messages] at h2
            | x :: l, h2 => simp [messages] at h2
          · rw [q7] at h2
            match pre2, h2 with
            | [], h2 => simp [messages] at h2
            | [x], h2 =>
              simp only [messages, List.filterMap_cons, List.filterMap_nil, List.cons_append,
                List.nil_append, List.cons.injEq, Msg.eventStart.injEq] at h2
              obtain ⟨rfl, ⟨_, _, rfl, rfl⟩, _⟩ := h2
              rfl
            | x :: y :: l, h2 => simp [messages] at h2
      · obtain ⟨p1, p2, ⟨e0, ev0, p3, p4⟩, p5, p6⟩ := hi.record hrec
        obtain ⟨now, s2, evs, ring, ops, q1, q2, q3, q4, q5, q6⟩ :=
          record_spec (by rw [hf.eit]; exact p3) p4 hp
        obtain ⟨now2, x1, x2⟩ := expand_spec q4
        rw [q6, messages_append, messages_msg] at h2
        rcases split_append h2 with ⟨post', h3, _⟩ | ⟨pre3, rfl, h4⟩
        · rw [← hf.boundTime, ← hf.boundPos] at p5
          cases q2 with
          | switch a b c d =>
            match pre2, h3 with
            | [], h3 => simp at h3
            | [x], h3 =>
              simp only [List.cons_append, List.nil_append, List.cons.injEq,
                Msg.eventStart.injEq] at h3
              obtain ⟨rfl, ⟨_, _, rfl, rfl⟩, _⟩ := h3
              exact boundary_append_end rfl
            | x :: y :: l, h3 => simp at h3
          | finish a b c d f =>
            match pre2, h3 with
            | [], h3 => simp at h3
            | x :: l, h3 => simp at h3
          | go => simp at h3
          | begin a b c d =>
            match pre2, h3 with
            | [], h3 =>
              simp only [List.nil_append, List.cons.injEq, Msg.eventStart.injEq] at h3
              obtain ⟨⟨_, _, rfl, rfl⟩, _⟩ := h3
              simpa using p5
            | x :: l, h3 => simp at h3
          | wait => simp at h3
        · exfalso
          have : Msg.eventStart e ev t p ∈ messages ops := by rw [h4]; simp
          rcases expandTo_no_event x1 _ this with ⟨_, k⟩ | ⟨_, _, _, k, _⟩ <;> cases k

/-- What the messages sent during one packet say. -/
theorem item_messages {o : Opt} {r0 : RingFileSink.St} {a b : List Item} {it : Item} {s : St}
    (h : Reach o { ring := r0 } (a ++ it :: b) s) :
    ∃ s1 c, Reach o { ring := r0 } a s1 ∧ (∀ x ∈ a, x.more = true) ∧
      ClockIs o.sid (a ++ [it]) c ∧
      ∀ m ∈ messages it.out,
        (∃ t p, m = .chunk t p ∧ (c.now it.input.nowLocal = .ok t ∨ c.now it.input.chunkLocal = .ok t)) ∨
        (∃ e ev t p, m = .eventStart e ev t p ∧
          latest (presentEit o.sid) (received (a ++ [it])) = some e ∧ e.events.head? = some ev) ∨
        (∃ e ev t p, m = .eventUpdate e ev t p ∧ c.now it.input.chunkLocal = .ok t ∧
          latest (presentEit o.sid) (received (a ++ [it])) = some e ∧ e.events.head? = some ev) ∨
        (∃ e ev t p now, m = .eventEnd e ev t p ∧ c.now it.input.nowLocal = .ok now ∧
          p = s1.ring.ringPos ∧ e.events.head? = some ev ∧
          ((latest (presentEit o.sid) (received (a ++ [it])) = some e ∧ Over ev now ∧
              t = ev.startTime + ev.duration * 1000) ∨
            (t = now ∧ latest (presentEit o.sid) (received a) = some e ∧
              ∃ e' ev', latest (presentEit o.sid) (received (a ++ [it])) = some e' ∧
                e'.events.head? = some ev' ∧ ev.eventId ≠ ev'.eventId))) := by
  obtain ⟨s1, s2, h1, h2, h3, _, _⟩ := h.split a it b rfl
  have hi := inv_reach h1
  obtain ⟨sf, hf, hin, ht, hc⟩ := step_cases hi.told h3
  refine ⟨s1, sf.clock, h1, h2, ht.clock, ?_⟩
  intro m hm
  rcases hc with ⟨hrec, hst, hmore, hp⟩ | ⟨hrec, hst, hp⟩
  · obtain ⟨p1, p2, p3, p4, p5, p6⟩ := hi.prep hrec
    rcases prepare_spec hp with ⟨q1, q2, q3⟩ | ⟨q1, e, ev, now, q2, q3, q4, q5, q6, q7⟩
    · rw [q3] at hm; simp [messages] at hm
    · have heit : latest (presentEit o.sid) (received (a ++ [it])) = some e := by
        rw [← ht.eit, q2]; rfl
      rcases q7 with ⟨_, _, q7⟩ | ⟨_, _, q7⟩
      · rw [q7] at hm
        simp [messages] at hm
        exact .inl ⟨_, _, hm, .inl q4⟩
      · rw [q7] at hm
        simp [messages] at hm
        rcases hm with hm | hm
        · exact .inl ⟨_, _, hm, .inl q4⟩
        · exact .inr (.inl ⟨_, _, _, _, hm, heit, q3⟩)
  · obtain ⟨p1, p2, ⟨e0, ev0, p3, p4⟩, p5, p6⟩ := hi.record hrec
    have hold : latest (presentEit o.sid) (received a) = some e0 := by
      rw [← hi.told.eit, p2, p3]; rfl
    obtain ⟨now, s2, evs, ring, ops, q1, q2, q3, q4, q5, q6⟩ :=
      record_spec (by rw [hf.eit]; exact p3) p4 hp
    obtain ⟨f1, f2, f3, f4, e, ev, f5, f6, f7⟩ := q2.frame
    have hnew : latest (presentEit o.sid) (received (a ++ [it])) = some e := by rw [← ht.eit, f5]
    obtain ⟨now2, x1, x2⟩ := expand_spec q4
    rw [q6, messages_append, messages_msg] at hm
    rcases List.mem_append.1 hm with hm | hm
    · have hring : sf.ring.ringPos = s1.ring.ringPos := by rw [hf.ring]
      cases q2 with
      | @switch n ev' k1 k2 k3 k4 =>
        rw [k2, Option.some_or] at f5
        obtain rfl := Option.some.inj f5
        simp only [List.mem_cons, List.not_mem_nil, or_false] at hm
        rcases hm with rfl | rfl
        · exact .inr (.inr (.inr ⟨_, _, _, _, now, rfl, q1, hring, p4,
            .inr ⟨rfl, hold, n, ev', hnew, k3, k4⟩⟩))
        · exact .inr (.inl ⟨_, _, _, _, rfl, hnew, k3⟩)
      | @finish e' ev' k1 k2 k3 k4 k5 =>
        obtain rfl := Option.some.inj (k2.symm.trans f5)
        simp only [List.mem_cons, List.not_mem_nil, or_false] at hm
        subst hm
        exact .inr (.inr (.inr ⟨_, _, _, _, now, rfl, q1, hring, k3, .inl ⟨hnew, k5, rfl⟩⟩))
      | go => simp at hm
      | @begin n ev' k1 k2 k3 k4 =>
        rw [k2, Option.some_or] at f5
        obtain rfl := Option.some.inj f5
        simp only [List.mem_cons, List.not_mem_nil, or_false] at hm
        subst hm
        exact .inr (.inl ⟨_, _, _, _, rfl, hnew, k3⟩)
      | wait => simp at hm
    · have hclock : sf.clock.now it.input.chunkLocal = .ok now2 := by
        rw [← f2]
        refine x2 ?_
        exact expandTo_notify x1 (List.ne_nil_of_mem hm)
      rcases expandTo_no_event x1 m hm with ⟨p, rfl⟩ | ⟨e', ev', p, rfl, k1, k2⟩
      · exact .inl ⟨_, _, rfl, .inr hclock⟩
      · rw [f6] at k1; cases k1
        exact .inr (.inr (.inl ⟨_, _, _, _, rfl, hclock, hnew, k2⟩))

/-- If no event is open while recording, the present event was seen to be over. -/
theorem idle_reason {o : Opt} {r0 : RingFileSink.St} {items : List Item} {s : St}
    (h : Reach o { ring := r0 } items s) (hr : s.recording = true) (hst : s.started = false) :
    ∃ e ev a it b e' ev' now, s.eit = some e ∧ e.events.head? = some ev ∧ items = a ++ it :: b ∧
      latest (presentEit o.sid) (received (a ++ [it])) = some e' ∧ e'.events.head? = some ev' ∧
      ev'.eventId = ev.eventId ∧ TimeIs o.sid a it now ∧ Over ev' now := by
  induction h with
  | nil => cases hr
  | @snoc items s i s' it hreach hm hs ih =>
    have hi := inv_reach hreach
    obtain ⟨sf, hf, hin, ht, hc⟩ := step_cases hi.told hs
    rcases hc with ⟨hrec, _, hmore, hp⟩ | ⟨hrec, _, hp⟩
    · rcases prepare_spec hp with ⟨q1, q2, q3⟩ | ⟨q1, e, ev, now, q2, q3, q4, q5, q6, q7⟩
      · rw [q2, hf.recording, hrec] at hr; cases hr
      · have heit : latest (presentEit o.sid) (received (items ++ [it])) = some e := by
          rw [← ht.eit, q2]; rfl
        rcases q7 with ⟨k1, k2, _⟩ | ⟨_, k2, _⟩
        · exact ⟨e, ev, items, it, [], e, ev, now, by rw [k2], q3, rfl, heit, q3, rfl,
            ⟨_, ht.clock, by rw [hin]; exact q4⟩, k1⟩
        · rw [k2] at hst; cases hst
    · obtain ⟨p1, p2, ⟨e0, ev0, p3, p4⟩, p5, p6⟩ := hi.record hrec
      obtain ⟨now, s2, evs, ring, ops, q1, q2, q3, q4, q5, q6⟩ :=
        record_spec (by rw [hf.eit]; exact p3) p4 hp
      obtain ⟨f1, f2, f3, f4, e, ev, f5, f6, f7⟩ := q2.frame
      have hnew : latest (presentEit o.sid) (received (items ++ [it])) = some e := by
        rw [← ht.eit, f5]
      subst q5
      cases q2 with
      | switch k1 _ _ _ => simp only [k1] at hst; cases hst
      | @finish e' ev' k1 k2 k3 k4 k5 =>
        obtain rfl := Option.some.inj (k2.symm.trans f5)
        exact ⟨e', ev', items, it, [], e', ev', now, rfl, k3, rfl, hnew, k3, rfl,
          ⟨_, ht.clock, by rw [hin]; exact q1⟩, k5⟩
      | go k1 _ _ _ => simp only [k1] at hst; cases hst
      | begin => cases hst
      | @wait e' ev' k1 k2 k3 k4 =>
        obtain ⟨x, xv, a, jt, b, y, yv, n, m1, m2, m3, m4, m5, m6, m7, m8⟩ :=
          ih hrec (by rw [← hf.started]; exact k1)
        rw [p3] at m1; cases m1
        rw [p4] at m2; cases m2
        exact ⟨e', ev', a, jt, b ++ [it], y, yv, n, rfl, k3, by rw [m3]; simp, m4, m5,
          by rw [m6, k4], m7, m8⟩

theorem Reach.unique {o : Opt} {s0 : St} {items : List Item} {s s' : St}
    (k : Reach o s0 items s) : Reach o s0 items s' → s = s' := by
  induction k generalizing s' with
  | nil =>
    intro k'
    generalize hz : ([] : List Item) = z at k'
    cases k' with
    | nil => rfl
    | snoc => simp at hz
  | @snoc items s i s2 it hr hm hs ih =>
    intro k'
    generalize hz : items ++ [it] = z at k'
    cases k' with
    | nil => simp at hz
    | @snoc items3 s3 i3 s4 it3 hr3 hm3 hs3 =>
      obtain ⟨hz1, hz⟩ := List.append_inj' hz rfl
      cases hz
      subst hz1
      have e := ih hr3
      subst e
      have e1 := step_input hs
      have e2 := step_input hs3
      rw [← e1] at hs
      rw [← e2, hs] at hs3
      cases hs3; rfl

/-- An event that is open is not over, unless it was started with the last packet. -/
theorem open_reason {o : Opt} {r0 : RingFileSink.St} {a : List Item} {it : Item} {s : St}
    (h : Reach o { ring := r0 } (a ++ [it]) s) (hst : s.started = true) :
    ∃ e ev now, s.eit = some e ∧ e.events.head? = some ev ∧ TimeIs o.sid a it now ∧
      (¬ Over ev now ∨ it.stored = true ∧ ∃ t p, .eventStart e ev t p ∈ messages it.out) := by
  obtain ⟨s1, s2, h1, h2, h3, h4, _⟩ := h.split a it [] rfl
  have hi := inv_reach h1
  obtain ⟨sf, hf, hin, ht, hc⟩ := step_cases hi.told h3
  have hs : s = s2 := h.unique h4
  subst hs
  clear h4 h
  rcases hc with ⟨hrec, _, hmore, hp⟩ | ⟨hrec, hsto, hp⟩
  · obtain ⟨p1, p2, p3, p4, p5, p6⟩ := hi.prep hrec
    rcases prepare_spec hp with ⟨q1, q2, q3⟩ | ⟨q1, e, ev, now, q2, q3, q4, q5, q6, q7⟩
    · rw [q2, hf.started, p3] at hst; cases hst
    · rcases q7 with ⟨k1, k2, _⟩ | ⟨k1, k2, _⟩
      · rw [k2] at hst; cases hst
      · exact ⟨e, ev, now, by rw [k2], q3, ⟨_, ht.clock, q4⟩, .inl k1⟩
  · obtain ⟨p1, p2, ⟨e0, ev0, p3, p4⟩, p5, p6⟩ := hi.record hrec
    obtain ⟨now, s2, evs, ring, ops, q1, q2, q3, q4, q5, q6⟩ :=
      record_spec (by rw [hf.eit]; exact p3) p4 hp
    have hmem : ∀ m ∈ evs, m ∈ messages it.out := by
      intro m hm
      rw [q6, messages_append, messages_msg]
      exact List.mem_append_left _ hm
    subst q5
    cases q2 with
    | @switch n ev' k1 k2 k3 k4 =>
      exact ⟨n, ev', now, rfl, k3, ⟨_, ht.clock, q1⟩,
        .inr ⟨hsto, _, _, hmem (.eventStart n ev' now sf.ring.ringPos) (by simp)⟩⟩
    | finish => cases hst
    | @go e ev k1 k2 k3 k4 k5 => exact ⟨e, ev, now, rfl, k3, ⟨_, ht.clock, q1⟩, .inl k5⟩
    | @begin n ev' k1 k2 k3 k4 =>
      exact ⟨n, ev', now, rfl, k3, ⟨_, ht.clock, q1⟩,
        .inr ⟨hsto, _, _, hmem (.eventStart n ev' sf.boundTime sf.boundPos) (by simp)⟩⟩
    | @wait e ev k1 k2 k3 k4 => simp only [k1] at hst; cases hst

end Mirakc.ServiceRecorder
