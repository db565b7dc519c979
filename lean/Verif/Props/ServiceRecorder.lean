import Verif.Proof.ServiceRecorderEx
import Verif.Props.RingFileSink
/-
Properties C37-C42, C75, C76 and C115: record-service.
-/
set_option linter.unusedSimpArgs false

namespace Mirakc.Props
open Mirakc.ServiceRecorder Mirakc.Spec Mirakc.Spec.ServiceRecorder
open Mirakc.Spec.ServiceFilter (latest usablePat validPmt validTot)

/-- What is known about a finished recording. -/
structure Session (o : Opt) (results : List Int) (is : List ServiceRecorder.Input) (code : Nat)
    (h : Hist) (r0 : RingFileSink.St) : Prop where
  opened : RingFileSink.openAt o.chunkSize o.numChunks o.startPos results = .ok (true, r0)
  reach : Reach o { ring := r0 } h.items h.st
  trace : h.trace = r0.log.map .op ++ .msg .start :: (outs h.items ++ [.msg (.stop h.st.ring.broken)])
  code : code = RingFileSink.sink.exitCode h.st.ring
  pre : h.items.map (·.input) <+: is
  all : (h.items.map (·.input) = is ∧ ∀ x ∈ h.items, x.more = true) ∨
    ∃ x, h.items.getLast? = some x ∧ x.more = false

theorem cases_of_recorded {o : Opt} {results : List Int} {is : List ServiceRecorder.Input}
    {code : Nat} {h : Hist} (hr : Recorded o results is code h) :
    (h.items = [] ∧ messages h.trace = [] ∧ code = 1 ∧ fileOps h.trace = [.failed]) ∨
    ∃ r0, Session o results is code h r0 := by
  obtain ⟨τ, src, t, fuel, h0, h1, h2, h3, h4⟩ := hr
  obtain ⟨ok, r0, k1, ⟨rfl, k2, k3, k4⟩ | ⟨rfl, k2, k3, k4, k5, k6⟩⟩ := session h1 h2 h3 h4
  · refine .inl ⟨k2, by rw [k3]; exact messages_op _, k4, ?_⟩
    rw [k3, fileOps_op]
    unfold RingFileSink.openAt at k1
    obtain ⟨r, m1, k1⟩ := bind_eq_ok k1
    have hlog : r.log = [] := by
      unfold RingFileSink.new at m1
      obtain ⟨_, _, m1⟩ := bind_eq_ok m1
      obtain ⟨_, _, m1⟩ := bind_eq_ok m1
      obtain ⟨_, _, m1⟩ := bind_eq_ok m1
      obtain ⟨_, _, m1⟩ := bind_eq_ok m1
      obtain ⟨_, _, m1⟩ := bind_eq_ok m1
      cases m1; rfl
    split at k1
    · unfold RingFileSink.setPosition at k1
      obtain ⟨_, _, k1⟩ := bind_eq_ok k1
      obtain ⟨_, _, k1⟩ := bind_eq_ok k1
      obtain ⟨_, _, k1⟩ := bind_eq_ok k1
      obtain ⟨_, _, k1⟩ := bind_eq_ok k1
      unfold RingFileSink.call at k1
      split at k1
      · next heq =>
        split at heq
        · cases heq; cases k1
        · split at heq
          · cases heq; cases k1
          · cases heq; cases k1; simp [hlog]
    · cases k1
  · exact .inr ⟨r0, k1, k2, k3, k4, k5, k6⟩

theorem Session.bytes {o : Opt} {results : List Int} {is : List ServiceRecorder.Input}
    {code : Nat} {h : Hist} {r0 : RingFileSink.St} (S : Session o results is code h r0)
    (hb : ∀ i ∈ is, i.bytes.length = 188) : ∀ a b, h.items = a ++ b → ∀ p ∈ stored a, p.length = 188 := by
  intro a b e p hp
  simp only [stored, List.mem_map, List.mem_filter] at hp
  obtain ⟨x, ⟨hx, _⟩, rfl⟩ := hp
  refine hb _ (S.pre.subset ?_)
  rw [e]
  exact List.mem_map.2 ⟨x, List.mem_append_left _ hx, rfl⟩

theorem Session.messages {o : Opt} {results : List Int} {is : List ServiceRecorder.Input}
    {code : Nat} {h : Hist} {r0 : RingFileSink.St} (S : Session o results is code h r0) :
    Spec.ServiceRecorder.messages h.trace =
      .start :: (Spec.ServiceRecorder.messages (outs h.items) ++ [.stop h.st.ring.broken]) := by
  rw [S.trace, messages_append, messages_op, List.nil_append]
  show _ :: Spec.ServiceRecorder.messages (outs h.items ++ [.msg (.stop h.st.ring.broken)]) = _
  rw [messages_append]; rfl

theorem Session.fileOps {o : Opt} {results : List Int} {is : List ServiceRecorder.Input}
    {code : Nat} {h : Hist} {r0 : RingFileSink.St} (S : Session o results is code h r0) :
    Spec.ServiceRecorder.fileOps h.trace = h.st.ring.log := by
  rw [S.trace, fileOps_append, fileOps_op, (inv_reach S.reach).ops]
  congr 1
  show Spec.ServiceRecorder.fileOps (outs h.items ++ [.msg (.stop h.st.ring.broken)]) = _
  rw [fileOps_append]
  simp [Spec.ServiceRecorder.fileOps]

/-- **C37**  The messages: none if the start position cannot be set; otherwise they form
a well-formed sequence from start to stop, which is last. -/
theorem C37_message_order (o : Opt) (results : List Int) (is : List ServiceRecorder.Input)
    (code : Nat) (h : Hist) (hr : Recorded o results is code h) :
    (messages h.trace = [] ∧ code = 1) ∨
    (Phase.initial.read (messages h.trace) = some .stopped ∧
      ∃ ms reset, messages h.trace = .start :: ms ++ [.stop reset] ∧
        (∀ m ∈ ms, m ≠ .start ∧ ∀ r, m ≠ .stop r) ∧
        ms = h.items.flatMap (fun it => messages it.out)) := by
  rcases cases_of_recorded hr with ⟨_, h1, h2, _⟩ | ⟨r0, S⟩
  · exact .inl ⟨h1, h2⟩
  · right
    obtain ⟨ph, hph, hpo⟩ := (inv_reach S.reach).phase
    have hm := S.messages
    refine ⟨?_, messages (outs h.items), h.st.ring.broken, hm, ?_, ?_⟩
    · rw [hm]
      show Phase.preparing.read _ = _
      rw [read_append, hph, Option.bind_some]
      rcases hpo with ⟨_, rfl⟩ | ⟨_, _, rfl⟩ | ⟨_, _, _, _, _, _, rfl⟩ <;> rfl
    · have key : ∀ (ms : List Msg) (ph ph' : Phase), ph ≠ .initial → ph' ≠ .stopped →
          ph.read ms = some ph' → ∀ m ∈ ms, m ≠ .start ∧ ∀ r, m ≠ .stop r := by
        intro ms
        induction ms with
        | nil => intro _ _ _ _ _ m hm; cases hm
        | cons m ms ih =>
          intro ph ph' h1 h2 h3 x hx
          simp only [Phase.read] at h3
          cases hn : ph.next m with
          | none => rw [hn] at h3; cases h3
          | some q =>
            rw [hn] at h3
            dsimp only at h3
            have hq : m ≠ .start ∧ (∀ r, m ≠ .stop r) ∧ q ≠ .initial := by
              refine ⟨?_, ?_, ?_⟩
              · rintro rfl; cases ph <;> simp [Phase.next] at hn h1
              · rintro r rfl
                have : q = .stopped := by cases ph <;> simp [Phase.next] at hn h1 <;> exact hn.symm
                subst this
                cases ms with
                | nil => simp only [Phase.read, Option.some.injEq] at h3; exact h2 h3.symm
                | cons y ys => simp [Phase.read, Phase.next] at h3
              · rintro rfl
                cases ph <;> cases m <;> simp [Phase.next] at hn
            rcases List.mem_cons.1 hx with rfl | hx
            · exact ⟨hq.1, hq.2.1⟩
            · exact ih q ph' hq.2.2 h2 h3 x hx
      refine key _ .preparing ph (by simp) ?_ hph
      rcases hpo with ⟨_, rfl⟩ | ⟨_, _, rfl⟩ | ⟨_, _, _, _, _, _, rfl⟩ <;> simp
    · clear hm hph hpo S hr
      induction h.items with
      | nil => rfl
      | cons x xs ih =>
        rw [List.flatMap_cons, ← ih]
        show messages (x.out ++ outs xs) = _
        rw [messages_append]

/-- A recording that meets the hypothesis. -/
example : ∃ c h, Recorded C37ex.opt (List.replicate 9 300000) C37ex.stream c h ∧
    messages h.trace = C37ex.sent := by
  obtain ⟨c, h, h1, h2⟩ := C37ex.run_stream
  exact ⟨c, h, h1, (of_decide_eq_true h2).2.1⟩

theorem Session.size {o : Opt} {results : List Int} {is : List ServiceRecorder.Input}
    {code : Nat} {h : Hist} {r0 : RingFileSink.St} (S : Session o results is code h r0)
    (hopt : Permitted o.chunkSize o.numChunks o.startPos)
    {items : List Item} {s : St} (hr : Reach o { ring := r0 } items s)
    (hm : ∀ x ∈ items, x.more = true) (hb : ∀ p ∈ stored items, p.length = 188) :
    s.ring.ringSize = o.chunkSize * o.numChunks := by
  obtain ⟨g⟩ := RingFileSink.geom_of_accept ((RingFileSink.accept_iff _ _ _).2 hopt)
  rcases RingFileSink.open_spec ((RingFileSink.accept_iff _ _ _).2 hopt) results g with
    ⟨s1, e1, hmid, hbuf⟩ | ⟨s1, e1, _⟩
  · rw [S.opened] at e1; cases e1
    obtain ⟨w, hm', _⟩ := RingFileSink.accepts_spec g hmid (by rw [hbuf]; simp)
      ((inv_reach hr).accepts hm) hb
    exact hm'.ring
  · rw [S.opened] at e1; cases e1

theorem Session.open_log {o : Opt} {results : List Int} {is : List ServiceRecorder.Input}
    {code : Nat} {h : Hist} {r0 : RingFileSink.St} (S : Session o results is code h r0)
    (hopt : Permitted o.chunkSize o.numChunks o.startPos) :
    r0.log = RingFileSink.openLog o.startPos ∧ r0.ringPos = o.startPos := by
  obtain ⟨g⟩ := RingFileSink.geom_of_accept ((RingFileSink.accept_iff _ _ _).2 hopt)
  rcases RingFileSink.open_spec ((RingFileSink.accept_iff _ _ _).2 hopt) results g with
    ⟨s1, e1, hmid, hbuf⟩ | ⟨s1, e1, _⟩
  · rw [S.opened] at e1; cases e1
    constructor
    · obtain ⟨t, h1, h2⟩ := hmid.log
      have ht : t = [] := by
        generalize hw : 8192 * 0 = w at h2
        cases h2 with
        | nil => rfl
        | @write W log n _ h3 _ _ => simp at hw; omega
      rw [h1, ht, List.append_nil]
    · have h := hmid.rp
      rw [hbuf] at h
      have e := Nat.mod_eq_of_lt (Nat.mul_lt_mul_of_pos_left g.hak g.c0)
      rw [h, Nat.add_zero, List.length_nil, Nat.add_zero, e]
      exact g.hS.symm
  · rw [S.opened] at e1; cases e1

theorem Session.no_chunk_before {o : Opt} {results : List Int}
    {is : List ServiceRecorder.Input} {code : Nat} {h : Hist} {r0 : RingFileSink.St}
    (S : Session o results is code h r0) {pre : List Tr} {t : Int} {pos : Nat} {post : List Tr}
    (hs : h.trace = pre ++ .msg (.chunk t pos) :: post) :
    ∃ pre' post', pre = r0.log.map .op ++ .msg .start :: pre' ∧
      outs h.items = pre' ++ .msg (.chunk t pos) :: post' := by
  rw [S.trace] at hs
  rcases split_append hs with ⟨post', e1, _⟩ | ⟨pre2, rfl, e2⟩
  · have : Tr.msg (.chunk t pos) ∈ r0.log.map Tr.op := by rw [e1]; simp
    simp at this
  · cases pre2 with
    | nil => simp at e2
    | cons x pre2 =>
      simp only [List.cons_append, List.cons.injEq] at e2
      obtain ⟨rfl, e2⟩ := e2
      rcases split_append e2 with ⟨post', e3, _⟩ | ⟨pre3, rfl, e4⟩
      · exact ⟨pre2, post', rfl, e3⟩
      · match pre3, e4 with
        | [], e4 => simp at e4
        | y :: l, e4 => simp at e4

/-- **C38**  Every chunk message carries a position that is a multiple of the chunk size
and below the ring size: the one reached by the data written so far.  At the `n`-th
chunk message (from 0) exactly `n` chunks of the recorded packets have been written, and
the last chunk has been made durable just before: every byte written so far and not
overwritten since is in the file.  In a recording without failure there is a first chunk
message and one for each complete chunk. -/
theorem C38_chunks (o : Opt) (results : List Int) (is : List ServiceRecorder.Input)
    (code : Nat) (h : Hist) (hopt : Permitted o.chunkSize o.numChunks o.startPos)
    (hb : ∀ i ∈ is, i.bytes.length = 188) (hr : Recorded o results is code h) :
    (∀ pre t pos post, h.trace = pre ++ .msg (.chunk t pos) :: post →
      let W := (written (fileOps pre)).length
      pos % o.chunkSize = 0 ∧ pos < o.chunkSize * o.numChunks ∧
      pos = (o.startPos + W) % (o.chunkSize * o.numChunks) ∧
      W = chunks (messages pre) * o.chunkSize ∧
      written (fileOps pre) <+: (stored h.items).flatten ∧
      (0 < W → ∃ ops p, fileOps pre = ops ++ [.sync, .notify p] ∧
        ∀ f : RingFile, f.off = 0 → ∀ k < W, W ≤ k + o.chunkSize * o.numChunks →
          (stored h.items).flatten[k]? =
            some ((f.run ops).content ((o.startPos + k) % (o.chunkSize * o.numChunks))))) ∧
    (.failed ∉ fileOps h.trace → HasBeenReady o.sid h.items →
      chunks (messages h.trace) = 1 + (stored h.items).flatten.length / o.chunkSize) := by
  have hC := hopt.chunkPos
  rcases cases_of_recorded hr with ⟨h1, h2, h3, _⟩ | ⟨r0, S⟩
  · constructor
    · intro pre t pos post hs
      rw [hs, messages_append] at h2
      simp [messages] at h2
    · rintro _ ⟨a, b, e, ⟨⟨c, hc, hready⟩, _⟩⟩
      rw [h1] at e
      have ha : a = [] := by
        cases a with
        | nil => rfl
        | cons => simp at e
      subst ha
      simp only [ClockIs, clockCalls, Clock.run, Except.ok.injEq] at hc
      subst hc
      cases hready
  · obtain ⟨l1, l2⟩ := S.open_log hopt
    have hinv := inv_reach S.reach
    have hst := S.bytes hb h.items [] (by simp)
    constructor
    · intro pre t pos post hs W
      obtain ⟨pre', post', rfl, hsplit⟩ := S.no_chunk_before hs
      have hsz : ∀ items s, Reach o { ring := r0 } items s → (∀ x ∈ items, x.more = true) →
          (∀ p ∈ stored items, p.length = 188) → s.ring.ringSize = o.chunkSize * o.numChunks :=
        fun items s k1 k2 k3 => S.size hopt k1 k2 k3
      have hall : ∀ pre t p post, outs h.items = pre ++ .msg (.chunk t p) :: post → _ :=
        chunk_split (R := o.chunkSize * o.numChunks) hsz S.reach hst
      obtain ⟨c1, c2, _⟩ := hall pre' t pos post' hsplit
      have e1 : fileOps (r0.log.map .op ++ .msg .start :: pre') = r0.log ++ fileOps pre' := by
        rw [fileOps_append, fileOps_op]; rfl
      have e2 : messages (r0.log.map .op ++ .msg .start :: pre') = .start :: messages pre' := by
        rw [messages_append, messages_op]; rfl
      have e3 : chunks (Msg.start :: messages pre') = chunks (messages pre') := by
        simp [chunks]
      have hW : W = (written (r0.log ++ fileOps pre')).length := by rw [← e1]
      rw [e1, e2, e3]
      have w0 : written r0.log = [] := by rw [l1]; exact RingFileSink.openLog_written _
      have a0 : announced r0.log = [] := by rw [l1]; exact RingFileSink.openLog_announced _
      rcases c2 with ⟨d1, d2, d3, d4⟩ | ⟨a, p0, d1, d2⟩
      · have hW0 : W = 0 := by rw [hW, d1, List.append_nil, w0]; rfl
        have hc0 : chunks (messages pre') = 0 := by rw [c1, d1]; rfl
        refine ⟨d4, d3, ?_, by rw [hW0, hc0, Nat.zero_mul], ?_, by omega⟩
        · rw [hW0, Nat.add_zero, Nat.mod_eq_of_lt hopt.startMax, d2, l2]
        · rw [d1, List.append_nil, w0]; exact List.nil_prefix
      · have hlog : h.st.ring.log = (r0.log ++ a) ++ .notify p0 ::
            fileOps (.msg (.chunk t pos) :: post') := by
          rw [hinv.ops, hsplit, fileOps_append, d1]; simp
        have hww : written (r0.log ++ fileOps pre') = written (r0.log ++ a) := by
          rw [d1, ← List.append_assoc, RingFileSink.written_append (r0.log ++ a)]
          simp [written]
        have key := fun f hf => (C10_chunk_durable o.chunkSize o.numChunks o.startPos hopt results r0
          h.st.ring S.opened (stored h.items) (stored h.items) hst hinv.consumes f hf).1
          (r0.log ++ a) p0 _ hlog
        obtain ⟨ops, m1, m2, m3, m4, m5, m6, m7⟩ := key ⟨fun _ => 0, 0, 0⟩ rfl
        rw [hww] at hW
        have hpos : pos = (o.startPos + W) % (o.chunkSize * o.numChunks) := by
          rw [d2, m5, hW]
          have : 0 < o.chunkSize * o.numChunks := Nat.mul_pos hC hopt.numPos
          have := Nat.mod_lt (o.startPos + (written (r0.log ++ a)).length) this
          split <;> split <;> omega
        have hann : (announced (fileOps pre')).length = (announced (r0.log ++ a)).length + 1 := by
          rw [d1, RingFileSink.announced_append, RingFileSink.announced_append, a0]
          simp [announced]
        have hWm : W % o.chunkSize = 0 := by rw [hW]; exact m3
        refine ⟨?_, ?_, hpos, ?_, by rw [hww]; exact m4, ?_⟩
        · rw [hpos, Nat.mod_mul_right_mod, Nat.add_mod, hopt.startMul, hWm]; rfl
        · rw [hpos]; exact Nat.mod_lt _ (Nat.mul_pos hC hopt.numPos)
        · rw [c1, hann, m6, ← hW, Nat.mul_comm]
          exact (Nat.mul_div_cancel' (Nat.dvd_of_mod_eq_zero hWm)).symm
        · intro _
          refine ⟨ops, p0, by rw [d1, ← List.append_assoc, m1]; simp, ?_⟩
          intro f hf k hk hk2
          obtain ⟨ops', n1, n2, n3, n4, n5, n6, n7⟩ := key f hf
          have : ops' = ops := by
            rw [m1] at n1
            exact (List.append_inj' n1 rfl).1.symm
          subst this
          rw [hW] at hk hk2
          exact n7 k hk hk2
    · intro hnf hready
      rw [S.fileOps] at hnf
      have hrec : h.st.recording = true := by
        by_cases hrec : h.st.recording = true
        · exact hrec
        · simp only [Bool.not_eq_true] at hrec
          exact absurd hready (hinv.prep hrec).2.2.2.2.1
      have hacc : Accepts RingFileSink.sink r0 (stored h.items) h.st.ring := by
        rcases (C12_errors_reported o.chunkSize o.numChunks o.startPos hopt results).1 r0 h.st.ring
          S.opened _ _ hst hinv.consumes with ⟨ha, _⟩ | ⟨_, _, _, ⟨l, hl⟩, _⟩
        · exact ha
        · rw [hl] at hnf; simp at hnf
      have hann := (C10_chunk_durable o.chunkSize o.numChunks o.startPos hopt results r0
          h.st.ring S.opened (stored h.items) (stored h.items) hst hinv.consumes
          ⟨fun _ => 0, 0, 0⟩ rfl).2 hacc
      have a0 : announced r0.log = [] := by rw [l1]; exact RingFileSink.openLog_announced _
      rw [hinv.ops, RingFileSink.announced_append, a0, List.nil_append] at hann
      obtain ⟨_, _, _, _, hch⟩ := hinv.record hrec
      have hlast : chunks (Msg.start :: (messages (outs h.items) ++ [.stop h.st.ring.broken])) =
          chunks (messages (outs h.items)) := by simp [chunks]
      rw [S.messages, hlast, hch, hann]
      omega

/-- A recording of 51 packets (one complete chunk) that meets the hypotheses. -/
example : ∃ c h, Permitted C37ex.opt.chunkSize C37ex.opt.numChunks C37ex.opt.startPos ∧
    (∀ i ∈ C37ex.stream, i.bytes.length = 188) ∧
    Recorded C37ex.opt (List.replicate 9 300000) C37ex.stream c h ∧
    chunks (messages h.trace) = 2 := by
  obtain ⟨c, h, h1, h2⟩ := C37ex.run_stream
  refine ⟨c, h, C37ex.permitted, C37ex.bytes_ok, h1, ?_⟩
  rw [(of_decide_eq_true h2).2.1]; rfl

/-- **C39**  Events tile the recording: the start record of an event is the end record of
the event before, or the record of the first chunk message if no event ended before; an
event ends at the position reached with the packets recorded before the current one; and
while an event is open, a chunk message is preceded by an event-update with the same time
and position. -/
theorem C39_events_tile (o : Opt) (results : List Int) (is : List ServiceRecorder.Input)
    (code : Nat) (h : Hist) (hopt : Permitted o.chunkSize o.numChunks o.startPos)
    (hb : ∀ i ∈ is, i.bytes.length = 188) (hr : Recorded o results is code h) :
    (∀ pre e ev t pos post, messages h.trace = pre ++ .eventStart e ev t pos :: post →
      (ends pre).getLast?.or (chunkRecords pre).head? = some (t, pos)) ∧
    (∀ a it b e ev t pos, h.items = a ++ it :: b → .eventEnd e ev t pos ∈ messages it.out →
      pos = (o.startPos + 188 * (stored a).length) % (o.chunkSize * o.numChunks)) ∧
    (∀ pre t pos post id, h.trace = pre ++ .msg (.chunk t pos) :: post →
      Phase.initial.read (messages pre) = some (.event id) →
      ∃ pre' e ev, pre = pre' ++ [.msg (.eventUpdate e ev t pos)]) := by
  rcases cases_of_recorded hr with ⟨h1, h2, h3, _⟩ | ⟨r0, S⟩
  · refine ⟨?_, ?_, ?_⟩
    · intro pre e ev t pos post hs; rw [h2] at hs; simp at hs
    · intro a it b e ev t pos hs; rw [h1] at hs; simp at hs
    · intro pre t pos post id hs
      rw [hs, messages_append] at h2
      simp [messages] at h2
  · refine ⟨?_, ?_, ?_⟩
    · intro pre e ev t pos post hs
      rw [S.messages] at hs
      cases pre with
      | nil => simp at hs
      | cons x pre =>
        simp only [List.cons_append, List.cons.injEq] at hs
        obtain ⟨rfl, hs⟩ := hs
        rcases split_append hs with ⟨post', e1, _⟩ | ⟨pre2, rfl, e2⟩
        · have := start_split S.reach pre e ev t pos post' e1
          simpa [ServiceRecorder.boundary, ends, chunkRecords] using this
        · match pre2, e2 with
          | [], e2 => simp at e2
          | y :: l, e2 => simp at e2
    · intro a it b e ev t pos hs hm
      have hreach := S.reach
      rw [hs] at hreach
      obtain ⟨s1, c, k1, k2, k3, k4⟩ := item_messages hreach
      have hpos : pos = s1.ring.ringPos := by
        rcases k4 _ hm with ⟨_, _, k, _⟩ | ⟨_, _, _, _, k, _⟩ | ⟨_, _, _, _, k, _⟩ |
          ⟨_, _, _, _, _, k, _, k', _⟩
        · cases k
        · cases k
        · cases k
        · cases k; exact k'
      rw [hpos]
      exact (C09_ring_position o.chunkSize o.numChunks o.startPos hopt results r0 s1.ring S.opened
        (stored a) (S.bytes hb a (it :: b) hs) ((inv_reach k1).accepts k2) ⟨fun _ => 0, 0, 0⟩ rfl).1
    · intro pre t pos post id hs hread
      obtain ⟨pre', post', rfl, hsplit⟩ := S.no_chunk_before hs
      have hst := S.bytes hb h.items [] (by simp)
      obtain ⟨_, _, c3⟩ := chunk_split (R := o.chunkSize * o.numChunks)
        (fun items s k1 k2 k3 => S.size hopt k1 k2 k3) S.reach hst pre' t pos post' hsplit
      have e2 : messages (r0.log.map .op ++ .msg .start :: pre') = .start :: messages pre' := by
        rw [messages_append, messages_op]; rfl
      rw [e2] at hread
      obtain ⟨q, e, ev, rfl⟩ := c3 id hread
      exact ⟨r0.log.map .op ++ .msg .start :: q, e, ev, by simp⟩

/-- A recording of three events, the second ending in time and the others by a switch. -/
example : ∃ c h, Permitted C37ex.opt.chunkSize C37ex.opt.numChunks C37ex.opt.startPos ∧
    (∀ i ∈ C37ex.stream, i.bytes.length = 188) ∧
    Recorded C37ex.opt (List.replicate 9 300000) C37ex.stream c h ∧
    ends (messages h.trace) = [(5000, 80), (5200, 456)] := by
  obtain ⟨c, h, h1, h2⟩ := C37ex.run_stream
  refine ⟨c, h, C37ex.permitted, C37ex.bytes_ok, h1, ?_⟩
  rw [(of_decide_eq_true h2).2.1]; rfl

/-- **C40**  A packet is recorded exactly if the clock was synchronised and a present
event was known before it.  The packets written to the ring file are the recorded ones,
in order; as long as no file operation fails every packet of the stream is processed and
everything but the last incomplete block of 8192 bytes has been written. -/
theorem C40_recorded (o : Opt) (results : List Int) (is : List ServiceRecorder.Input)
    (code : Nat) (h : Hist) (hopt : Permitted o.chunkSize o.numChunks o.startPos)
    (hb : ∀ i ∈ is, i.bytes.length = 188) (hr : Recorded o results is code h) :
    (∀ a it b, h.items = a ++ it :: b → (it.stored = true ↔ HasBeenReady o.sid a)) ∧
    h.items.map (·.input) <+: is ∧
    written (fileOps h.trace) <+: (stored h.items).flatten ∧
    (.start ∈ messages h.trace → .failed ∉ fileOps h.trace → h.items.map (·.input) = is ∧
      (written (fileOps h.trace)).length = (stored h.items).flatten.length / 8192 * 8192) := by
  rcases cases_of_recorded hr with ⟨h1, h2, h3, h4⟩ | ⟨r0, S⟩
  · refine ⟨?_, by rw [h1]; exact List.nil_prefix, ?_, by rw [h2]; intro h; cases h⟩
    · intro a it b hs; rw [h1] at hs; simp at hs
    · rw [h4]; exact List.nil_prefix
  · have hinv := inv_reach S.reach
    have hst := S.bytes hb h.items [] (by simp)
    obtain ⟨g⟩ := RingFileSink.geom_of_accept ((RingFileSink.accept_iff _ _ _).2 hopt)
    rw [S.fileOps]
    refine ⟨?_, S.pre, ?_, ?_⟩
    · intro a it b hs
      obtain ⟨s1, s2, k1, k2, k3, _⟩ := S.reach.split a it b hs
      have hi := inv_reach k1
      obtain ⟨sf, hf, hin, ht, hc⟩ := step_cases hi.told k3
      rcases hc with ⟨hrec, hsto, _⟩ | ⟨hrec, hsto, _⟩
      · rw [hsto]
        exact ⟨fun h => absurd h (by simp), fun h => absurd h (hi.prep hrec).2.2.2.2.1⟩
      · exact ⟨fun _ => (hi.record hrec).1, fun _ => hsto⟩
    · obtain ⟨t, full, W, fl, l1, l2, l3, l4⟩ := RingFileSink.log_shape hopt g S.opened hst hinv.consumes
      rw [l1, RingFileSink.written_append, RingFileSink.written_append, RingFileSink.openLog_written]
      have hfl : written fl = [] := by rcases l4 with rfl | rfl <;> rfl
      rw [hfl, List.append_nil, List.nil_append]
      obtain ⟨post, hpost⟩ := l3
      have := l2.written
      rw [← hpost, RingFileSink.written_append] at this
      exact (List.prefix_append _ _).trans (this ▸ List.take_prefix _ _)
    · intro _ hnf
      rcases RingFileSink.run_shape hopt g S.opened hst hinv.consumes with ⟨ha, _, hsm, w, hm⟩ | ⟨hbr, _⟩
      · constructor
        · rcases S.all with ⟨e, _⟩ | ⟨x, hx, hmore⟩
          · exact e
          · exfalso
            obtain ⟨a, e⟩ : ∃ a, h.items = a ++ [x] := by
              rcases List.eq_nil_or_concat h.items with e | ⟨a, y, e⟩
              · rw [e] at hx; cases hx
              · rw [List.concat_eq_append] at e
                rw [e, List.getLast?_append] at hx
                simp at hx
                exact ⟨a, by rw [e, hx]⟩
            obtain ⟨s1, s2, k1, k2, k3, k4, _⟩ := S.reach.split a x [] e
            have hi := inv_reach k1
            obtain ⟨sf, hf, hin, ht, hc⟩ := step_cases hi.told k3
            have hs2 : h.st = s2 := by
              have := S.reach
              rw [e] at this
              exact this.unique k4
            rcases hc with ⟨_, _, hm', _⟩ | ⟨hrec, hsto, hp⟩
            · rw [hmore] at hm'; cases hm'
            · obtain ⟨p1, p2, ⟨e0, ev0, p3, p4⟩, p5, p6⟩ := hi.record hrec
              obtain ⟨now, s3, evs, ring, ops, q1, q2, q3, q4, q5, q6⟩ :=
                record_spec (by rw [hf.eit]; exact p3) p4 hp
              have hlen : x.input.bytes.length = 188 := by
                apply hst
                rw [e, stored_append]
                simp [stored, hsto]
              rcases RingFileSink.open_spec ((RingFileSink.accept_iff _ _ _).2 hopt) results g with
                ⟨s4, e4, hm4, hb4⟩ | ⟨s4, e4, _⟩
              · rw [S.opened] at e4; cases e4
                obtain ⟨w', hm', hsm'⟩ := RingFileSink.accepts_spec g hm4 (by rw [hb4]; simp)
                  (hi.accepts k2) (S.bytes hb a [x] e)
                rw [hf.ring, hmore] at q3
                rcases RingFileSink.handle_spec g hm' hsm' x.input.bytes hlen with
                  ⟨_, _, e5, _⟩ | ⟨_, e5, _, e6⟩
                · rw [q3] at e5; cases e5
                · rw [q3] at e5; cases e5
                  have hb' := hm.ok
                  rw [hs2, q5] at hb'
                  rw [hb'] at e6; cases e6
              · rw [S.opened] at e4; cases e4
        · obtain ⟨t, l1, l2⟩ := hm.log
          rw [l1, RingFileSink.written_append, RingFileSink.openLog_written, List.nil_append, l2.written,
            List.length_take]
          have := hm.len
          omega
      · obtain ⟨⟨t, full, W, e, _⟩, _⟩ := hbr
        rw [e] at hnf
        simp at hnf

/-- 51 of 57 packets are recorded. -/
example : ∃ c h, Permitted C37ex.opt.chunkSize C37ex.opt.numChunks C37ex.opt.startPos ∧
    (∀ i ∈ C37ex.stream, i.bytes.length = 188) ∧
    Recorded C37ex.opt (List.replicate 9 300000) C37ex.stream c h ∧
    h.items.length = 57 ∧ (stored h.items).length = 51 := by
  obtain ⟨c, h, h1, h2⟩ := C37ex.run_stream
  exact ⟨c, h, C37ex.permitted, C37ex.bytes_ok, h1, (of_decide_eq_true h2).2.2⟩

/-- **C40**, tables.  In a conforming stream, the tables that count for C40 are those on
the PIDs of PAT, EIT and TOT and on the PMT PID according to the latest PAT. -/
theorem C40_tables (o : Opt) (results : List Int) (is : List ServiceRecorder.Input)
    (code : Nat) (h : Hist) (hr : Recorded o results is code h)
    (hc : ∀ i ∈ is, ∀ t ∈ i.tables, Conforming o.sid t) (a : List Item) (it : Item) (b : List Item)
    (hs : h.items = a ++ it :: b) :
    (Watched o.sid (received a) it.input.packet.pid →
      it.handled = it.input.tables.filter (·.sourcePid == it.input.packet.pid)) ∧
    (¬ Watched o.sid (received a) it.input.packet.pid → it.handled = []) := by
  rcases cases_of_recorded hr with ⟨h1, _⟩ | ⟨r0, S⟩
  · rw [h1] at hs; simp at hs
  · refine (reach_watch S.reach ?_).2 a it b hs
    intro x hx t ht
    exact hc _ (S.pre.subset (List.mem_map.2 ⟨x, hx, rfl⟩)) t ht

example : ∀ i ∈ C37ex.stream, ∀ t ∈ i.tables, Conforming C37ex.opt.sid t := by
  have hpat : Conforming C37ex.opt.sid C37ex.pat := by
    intro pat h pid hm
    simp [usablePat, C37ex.pat] at h
    subst h
    simp [C37ex.opt] at hm
    omega
  have hother : ∀ t : Table, usablePat t = none → Conforming C37ex.opt.sid t := by
    intro t h pat h'; rw [h] at h'; cases h'
  intro i hi t ht
  have : ∀ i ∈ C37ex.stream, ∀ t ∈ i.tables, t = C37ex.pat ∨ usablePat t = none := by
    decide +kernel
  rcases this i hi t ht with rfl | h
  · exact hpat
  · exact hother t h

/-- **C41**  The stop message says reset exactly if a file operation failed, and exactly
then the exit code is EXIT_FAILURE (1), otherwise it is 0; without a stop message (the
start position could not be set) it is EXIT_FAILURE. -/
theorem C41_reset (o : Opt) (results : List Int) (is : List ServiceRecorder.Input)
    (code : Nat) (h : Hist) (hopt : Permitted o.chunkSize o.numChunks o.startPos)
    (hb : ∀ i ∈ is, i.bytes.length = 188) (hr : Recorded o results is code h) :
    (messages h.trace = [] ∧ .failed ∈ fileOps h.trace ∧ code = 1) ∨
    (.stop true ∈ messages h.trace ∧ .stop false ∉ messages h.trace ∧
      .failed ∈ fileOps h.trace ∧ code = 1) ∨
    (.stop false ∈ messages h.trace ∧ .stop true ∉ messages h.trace ∧
      .failed ∉ fileOps h.trace ∧ code = 0) := by
  have hord := C37_message_order o results is code h hr
  rcases cases_of_recorded hr with ⟨_, h1, h2, h4⟩ | ⟨r0, S⟩
  · exact .inl ⟨h1, by rw [h4]; simp, h2⟩
  · right
    have hm := S.messages
    have hone : ∀ r, .stop r ∈ messages h.trace ↔ r = h.st.ring.broken := by
      intro r
      rcases hord with ⟨e, _⟩ | ⟨_, ms, reset, e, hno, _⟩
      · rw [hm] at e; cases e
      · have e2 := e
        rw [hm, List.cons_append, List.cons.injEq] at e2
        have e3 := (List.append_inj' e2.2 rfl).2
        simp only [List.cons.injEq, Msg.stop.injEq, and_true] at e3
        rw [e]
        simp only [List.cons_append, List.mem_cons, List.mem_append, reduceCtorEq, false_or,
          Msg.stop.injEq, List.not_mem_nil, or_false]
        constructor
        · rintro (h | h)
          · exact absurd rfl ((hno _ h).2 r)
          · rw [h, e3]
        · intro h; exact .inr (by rw [h, e3])
    have hst := S.bytes hb h.items [] (by simp)
    rw [S.fileOps, hone, hone]
    rcases (C12_errors_reported o.chunkSize o.numChunks o.startPos hopt results).1 r0 h.st.ring
      S.opened _ _ hst (inv_reach S.reach).consumes with ⟨_, _, k1, k2, k3, _⟩ | ⟨_, k1, k2, ⟨l, k3⟩, _⟩
    · right
      rw [k1]
      exact ⟨rfl, by simp, k3, by rw [S.code]; exact k2⟩
    · left
      rw [k1, k3]
      exact ⟨rfl, by simp, by simp, by rw [S.code]; exact k2⟩

/-- A recording that fails with the first write. -/
example : ∃ c h, Permitted C37ex.opt.chunkSize C37ex.opt.numChunks C37ex.opt.startPos ∧
    (∀ i ∈ C37ex.stream, i.bytes.length = 188) ∧
    Recorded C37ex.opt [1, 0] C37ex.stream c h ∧ .stop true ∈ messages h.trace ∧ c = 1 := by
  obtain ⟨c, h, h1, h2⟩ := C37ex.run_broken
  refine ⟨c, h, C37ex.permitted, C37ex.bytes_ok, h1, ?_, (of_decide_eq_true h2).1⟩
  rw [(of_decide_eq_true h2).2.1]; simp

/-- **C42**, the claim as it stands is false: a PAT without the service makes the command
terminate abnormally, and so does a PCR beyond the largest valid one. -/
theorem C42_claim_false :
    (∃ o results is, Permitted o.chunkSize o.numChunks o.startPos ∧
      (∀ i ∈ is, i.bytes.length = 188) ∧ (∀ i ∈ is, i.packet.pcr = none) ∧
      ∀ code h, ¬ Recorded o results is code h) ∧
    (∃ o results is, Permitted o.chunkSize o.numChunks o.startPos ∧
      (∀ i ∈ is, i.bytes.length = 188) ∧ (∀ i ∈ is, ∀ t ∈ i.tables, Listed o.sid t) ∧
      ∀ code h, ¬ Recorded o results is code h) := by
  have key : ∀ is, C37ex.exec C37ex.opt [] is = .error .assertFail →
      ∀ code h, ¬ Recorded C37ex.opt [] is code h := by
    intro is he code h hr
    rw [C37ex.recorded_iff, he] at hr
    cases hr
  refine ⟨⟨C37ex.opt, [], [C37ex.tab C37ex.pat0], C37ex.permitted, by decide +kernel,
    by decide +kernel, key _ (error_of_eval (by decide +kernel))⟩,
    C37ex.opt, [], [C37ex.tab C37ex.pat, C37ex.tab C37ex.pmt, C37ex.pcr 2576980377600],
    C37ex.permitted, by decide +kernel, ?_, key _ (error_of_eval (by decide +kernel))⟩
  intro i hi t ht pat hp
  simp only [List.mem_cons, List.not_mem_nil, or_false] at hi
  rcases hi with rfl | rfl | rfl
  · simp only [C37ex.tab, List.mem_singleton] at ht
    subst ht
    simp [usablePat, C37ex.pat] at hp
    subst hp
    exact ⟨0x100, by simp [C37ex.opt]⟩
  · simp only [C37ex.tab, List.mem_singleton] at ht
    subst ht
    simp [usablePat, C37ex.pmt] at hp
  · simp [C37ex.pcr] at ht

/-- **C42**, partial: if every usable PAT lists the service and every PCR is below
2^33 · 300, the command does not terminate abnormally, whatever the source and whatever
the results of the file operations.  Missing from the claim: PATs without the service
and PCRs with an extension of 300 or more (`C42_claim_false`). -/
theorem C42_no_abort_partial (o : Opt) (results : List Int) (is : List ServiceRecorder.Input)
    (hopt : Permitted o.chunkSize o.numChunks o.startPos)
    (hb : ∀ i ∈ is, i.bytes.length = 188)
    (hp : ∀ i ∈ is, ∀ x, i.packet.pcr = some x → 0 ≤ x ∧ x < 2 ^ 33 * 300)
    (ht : ∀ i ∈ is, ∀ t ∈ i.tables, Listed o.sid t) (τ : Type)
    (src : Source ServiceRecorder.Input τ) (t : τ) (fuel : Nat) (hy : Yields src t is)
    (hf : is.length < fuel) :
    ∃ h0 code h, init o results = .ok h0 ∧ feedPackets src (sink o) fuel t h0 = .ok (code, h) := by
  obtain ⟨h0, ⟨code, h⟩, h1, h2⟩ := run_total (results := results) hopt
    (fun i hi => ⟨hb i hi, fun x hx => (isValidPcr_iff x).2 (by
      have := hp i hi x hx
      rw [Clock.two_pow] at this; exact this), ht i hi⟩) src t fuel hy hf
  exact ⟨h0, code, h, h1, h2⟩

/-- The stream of the examples meets the hypotheses. -/
example : (∀ i ∈ C37ex.stream, ∀ x, i.packet.pcr = some x → 0 ≤ x ∧ x < 2 ^ 33 * 300) ∧
    (∀ i ∈ C37ex.stream, ∀ t ∈ i.tables, Listed C37ex.opt.sid t) ∧
    Yields listSource C37ex.stream C37ex.stream := by
  refine ⟨?_, ?_, listSource_yields _⟩
  · intro i hi x hx
    have : ∀ i ∈ C37ex.stream, i.packet.pcr = none ∨ i.packet.pcr = some 0 ∨
        i.packet.pcr = some 8100000 := by decide +kernel
    rcases this i hi with h | h | h <;> rw [h] at hx <;> cases hx <;> decide
  · intro i hi t ht pat hp
    have : ∀ i ∈ C37ex.stream, ∀ t ∈ i.tables, t = C37ex.pat ∨ usablePat t = none := by
      decide +kernel
    rcases this i hi t ht with rfl | h
    · simp [usablePat, C37ex.pat] at hp
      subst hp
      exact ⟨0x100, by simp [C37ex.opt]⟩
    · rw [h] at hp; cases hp

/-- **C75**, the claim is false: the present event may be neither over nor open.  Event 2
is over at 5200 ms; the EIT received after that extends it to 50.2 s; it is not opened
again. -/
theorem C75_claim_false : ¬ ∀ o results is code h,
    Permitted o.chunkSize o.numChunks o.startPos → (∀ i ∈ is, i.bytes.length = 188) →
    Recorded o results is code h → ∀ a it b, h.items = a ++ it :: b →
    HasBeenReady o.sid (a ++ [it]) → ∀ e ev now,
    latest (presentEit o.sid) (received (a ++ [it])) = some e → e.events.head? = some ev →
    TimeIs o.sid a it now → ¬ Over ev now →
    Phase.initial.read (.start :: (a ++ [it]).flatMap (fun it => messages it.out)) =
      some (.event ev.eventId) := by
  intro hall
  obtain ⟨c, h, h1, h2⟩ := C37ex.run_extended
  have hI := of_decide_eq_true h2
  have hc := hall _ _ _ _ _ C37ex.permitted (by decide +kernel) h1 C37ex.before C37ex.last []
    hI ⟨C37ex.before, [C37ex.last], rfl, ok_of_check (P := Clock.isReady) (by decide +kernel), _, by rfl⟩
    (C37ex.eit C37ex.ev2') C37ex.ev2' 5300 (by decide +kernel) rfl
    (by
      obtain ⟨c, k1, k2⟩ := ok_of_check
        (r := Clock.run {} (clockCalls C37ex.opt.sid [] (C37ex.before ++ [C37ex.last])))
        (P := fun c => decide (c.now C37ex.last.input.nowLocal = .ok 5300)) (by decide +kernel)
      exact ⟨c, k1, of_decide_eq_true k2⟩) (by simp [Over, C37ex.ev2'])
  revert hc
  decide +kernel

/-- **C75**, partial: after every packet of the recording, either the event open is that
of the latest EIT, and it is not over unless it was started with this packet (and this
is not the packet with which recording begins); or no event
is open, and at this packet or one before, an EIT of the same event showed that the event
was over.  Missing from the claim: an event extended after it was over is not opened
again (`C75_claim_false`). -/
theorem C75_event_open_partial (o : Opt) (results : List Int) (is : List ServiceRecorder.Input)
    (code : Nat) (h : Hist) (hr : Recorded o results is code h) (a : List Item) (it : Item)
    (b : List Item) (hs : h.items = a ++ it :: b) (hready : HasBeenReady o.sid (a ++ [it])) :
    ∃ e ev now, latest (presentEit o.sid) (received (a ++ [it])) = some e ∧
      e.events.head? = some ev ∧ TimeIs o.sid a it now ∧
      ((Phase.initial.read (.start :: (a ++ [it]).flatMap (fun it => messages it.out)) =
          some (.event ev.eventId) ∧
        (Over ev now → it.stored = true ∧ ∃ t pos, .eventStart e ev t pos ∈ messages it.out)) ∨
       (Phase.initial.read (.start :: (a ++ [it]).flatMap (fun it => messages it.out)) = some .idle ∧
        ∃ a' it' b' e' ev' now', a ++ [it] = a' ++ it' :: b' ∧
          latest (presentEit o.sid) (received (a' ++ [it'])) = some e' ∧
          e'.events.head? = some ev' ∧ ev'.eventId = ev.eventId ∧
          TimeIs o.sid a' it' now' ∧ Over ev' now')) := by
  rcases cases_of_recorded hr with ⟨h1, _⟩ | ⟨r0, S⟩
  · rw [h1] at hs; simp at hs
  · obtain ⟨s1, s2, k1, k2, k3, k4, _⟩ := S.reach.split a it b hs
    have hi := inv_reach k4
    have hflat : ∀ l : List Item, messages (outs l) = l.flatMap (fun it => messages it.out) := by
      intro l
      induction l with
      | nil => rfl
      | cons x xs ih =>
        rw [List.flatMap_cons, ← ih]
        show messages (x.out ++ outs xs) = _
        rw [messages_append]
    obtain ⟨ph, hph, hpo⟩ := hi.phase
    rw [hflat] at hph
    have hrd : Phase.initial.read (.start :: (a ++ [it]).flatMap (fun it => messages it.out)) =
        some ph := hph
    have hrec : s2.recording = true := by
      by_cases hrec : s2.recording = true
      · exact hrec
      · simp only [Bool.not_eq_true] at hrec
        exact absurd hready (hi.prep hrec).2.2.2.2.1
    obtain ⟨_, p2, ⟨e0, ev0, p3, p4⟩, _⟩ := hi.record hrec
    have hlat : latest (presentEit o.sid) (received (a ++ [it])) = some e0 := by
      rw [← hi.told.eit, p2, p3]; rfl
    rw [hrd]
    by_cases hst : s2.started = true
    · obtain ⟨e, ev, now, q1, q2, q3, q4⟩ := open_reason k4 hst
      rw [p3] at q1; cases q1
      rw [p4] at q2; cases q2
      refine ⟨e0, ev0, now, hlat, p4, q3, .inl ⟨?_, ?_⟩⟩
      · rcases hpo with ⟨h, _⟩ | ⟨_, h, _⟩ | ⟨_, _, e, ev, m1, m2, rfl⟩
        · rw [hrec] at h; cases h
        · rw [hst] at h; cases h
        · rw [p3] at m1; cases m1
          rw [p4] at m2; cases m2; rfl
      · intro hover
        rcases q4 with q4 | q4
        · exact absurd hover q4
        · exact q4
    · simp only [Bool.not_eq_true] at hst
      obtain ⟨e, ev, a', it', b', e', ev', now', m1, m2, m3, m4, m5, m6, m7, m8⟩ :=
        idle_reason k4 hrec hst
      rw [p3] at m1; cases m1
      rw [p4] at m2; cases m2
      obtain ⟨now, hn⟩ : ∃ now, TimeIs o.sid a it now := by
        obtain ⟨now, hnow⟩ := Clock.now_total (l := it.input.nowLocal)
          (Clock.run_valid _ (c := {}) (by decide) hi.told.clock)
        exact ⟨now, _, hi.told.clock, hnow⟩
      refine ⟨e0, ev0, now, hlat, p4, hn, .inr ⟨?_, a', it', b', e', ev', now', m3, m4, m5, m6, m7, m8⟩⟩
      rcases hpo with ⟨h, _⟩ | ⟨_, _, rfl⟩ | ⟨_, h, _⟩
      · rw [hrec] at h; cases h
      · rfl
      · rw [hst] at h; cases h

/-- The recording of the counterexample, before the extension, meets the hypotheses. -/
example : ∃ c h, Recorded C37ex.opt [] C37ex.extended c h ∧
    (∃ b, h.items = C37ex.before.dropLast ++ C37ex.item (C37ex.pcr 8100000) true
      [.eventEnd (C37ex.eit C37ex.ev2) C37ex.ev2 5200 8192] :: b) ∧
    HasBeenReady C37ex.opt.sid C37ex.before := by
  obtain ⟨c, h, h1, h2⟩ := C37ex.run_extended
  refine ⟨c, h, h1, ⟨[C37ex.last], ?_⟩, C37ex.before, [], by simp,
    ok_of_check (P := Clock.isReady) (by decide +kernel), _, by rfl⟩
  rw [of_decide_eq_true h2]; rfl

/-- **C115**  Which events are started and ended with a packet, whatever
the stream.  Before the recording begins none are.  With the packet it begins with, the
present event is started unless it is over, at the stream time and the start position.
After that, with `ev0` the present event before the packet and `ev` the one after it:
* if an event is open, it is `ev0`.  If `ev` is another event, `ev0` is ended and `ev`
  started, both at the stream time; if it is the same event and over, it is ended, at
  its end time; otherwise nothing happens.
* if none is open, `ev` is started exactly if it is another event than `ev0`, with the
  record of the last event-end message, or of the first chunk message if there was none:
  even if `ev` is over already.  Otherwise nothing happens, even if `ev` is not over. -/
theorem C115_event_boundaries (o : Opt) (results : List Int) (is : List ServiceRecorder.Input)
    (code : Nat) (h : Hist) (hopt : Permitted o.chunkSize o.numChunks o.startPos)
    (hb : ∀ i ∈ is, i.bytes.length = 188) (hr : Recorded o results is code h) (a : List Item)
    (it : Item) (b : List Item) (hs : h.items = a ++ it :: b) :
    (¬ HasBeenReady o.sid (a ++ [it]) → edges (messages it.out) = []) ∧
    (HasBeenReady o.sid (a ++ [it]) → ¬ HasBeenReady o.sid a →
      ∃ e ev now, latest (presentEit o.sid) (received (a ++ [it])) = some e ∧
        e.events.head? = some ev ∧ TimeIs o.sid a it now ∧
        (Over ev now → edges (messages it.out) = []) ∧
        (¬ Over ev now → edges (messages it.out) = [.eventStart e ev now o.startPos])) ∧
    (HasBeenReady o.sid a → ∃ e0 ev0 e ev now,
      latest (presentEit o.sid) (received a) = some e0 ∧ e0.events.head? = some ev0 ∧
      latest (presentEit o.sid) (received (a ++ [it])) = some e ∧ e.events.head? = some ev ∧
      TimeIs o.sid a it now ∧
      ((Phase.initial.read (.start :: a.flatMap (fun it => messages it.out)) =
          some (.event ev0.eventId) ∧
        (ev.eventId ≠ ev0.eventId → edges (messages it.out) =
          [.eventEnd e0 ev0 now
              ((o.startPos + 188 * (stored a).length) % (o.chunkSize * o.numChunks)),
            .eventStart e ev now
              ((o.startPos + 188 * (stored a).length) % (o.chunkSize * o.numChunks))]) ∧
        (ev.eventId = ev0.eventId → Over ev now → edges (messages it.out) =
          [.eventEnd e ev (ev.startTime + ev.duration * 1000)
            ((o.startPos + 188 * (stored a).length) % (o.chunkSize * o.numChunks))]) ∧
        (ev.eventId = ev0.eventId → ¬ Over ev now → edges (messages it.out) = [])) ∨
       (Phase.initial.read (.start :: a.flatMap (fun it => messages it.out)) = some .idle ∧
        (ev.eventId ≠ ev0.eventId → ∃ t pos, edges (messages it.out) = [.eventStart e ev t pos] ∧
          (ends (a.flatMap (fun it => messages it.out))).getLast?.or
            (chunkRecords (a.flatMap (fun it => messages it.out))).head? = some (t, pos)) ∧
        (ev.eventId = ev0.eventId → edges (messages it.out) = [])))) := by
  have edges_append : ∀ x y : List Msg, edges (x ++ y) = edges x ++ edges y := by
    intro x y; simp [edges]
  rcases cases_of_recorded hr with ⟨h1, _⟩ | ⟨r0, S⟩
  · rw [h1] at hs; simp at hs
  · obtain ⟨s1, s2, k1, k2, k3, k4, _⟩ := S.reach.split a it b hs
    have hi := inv_reach k1
    have hflat : ∀ l : List Item, messages (outs l) = l.flatMap (fun it => messages it.out) := by
      intro l
      induction l with
      | nil => rfl
      | cons x xs ih =>
        rw [List.flatMap_cons, ← ih]
        show messages (x.out ++ outs xs) = _
        rw [messages_append]
    obtain ⟨sf, hf, hin, ht, hc⟩ := step_cases hi.told k3
    rcases hc with ⟨hrec, hst, hmore, hp⟩ | ⟨hrec, hst, hp⟩
    · obtain ⟨p1, p2, p3, p4, p5, p6⟩ := hi.prep hrec
      refine ⟨?_, ?_, fun h => absurd h p5⟩
      · intro hn
        rcases prepare_spec hp with ⟨q1, q2, q3⟩ | ⟨q1, e, ev, now, q2, q3, q4, q5, q6, q7⟩
        · rw [q3]; rfl
        · exact absurd ⟨a ++ [it], [], by simp,
            (ready_iff ht (by rw [hf.eit]; exact p4)).2 ⟨q1, by rw [q2]; rfl⟩⟩ hn
      · intro hy _
        rcases prepare_spec hp with ⟨q1, q2, q3⟩ | ⟨q1, e, ev, now, q2, q3, q4, q5, q6, q7⟩
        · subst q2
          have := (inv_reach k4).prep (by rw [hf.recording]; exact hrec)
          exact absurd hy this.2.2.2.2.1
        · have heit : latest (presentEit o.sid) (received (a ++ [it])) = some e := by
            rw [← ht.eit, q2]; rfl
          have hpos : sf.ring.ringPos = o.startPos := by
            rw [hf.ring, p2]; exact (S.open_log hopt).2
          refine ⟨e, ev, now, heit, q3, ⟨sf.clock, ht.clock, q4⟩, ?_, ?_⟩
          · intro ho
            rcases q7 with ⟨_, _, q7⟩ | ⟨q7, _⟩
            · rw [q7]; rfl
            · exact absurd ho q7
          · intro ho
            rcases q7 with ⟨q7, _⟩ | ⟨_, _, q7⟩
            · exact absurd q7 ho
            · rw [q7, hpos]; rfl
    · obtain ⟨p1, p2, ⟨e0, ev0, p3, p4⟩, p5, p6⟩ := hi.record hrec
      refine ⟨fun h => absurd (hasBeenReady_mono p1) h, fun _ h => absurd p1 h, fun _ => ?_⟩
      have hold : latest (presentEit o.sid) (received a) = some e0 := by
        rw [← hi.told.eit, p2, p3]; rfl
      obtain ⟨now, s3, evs, ring, ops, q1, q2, q3, q4, q5, q6⟩ :=
        record_spec (by rw [hf.eit]; exact p3) p4 hp
      obtain ⟨f1, f2, f3, f4, e, ev, f5, f6, f7⟩ := q2.frame
      have hnew : latest (presentEit o.sid) (received (a ++ [it])) = some e := by rw [← ht.eit, f5]
      obtain ⟨now2, x1, x2⟩ := expand_spec q4
      have hops : edges (messages ops) = [] := by
        unfold edges
        rw [List.filter_eq_nil_iff]
        intro m hm
        rcases expandTo_no_event x1 m hm with ⟨p, rfl⟩ | ⟨_, _, _, rfl, _⟩ <;> simp
      have hed : edges (messages it.out) = edges evs := by
        rw [q6, messages_append, messages_msg, edges_append, hops, List.append_nil]
      obtain ⟨ph, hph, hpo⟩ := hi.phase
      rw [hflat] at hph p5
      have hrd : Phase.initial.read (.start :: a.flatMap (fun it => messages it.out)) =
          some ph := hph
      have hpos : sf.ring.ringPos =
          (o.startPos + 188 * (stored a).length) % (o.chunkSize * o.numChunks) := by
        rw [hf.ring]
        exact (C09_ring_position o.chunkSize o.numChunks o.startPos hopt results r0 s1.ring
          S.opened (stored a) (S.bytes hb a (it :: b) hs) (hi.accepts k2) ⟨fun _ => 0, 0, 0⟩ rfl).1
      have hbound : (ends (a.flatMap (fun it => messages it.out))).getLast?.or
          (chunkRecords (a.flatMap (fun it => messages it.out))).head? =
            some (sf.boundTime, sf.boundPos) := by
        rw [hf.boundTime, hf.boundPos]; exact p5
      have hstart : sf.started = s1.started := hf.started
      refine ⟨e0, ev0, e, ev, now, hold, p4, hnew, f7, ⟨sf.clock, ht.clock, q1⟩, ?_⟩
      rw [hrd, hed, ← hpos]
      rcases hpo with ⟨h, _⟩ | ⟨_, h, rfl⟩ | ⟨_, h, e', ev', m1, m2, rfl⟩
      · rw [hrec] at h; cases h
      · rw [← hstart] at h
        refine .inr ⟨rfl, ?_, ?_⟩
        · intro hne
          cases q2 with
          | switch g | finish g | go g => rw [h] at g; cases g
          | begin g1 g2 g3 g4 =>
            rw [g2, Option.some_or] at f5
            cases f5; rw [f7] at g3; cases g3
            exact ⟨_, _, rfl, hbound⟩
          | wait g1 g2 g3 g4 =>
            rw [f5] at g2; cases g2; rw [f7] at g3; cases g3
            exact absurd g4 hne
        · intro heq
          cases q2 with
          | switch g | finish g | go g => rw [h] at g; cases g
          | begin g1 g2 g3 g4 =>
            rw [g2, Option.some_or] at f5
            cases f5; rw [f7] at g3; cases g3
            exact absurd heq.symm g4
          | wait => rfl
      · rw [← hstart] at h
        rw [p3] at m1; cases m1
        rw [p4] at m2; cases m2
        refine .inl ⟨rfl, ?_, ?_, ?_⟩
        · intro hne
          cases q2 with
          | begin g | wait g => rw [h] at g; cases g
          | switch g1 g2 g3 g4 =>
            rw [g2, Option.some_or] at f5
            cases f5; rw [f7] at g3; cases g3
            rfl
          | finish g1 g2 g3 g4 | go g1 g2 g3 g4 =>
            rw [f5] at g2; cases g2; rw [f7] at g3; cases g3
            exact absurd g4 hne
        · intro heq ho
          cases q2 with
          | begin g | wait g => rw [h] at g; cases g
          | switch g1 g2 g3 g4 =>
            rw [g2, Option.some_or] at f5
            cases f5; rw [f7] at g3; cases g3
            exact absurd heq.symm g4
          | finish g1 g2 g3 g4 =>
            rw [f5] at g2; cases g2; rw [f7] at g3; cases g3
            rfl
          | go g1 g2 g3 g4 g5 =>
            rw [f5] at g2; cases g2; rw [f7] at g3; cases g3
            exact absurd ho g5
        · intro heq ho
          cases q2 with
          | begin g | wait g => rw [h] at g; cases g
          | switch g1 g2 g3 g4 =>
            rw [g2, Option.some_or] at f5
            cases f5; rw [f7] at g3; cases g3
            exact absurd heq.symm g4
          | finish g1 g2 g3 g4 g5 =>
            rw [f5] at g2; cases g2; rw [f7] at g3; cases g3
            exact absurd g5 ho
          | go => rfl

/-- The recording of the counterexample: its next to last packet ends event 2 and its last
one, with the extended event, does nothing. -/
example : ∃ c h, Permitted C37ex.opt.chunkSize C37ex.opt.numChunks C37ex.opt.startPos ∧
    (∀ i ∈ C37ex.extended, i.bytes.length = 188) ∧ Recorded C37ex.opt [] C37ex.extended c h ∧
    h.items = C37ex.before ++ C37ex.last :: [] ∧ HasBeenReady C37ex.opt.sid C37ex.before ∧
    edges (messages C37ex.last.out) = [] := by
  obtain ⟨c, h, h1, h2⟩ := C37ex.run_extended
  exact ⟨c, h, C37ex.permitted, by decide +kernel, h1, of_decide_eq_true h2,
    ⟨C37ex.before, [], by simp, ok_of_check (P := Clock.isReady) (by decide +kernel), _, by rfl⟩,
    by rfl⟩

/-- **C76**  What the messages sent during a packet say.  The time of a chunk and of an
event-update is the stream time.  Event-start and event-update carry the first event of
the latest EIT.  An event ends either because it is over, at the end time of the latest
EIT, or because the latest EIT names another event, at the stream time; the event-end
then carries the event of the EIT before. -/
theorem C76_records (o : Opt) (results : List Int) (is : List ServiceRecorder.Input)
    (code : Nat) (h : Hist) (hr : Recorded o results is code h) (a : List Item) (it : Item)
    (b : List Item) (hs : h.items = a ++ it :: b) :
    ∃ c, ClockIs o.sid (a ++ [it]) c ∧ ∀ m ∈ messages it.out,
      match m with
      | .start => False
      | .stop _ => False
      | .chunk t _ => c.now it.input.nowLocal = .ok t ∨ c.now it.input.chunkLocal = .ok t
      | .eventStart e ev _ _ =>
        latest (presentEit o.sid) (received (a ++ [it])) = some e ∧ e.events.head? = some ev
      | .eventUpdate e ev t _ => c.now it.input.chunkLocal = .ok t ∧
        latest (presentEit o.sid) (received (a ++ [it])) = some e ∧ e.events.head? = some ev
      | .eventEnd e ev t _ => ∃ now, c.now it.input.nowLocal = .ok now ∧ e.events.head? = some ev ∧
        ((latest (presentEit o.sid) (received (a ++ [it])) = some e ∧ Over ev now ∧
            t = ev.startTime + ev.duration * 1000) ∨
          (t = now ∧ latest (presentEit o.sid) (received a) = some e ∧
            ∃ e' ev', latest (presentEit o.sid) (received (a ++ [it])) = some e' ∧
              e'.events.head? = some ev' ∧ ev.eventId ≠ ev'.eventId)) := by
  rcases cases_of_recorded hr with ⟨h1, _⟩ | ⟨r0, S⟩
  · rw [h1] at hs; simp at hs
  · have hreach := S.reach
    rw [hs] at hreach
    obtain ⟨s1, c, k1, k2, k3, k4⟩ := item_messages hreach
    refine ⟨c, k3, fun m hm => ?_⟩
    rcases k4 m hm with ⟨_, _, rfl, k⟩ | ⟨_, _, _, _, rfl, k⟩ | ⟨_, _, _, _, rfl, k⟩ |
      ⟨_, _, _, _, now, rfl, k, _, k'⟩
    · exact k
    · exact k
    · exact k
    · exact ⟨now, k, k'⟩

/-- Two events end in this recording, one over and one replaced. -/
example : ∃ c h, Recorded C37ex.opt (List.replicate 9 300000) C37ex.stream c h ∧
    .eventEnd (C37ex.eit C37ex.ev1) C37ex.ev1 5000 80 ∈ messages h.trace ∧
    .eventEnd (C37ex.eit C37ex.ev2) C37ex.ev2 5200 456 ∈ messages h.trace := by
  obtain ⟨c, h, h1, h2⟩ := C37ex.run_stream
  refine ⟨c, h, h1, ?_⟩
  rw [(of_decide_eq_true h2).2.1]
  simp [C37ex.sent]

end Mirakc.Props
