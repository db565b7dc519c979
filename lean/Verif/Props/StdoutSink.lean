import Verif.Proof.StdoutExact
/-
Properties C06, C07 and C116: standard output.
-/
namespace Mirakc.Props
open Mirakc.Spec
open Mirakc.Spec.StdoutSink (taken)

/-- **C06**  When no write fails, every packet is accepted, the bytes written so
far are a prefix of the packet stream with fewer than 16384 bytes missing, and
after the end of the stream they are exactly the packet stream.  Applied to the
prefixes of a stream the middle part says what is visible at every earlier
moment. -/
theorem C06_stdout_faithful (ps : List (List UInt8)) (hps : ∀ p ∈ ps, p.length = 188)
    (writes : List Int) (hw : ∀ w ∈ writes, 0 ≤ w) :
    ∃ s s', Accepts StdoutSink.sink (StdoutSink.init writes) ps s ∧
      s.out <+: ps.flatten ∧ ps.flatten.length < s.out.length + 16384 ∧
      StdoutSink.sink.finish s = .ok s' ∧ s'.out = ps.flatten := by
  have key : ∀ (ps : List (List UInt8)) F s, (∀ p ∈ ps, p.length = 188) →
      StdoutSink.Inv writes F s → ∃ s', Accepts StdoutSink.sink s ps s' := by
    intro ps
    induction ps with
    | nil => intro F s _ _; exact ⟨s, .nil⟩
    | cons p ps ih =>
      intro F s hp hi
      rcases StdoutSink.handle_spec hi p (hp p (by simp)) with ⟨s', h1, h2⟩ | ⟨s', h1, h2⟩
      · obtain ⟨s'', h3⟩ := ih _ s' (fun q hq => hp q (by simp [hq])) h2
        exact ⟨s'', .cons h1 h3⟩
      · obtain ⟨used, w, _, h4, h5⟩ := h2.oracle
        have := hw w (by rw [h5]; simp)
        omega
  obtain ⟨s, ha⟩ := key ps _ _ hps (StdoutSink.inv_init writes)
  have hi := StdoutSink.accepts_spec (StdoutSink.inv_init writes) ha hps
  rw [List.nil_append] at hi
  obtain ⟨h1, h2, used0, h3, h4⟩ := hi
  refine ⟨s, _, ha, ?_, ?_, rfl, ?_⟩
  · exact ⟨s.buf, h2⟩
  · rw [← h2, List.length_append]; omega
  · obtain ⟨used, h | h⟩ := StdoutSink.flush_spec s
    · obtain ⟨rest, _, _, h7⟩ := h
      simp [h7, h2]
    · obtain ⟨rest, k, w, _, h6, h7, _⟩ := h
      have := hw w (by rw [h4, h6]; simp)
      omega

/-- Non-trivial case for C06: 88 packets (more than one buffer), short writes. -/
example : ∃ s s', Accepts StdoutSink.sink (StdoutSink.init [0, 1, 1000])
      (List.replicate 88 (0x47 :: List.replicate 187 0)) s ∧
      s.out <+: (List.replicate 88 (0x47 :: List.replicate 187 0)).flatten ∧
      (List.replicate 88 (0x47 :: List.replicate 187 (0 : UInt8))).flatten.length
        < s.out.length + 16384 ∧
      StdoutSink.sink.finish s = .ok s' ∧
      s'.out = (List.replicate 88 (0x47 :: List.replicate 187 0)).flatten :=
  C06_stdout_faithful _ (by decide +kernel) _ (by decide)

/-- The full claim of C07: whatever fails, what is on standard output in the end
is a prefix of the packet stream. -/
def C07_claim : Prop :=
  ∀ (ps cs : List (List UInt8)) (writes : List Int) (s s' : StdoutSink.St),
    (∀ p ∈ ps, p.length = 188) →
    Consumes StdoutSink.sink (StdoutSink.init writes) ps cs s →
    StdoutSink.sink.finish s = .ok s' → s'.out <+: ps.flatten

/-- The state reached by handing packets to the sink, for the witness. -/
private def feed (s : StdoutSink.St) : List (List UInt8) → Option StdoutSink.St
  | [] => none
  | p :: ps => match StdoutSink.handlePacket s p with
    | .ok (true, s') => feed s' ps
    | .ok (false, s') => some s'
    | .error _ => none

private theorem feed_consumes : ∀ (ps : List (List UInt8)) s s', feed s ps = some s' →
    ∃ cs, Consumes StdoutSink.sink s ps cs s'
  | [], _, _, h => by simp [feed] at h
  | p :: ps, s, s', h => by
    unfold feed at h
    split at h
    · next s1 h1 =>
      obtain ⟨cs, hc⟩ := feed_consumes ps s1 s' h
      exact ⟨p :: cs, .accept h1 hc⟩
    · next s1 h1 => cases h; exact ⟨[p], .refuse h1⟩
    · cases h

/-- The witness against C07: `write` takes 100 bytes, then fails, and works
again when the stream ends.  The final flush writes the first 100 bytes a second
time. -/
private def c07Packets : List (List UInt8) := List.replicate 88 (0x47 :: List.replicate 187 0)

/-- **C07** does not hold as stated: after a transient failure the final flush
repeats bytes already written. -/
theorem C07_claim_false : ¬ C07_claim := by
  intro h
  have hf : ∃ s, feed (StdoutSink.init [100, -1]) c07Packets = some s ∧
      (StdoutSink.flush s).2.out[100]? = some 0x47 := by
    have : ((feed (StdoutSink.init [100, -1]) c07Packets).map
        fun s => (StdoutSink.flush s).2.out[100]?) = some (some 0x47) := by decide +kernel
    simpa using this
  obtain ⟨s, h1, h2⟩ := hf
  obtain ⟨cs, hc⟩ := feed_consumes _ _ _ h1
  obtain ⟨t, ht⟩ := h c07Packets cs [100, -1] s _ (by decide +kernel) hc rfl
  have h3 : c07Packets.flatten[100]? = some 0 := by decide +kernel
  rw [← ht, List.getElem?_append_left] at h3
  · rw [h2] at h3; cases h3
  · exact (List.getElem?_eq_some_iff.1 h2).1

/-- **C07** (part).  Until the stream ends the output is always a prefix of the
stream; a packet is refused exactly when a write failed while handling it; and
the final flush keeps the output a prefix unless a write failed before and the
first write of the final flush succeeds.  Missing from the full claim: the last
restriction (`C07_claim_false`). -/
theorem C07_stdout_failure_partial (ps cs : List (List UInt8))
    (hps : ∀ p ∈ ps, p.length = 188) (writes : List Int) (s s' : StdoutSink.St)
    (hc : Consumes StdoutSink.sink (StdoutSink.init writes) ps cs s)
    (hf : StdoutSink.sink.finish s = .ok s') :
    s.out <+: cs.flatten ∧
    -- either all packets were accepted and no call of `write` failed so far …
    ((Accepts StdoutSink.sink (StdoutSink.init writes) ps s ∧ cs = ps ∧
        (∃ used, (∀ w ∈ used, 0 ≤ w) ∧ writes = used ++ s.writes) ∧
        s'.out <+: ps.flatten) ∨
    -- … or the last call of `write` failed, which made the sink refuse the last packet
      ((∃ used w, (∀ w ∈ used, 0 ≤ w) ∧ w < 0 ∧ writes = used ++ w :: s.writes) ∧
        ((∃ w rest, s.writes = w :: rest ∧ w < 0) → s'.out <+: cs.flatten))) := by
  have hs' : s' = (StdoutSink.flush s).2 := by
    have := hf; simp only [StdoutSink.sink] at this; cases this; rfl
  rcases StdoutSink.consumes_spec (StdoutSink.inv_init writes) hc hps with ⟨e, ha, hi⟩ | hr
  · subst e
    rw [List.nil_append] at hi
    refine ⟨⟨s.buf, hi.eq⟩, .inl ⟨ha, rfl, hi.oracle, ?_⟩⟩
    rw [hs', ← hi.eq]
    obtain ⟨used, h | h⟩ := StdoutSink.flush_spec s
    · obtain ⟨rest, _, _, h7⟩ := h
      rw [h7]; exact List.prefix_refl _
    · obtain ⟨rest, k, w, _, _, _, _, h7⟩ := h
      rw [h7]
      exact List.prefix_append_right_inj _ |>.2 (List.take_prefix _ _)
  · rw [List.nil_append] at hr
    refine ⟨hr.pre, .inr ⟨hr.oracle, ?_⟩⟩
    rintro ⟨w, rest, h1, h2⟩
    have hb := hr.buf
    have : s'.out = s.out := by
      rw [hs']
      simp only [StdoutSink.flush, h1, StdoutSink.writeLoop, hb, h2, if_true]
    rw [this]; exact hr.pre

/-- Non-trivial case for C07: the pipe breaks for good after 100 bytes of the
first buffer. -/
example : ∃ s cs, Consumes StdoutSink.sink (StdoutSink.init [100, -1, -1]) c07Packets cs s ∧
    ∃ w rest, s.writes = w :: rest ∧ w < 0 := by
  have hf : ∃ s, feed (StdoutSink.init [100, -1, -1]) c07Packets = some s ∧
      s.writes = [-1] := by
    have : ((feed (StdoutSink.init [100, -1, -1]) c07Packets).map
        fun s => s.writes) = some [-1] := by decide +kernel
    simpa using this
  obtain ⟨s, h1, h2⟩ := hf
  obtain ⟨cs, hc⟩ := feed_consumes _ _ _ h1
  exact ⟨s, cs, hc, -1, [], h2, by decide⟩

/-- **C116**  What is on standard output, exactly, for every sequence of results of
`write`.  As long as no call fails the complete blocks of 16384 bytes have been written,
and the end of the stream adds what the calls then take of the rest.  If a call fails
the packet completing the block is refused: the blocks before and what the calls took of
this one have been written.  The end of the stream then starts the same block over: it adds
what the calls take of it, so that every byte of the block already written is written twice
(if calls take all), and the part of the refused packet after the block is never
written. -/
theorem C116_stdout_exact (ps cs : List (List UInt8)) (hps : ∀ p ∈ ps, p.length = 188)
    (writes : List Int) (s s' : StdoutSink.St)
    (hc : Consumes StdoutSink.sink (StdoutSink.init writes) ps cs s)
    (hf : StdoutSink.sink.finish s = .ok s') :
    (cs = ps ∧ (∃ used, (∀ w ∈ used, 0 ≤ w) ∧ writes = used ++ s.writes) ∧
      s.out = ps.flatten.take (16384 * (ps.flatten.length / 16384)) ∧
      s'.out = s.out ++ (ps.flatten.drop (16384 * (ps.flatten.length / 16384))).take
        (taken (ps.flatten.length % 16384) s.writes)) ∨
    (∃ m before after, writes = before ++ after ∧ (∀ w ∈ before, 0 ≤ w) ∧
      taken 16384 after < 16384 ∧
      (∃ used w, (∀ w ∈ used, 0 ≤ w) ∧ w < 0 ∧ after = used ++ w :: s.writes) ∧
      16384 * (m + 1) ≤ cs.flatten.length ∧ cs.flatten.length < 16384 * (m + 1) + 188 ∧
      s.out = cs.flatten.take (16384 * m + taken 16384 after) ∧
      s'.out = s.out ++ (cs.flatten.drop (16384 * m)).take (taken 16384 s.writes)) := by
  have hs' : s'.out = s.out ++ s.buf.take (taken s.buf.length s.writes) := by
    have := hf; simp only [StdoutSink.sink] at this; cases this
    exact StdoutSink.flush_out s
  rcases StdoutSink.consumes_exact hc hps [] 0 rfl (by simp [StdoutSink.init])
    (by simp [StdoutSink.init]) with
    ⟨h1, h2, h3, ⟨m, h4⟩, h5⟩ | ⟨m, before, after, h1, h2, h3, h4, ⟨full, tail, h5, h6, h7, h8⟩, h9⟩
  · left
    subst h1
    rw [List.nil_append] at h2
    have hlen : cs.flatten.length = 16384 * m + s.buf.length := by
      rw [← h2, List.length_append, h4]
    have hd : cs.flatten.length / 16384 = m := by omega
    have hm : cs.flatten.length % 16384 = s.buf.length := by omega
    refine ⟨rfl, h5, ?_, ?_⟩
    · rw [hd, ← h2, ← h4, List.take_left]
    · rw [hs', hd, hm, ← h2, ← h4, List.drop_left]
  · right
    rw [List.nil_append] at h7
    have hlen : cs.flatten.length = 16384 * m + 16384 + tail.length := by
      rw [h7, List.length_append, List.length_append, h5, h4]
    refine ⟨m, before, after, h1, h2, h3, h9, by omega, by omega, ?_, ?_⟩
    · have e : full.take (full.length + taken 16384 after) = full :=
        List.take_of_length_le (by omega)
      rw [h8, h7, List.append_assoc, ← h5, List.take_append, e, Nat.add_sub_cancel_left,
        List.take_append_of_le_length (by omega)]
    · have := StdoutSink.taken_le s.writes 16384
      rw [hs', h4, h7, List.append_assoc, ← h5, List.drop_left,
        List.take_append_of_le_length (by omega)]

/-- The witness of `C07_claim_false`: 88 packets are 16544 bytes; 100 bytes of the first
block are written twice. -/
example : ∃ s cs, Consumes StdoutSink.sink (StdoutSink.init [100, -1]) c07Packets cs s ∧
    taken 16384 [100, -1] = 100 ∧ taken 16384 s.writes = 16384 := by
  have hf : ∃ s, feed (StdoutSink.init [100, -1]) c07Packets = some s ∧ s.writes = [] := by
    have : ((feed (StdoutSink.init [100, -1]) c07Packets).map
        fun s => s.writes) = some [] := by decide +kernel
    simpa using this
  obtain ⟨s, h1, h2⟩ := hf
  obtain ⟨cs, hc⟩ := feed_consumes _ _ _ h1
  exact ⟨s, cs, hc, by decide, by rw [h2]; rfl⟩

end Mirakc.Props
