import Verif.Proof.PacketLoop
/-
Properties C01–C05: packet framing and the packet loop.
-/
namespace Mirakc.Props
open Mirakc.Spec
open FileSource (bind_ok bind_error)

/-- **C01**  The delivered packets are a function of the byte stream: for every
read schedule the source delivers the packets the framing specification assigns
to the stream, and that specification is deterministic.  Hence two schedules
that deliver the same bytes deliver the same packets. -/
theorem C01_chunking_independent (reads : List (List UInt8))
    (hreads : ∀ c ∈ reads, c.length ≤ 16384) :
    (∃ offs, Frames (streamOf reads) 0 offs ∧
      Yields FileSource.source (FileSource.init reads) (offs.map (slice (streamOf reads)))) ∧
    (∀ reads', (∀ c ∈ reads', c.length ≤ 16384) → streamOf reads' = streamOf reads →
      ∃ ps, Yields FileSource.source (FileSource.init reads) ps ∧
        Yields FileSource.source (FileSource.init reads') ps) ∧
    (∀ offs offs', Frames (streamOf reads) 0 offs → Frames (streamOf reads) 0 offs' →
      offs = offs') ∧
    (∀ ps ps', Yields FileSource.source (FileSource.init reads) ps →
      Yields FileSource.source (FileSource.init reads) ps' → ps = ps') := by
  refine ⟨FileSource.yields_init reads hreads, ?_, fun _ _ => FileSource.Frames.unique, ?_⟩
  · intro reads' h' he
    obtain ⟨offs, h1, h2⟩ := FileSource.yields_init reads hreads
    obtain ⟨offs', h1', h2'⟩ := FileSource.yields_init reads' h'
    rw [he] at h1' h2'
    rw [FileSource.Frames.unique h1' h1] at h2'
    exact ⟨_, h2, h2'⟩
  · intro ps ps' h h'
    generalize FileSource.init reads = t at h h'
    induction h generalizing ps' with
    | stop h =>
      cases h' with
      | stop => rfl
      | more h2 => rw [h] at h2; cases h2
    | more h _ ih =>
      cases h' with
      | stop h2 => rw [h] at h2; cases h2
      | more h2 h3 =>
        rw [h] at h2
        cases h2
        rw [ih _ h3]

/-- Non-trivial case for C01: a packet split over two reads, versus one read. -/
example : ∃ ps, Yields FileSource.source
      (FileSource.init [[0x47], List.replicate 187 0, []]) ps ∧
    Yields FileSource.source (FileSource.init [0x47 :: List.replicate 187 0]) ps :=
  (C01_chunking_independent [[0x47], List.replicate 187 0, []] (by decide +kernel)).2.1 _
    (by decide +kernel) (by decide +kernel)

/-- **C02**  Aligned input is passed through losslessly, whatever the read
schedule. -/
theorem C02_aligned_lossless (reads : List (List UInt8))
    (hreads : ∀ c ∈ reads, c.length ≤ 16384)
    (ps : List (List UInt8)) (tail : List UInt8)
    (hps : ∀ p ∈ ps, p.length = 188 ∧ p.head? = some 0x47) (htail : tail.length < 188)
    (hstream : streamOf reads = ps.flatten ++ tail) :
    Yields FileSource.source (FileSource.init reads) ps := by
  obtain ⟨offs, h1, h2⟩ := FileSource.yields_init reads hreads
  obtain ⟨offs', h3, h4⟩ := FileSource.frames_aligned ps [] tail hps htail
  simp only [List.nil_append, List.length_nil] at h3 h4
  rw [hstream] at h1 h2
  rw [FileSource.Frames.unique h1 h3, h4] at h2
  exact h2

/-- Non-trivial case for C02: two packets and a fragment, read in odd pieces. -/
example : Yields FileSource.source
    (FileSource.init [[0x47], List.replicate 187 0 ++ [0x47, 1], List.replicate 186 7 ++ [9, 9]])
    [0x47 :: List.replicate 187 0, 0x47 :: 1 :: List.replicate 186 7] :=
  C02_aligned_lossless _
    (by decide +kernel) _ [9, 9] (by decide +kernel) (by decide +kernel) (by decide +kernel)

/-- **C03**  Every delivered packet is a 188-byte slice of the stream starting
with 0x47; slices are in order and disjoint; fewer than 376 bytes are skipped
before each of them; bytes are skipped only where a sync byte is missing, and
then up to the first resync point; and delivery ends only if fewer than 188
bytes are left or synchronisation is lost for good. -/
theorem C03_only_genuine_packets (reads : List (List UInt8))
    (hreads : ∀ c ∈ reads, c.length ≤ 16384) :
    let bs := streamOf reads
    ∃ offs : List Nat,
      Yields FileSource.source (FileSource.init reads) (offs.map (slice bs)) ∧
      -- position `k` of the list: the packet is expected at `e` and starts at `b`
      (∀ k b e : Nat, offs[k]? = some b → (0 :: offs.map (· + 188))[k]? = some e →
        e ≤ b ∧ b < e + 376 ∧ b + 188 ≤ bs.length ∧ bs[b]? = some 0x47 ∧
        (b ≠ e → bs[e]? ≠ some 0x47 ∧ ResyncPoint bs b ∧
          ∀ j, e ≤ j → j < b → ¬ ResyncPoint bs j)) ∧
      -- after the last packet, at `e`, there is nothing more to deliver
      (∀ e : Nat, (0 :: offs.map (· + 188))[offs.length]? = some e →
        bs.length < e + 188 ∨
        (bs[e]? ≠ some 0x47 ∧
          (bs.length < e + 940 ∨ ∀ i < 376, ¬ ResyncPoint bs (e + i)))) := by
  intro bs
  obtain ⟨offs, h1, h2⟩ := FileSource.yields_init reads hreads
  refine ⟨offs, h2, ?_⟩
  clear h2
  change Frames bs 0 offs at h1
  generalize bs = bs at h1
  have key : ∀ o offs, Frames bs o offs →
      (∀ k b e : Nat, offs[k]? = some b → (o :: offs.map (· + 188))[k]? = some e →
        e ≤ b ∧ b < e + 376 ∧ b + 188 ≤ bs.length ∧ bs[b]? = some 0x47 ∧
        (b ≠ e → bs[e]? ≠ some 0x47 ∧ ResyncPoint bs b ∧
          ∀ j, e ≤ j → j < b → ¬ ResyncPoint bs j)) ∧
      (∀ e : Nat, (o :: offs.map (· + 188))[offs.length]? = some e →
        bs.length < e + 188 ∨
        (bs[e]? ≠ some 0x47 ∧
          (bs.length < e + 940 ∨ ∀ i < 376, ¬ ResyncPoint bs (e + i)))) := by
    intro o offs h
    induction h with
    | done h => simp; left; exact h
    | @packet o os h1 h2 _ ih =>
      constructor
      · intro k b e hb he
        cases k with
        | zero =>
          simp at hb he; subst hb; subst he
          exact ⟨by omega, by omega, h1, h2, by simp⟩
        | succ k => exact ih.1 k b e (by simpa using hb) (by simpa using he)
      · intro e he; exact ih.2 e (by simpa using he)
    | short h1 h2 h3 =>
      refine ⟨by simp, ?_⟩
      intro e he; simp at he; subst he; exact .inr ⟨h2, .inl h3⟩
    | lost h1 h2 h3 =>
      refine ⟨by simp, ?_⟩
      intro e he; simp at he; subst he; exact .inr ⟨h2, .inr h3⟩
    | @skip o os i h1 h2 h3 h4 h5 _ ih =>
      constructor
      · intro k b e hb he
        cases k with
        | zero =>
          simp at hb he; subst hb; subst he
          refine ⟨by omega, by omega, by omega, by simpa using h4 0 (by omega), ?_⟩
          intro _
          refine ⟨h2, h4, ?_⟩
          intro j hj hj'
          have := h5 (j - o) (by omega)
          rwa [Nat.add_sub_cancel' hj] at this
        | succ k => exact ih.1 k b e (by simpa using hb) (by simpa using he)
      · intro e he; exact ih.2 e (by simpa using he)
  exact key 0 offs h1

/-- Non-trivial case for C03: three bytes of garbage, five packets, one byte of
garbage: exactly the five packets come out. -/
example : feedPackets FileSource.source
    (logged (P := List UInt8) (σ := Unit)
      ⟨fun s => .ok (true, s), fun s _ => .ok (true, s), fun s => .ok s, fun _ => 0⟩) 9
    (FileSource.init [[1, 2], 3 :: (List.replicate 5 (0x47 :: List.replicate 187 (9 : UInt8))).flatten,
      [0]]) ((), []) =
    .ok (0, (), .start :: List.replicate 5 (.handle (0x47 :: List.replicate 187 9)) ++ [.finish]) := by
  decide +kernel

/-- **C04**  Reading never leaves the buffer, no internal assertion fails and
the loop terminates: for every sink that does not itself fail abnormally, the
packet loop over the file source ends normally. -/
theorem C04_no_fault {σ} (snk : Sink (List UInt8) σ) (hs : Total snk) (s : σ)
    (reads : List (List UInt8)) (hreads : ∀ c ∈ reads, c.length ≤ 16384)
    (fuel : Nat) (hfuel : (streamOf reads).length < fuel) :
    ∃ r, feedPackets FileSource.source snk fuel (FileSource.init reads) s = .ok r := by
  obtain ⟨offs, h1, h2⟩ := FileSource.yields_init reads hreads
  have hl := FileSource.frames_length h1
  obtain ⟨⟨ok, s1⟩, e1⟩ := hs.start s
  cases ok with
  | false => exact ⟨_, by simp only [feedPackets, e1, bind_ok]; rfl⟩
  | true =>
    obtain ⟨⟨t2, s2⟩, e2⟩ := feedLoop_total FileSource.source snk hs h2 fuel s1 (by simp; omega)
    obtain ⟨s3, e3⟩ := hs.finish s2
    exact ⟨_, by simp only [feedPackets, e1, bind_ok, if_true, e2, e3]; rfl⟩

/-- **C05**  The packet loop protocol, for every source and every sink: `Start`
is called first; if it fails the result is `EXIT_FAILURE` and nothing else is
called; otherwise the sink receives the packets in order up to and including the
first one it refuses, is ended once, and its exit code is returned. -/
theorem C05_packet_loop {P τ σ} (src : Source P τ) (t : τ) (ps : List P)
    (hy : Yields src t ps) (snk : Sink P σ) (s0 : σ) (fuel : Nat) (hfuel : ps.length < fuel)
    (code : Nat) (s : σ) (log : List (Call P))
    (h : feedPackets src (logged snk) fuel t (s0, []) = .ok (code, s, log)) :
    (snk.start s0 = .ok (false, s) ∧ log = [.start] ∧ code = 1) ∨
    (∃ s1 s2 cs, snk.start s0 = .ok (true, s1) ∧ Consumes snk s1 ps cs s2 ∧
      snk.finish s2 = .ok s ∧ log = .start :: cs.map .handle ++ [.finish] ∧
      code = snk.exitCode s) := by
  unfold feedPackets at h
  cases hst : snk.start s0 with
  | error e => simp [logged, hst, Except.map] at h
  | ok r =>
    obtain ⟨ok, s1⟩ := r
    have est : (logged snk).start (s0, []) = .ok (ok, s1, [.start]) := by
      simp [logged, hst, Except.map]
    rw [est] at h
    cases ok with
    | false =>
      simp only [bind_ok, Bool.false_eq_true, if_false, Except.ok.injEq, Prod.mk.injEq] at h
      obtain ⟨h1, h2, h3⟩ := h
      left
      exact ⟨by rw [h2], h3.symm, h1.symm⟩
    | true =>
      simp only [bind_ok, if_true] at h
      cases hl : feedLoop src (logged snk) fuel t (s1, [.start]) with
      | error e => simp [hl] at h
      | ok r =>
        obtain ⟨t2, s2, log2⟩ := r
        simp only [hl, bind_ok] at h
        obtain ⟨cs, hc⟩ := feedLoop_consumes src (logged snk) hy fuel _ _ _ hfuel hl
        obtain ⟨hc1, hc2⟩ := consumes_logged snk hc
        cases hfin : snk.finish s2 with
        | error e => simp [logged, hfin, Except.map] at h
        | ok s3 =>
          have efin : (logged snk).finish (s2, log2) = .ok (s3, log2 ++ [.finish]) := by
            simp [logged, hfin, Except.map]
          rw [efin] at h
          simp only [bind_ok, Except.ok.injEq, Prod.mk.injEq] at h
          obtain ⟨h1, h2, h3⟩ := h
          right
          refine ⟨s1, s2, cs, rfl, hc1, by rw [← h2]; exact hfin, ?_, ?_⟩
          · rw [← h3, show log2 = [.start] ++ cs.map .handle from hc2]; simp
          · rw [← h1, ← h2]; rfl

/-- A sink that refuses the second packet, used in the examples. -/
private def pickySink : Sink (List UInt8) Nat where
  start s := .ok (true, s)
  handle s _ := .ok (decide (s = 0), s + 1)
  finish s := .ok s
  exitCode s := s

/-- Non-trivial case for C04 and C05: three packets, of which the sink takes
two. -/
example : feedPackets FileSource.source (logged pickySink) 5
    (FileSource.init [(List.replicate 3 (0x47 :: List.replicate 187 (0 : UInt8))).flatten])
    (0, []) =
    .ok (2, 2, [.start, .handle (0x47 :: List.replicate 187 0),
      .handle (0x47 :: List.replicate 187 0), .finish]) := by
  decide +kernel

end Mirakc.Props
