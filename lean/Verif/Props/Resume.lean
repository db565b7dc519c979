import Verif.Spec.Resume
import Verif.Proof.RingFilePrefix
import Verif.Props.ServiceRecorder
/-
C120: recordings that are interrupted and resumed.
-/
namespace Mirakc.Props
open Mirakc.ServiceRecorder Mirakc.Spec Mirakc.Spec.ServiceRecorder Mirakc.Spec.Resume

theorem chunks_eq (ms : List Msg) : chunks ms = (chunkRecords ms).length := by
  induction ms with
  | nil => rfl
  | cons m ms ih => cases m <;> simp_all [chunks, chunkRecords]

theorem chunkRecords_append (a b : List Msg) : chunkRecords (a ++ b) = chunkRecords a ++ chunkRecords b :=
  List.filterMap_append

/-- The last chunk message. -/
theorem last_chunk : ∀ tr : List Tr, (chunks (messages tr) = 0 ∧ ∀ pos, lastChunk pos (messages tr) = pos) ∨
    ∃ a t p b, tr = a ++ .msg (.chunk t p) :: b ∧ chunks (messages b) = 0 ∧
      chunks (messages tr) = chunks (messages a) + 1 ∧ ∀ pos, lastChunk pos (messages tr) = p := by
  intro tr
  induction tr with
  | nil => exact .inl ⟨rfl, fun _ => rfl⟩
  | cons x tr ih =>
    rcases ih with ⟨h1, h2⟩ | ⟨a, t, p, b, h1, h2, h3, h4⟩
    · cases x with
      | op o => exact .inl ⟨h1, h2⟩
      | msg m =>
        cases m with
        | chunk t p =>
          refine .inr ⟨[], t, p, tr, rfl, h1, ?_, fun pos => ?_⟩
          · show chunks (.chunk t p :: messages tr) = _
            rw [chunks_eq] at h1 ⊢
            simp only [chunkRecords, List.filterMap_cons, List.length_cons] at h1 ⊢
            rw [h1]; rfl
          · show lastChunk pos (.chunk t p :: messages tr) = _
            have : chunkRecords (messages tr) = [] := List.length_eq_zero_iff.1 (by rw [← chunks_eq]; exact h1)
            have e : chunkRecords (.chunk t p :: messages tr) = (t, p) :: chunkRecords (messages tr) := rfl
            unfold lastChunk
            rw [e, this]; rfl
        | start => exact .inl ⟨h1, h2⟩
        | stop => exact .inl ⟨h1, h2⟩
        | eventStart => exact .inl ⟨h1, h2⟩
        | eventUpdate => exact .inl ⟨h1, h2⟩
        | eventEnd => exact .inl ⟨h1, h2⟩
    · refine .inr ⟨x :: a, t, p, b, by rw [h1]; rfl, h2, ?_, fun pos => ?_⟩
      · cases x with
        | op o => exact h3
        | msg m =>
          have e1 : messages (.msg m :: tr) = m :: messages tr := rfl
          have e2 : messages (.msg m :: a) = m :: messages a := rfl
          rw [e1, e2, chunks_eq, chunks_eq]
          rw [chunks_eq, chunks_eq] at h3
          cases m <;> simp_all [chunkRecords]
      · cases x with
        | op o => exact h4 pos
        | msg m =>
          have e1 : messages (.msg m :: tr) = m :: messages tr := rfl
          have h5 := h4 pos
          unfold lastChunk at h5 ⊢
          rw [e1]
          have hne : chunkRecords (messages tr) ≠ [] := by
            intro h
            rw [chunks_eq, h] at h3
            simp at h3
          have e3 : (chunkRecords (m :: messages tr)).getLast? = (chunkRecords (messages tr)).getLast? := by
            have : m :: messages tr = [m] ++ messages tr := rfl
            rw [this, chunkRecords_append, List.getLast?_append]
            cases hc : (chunkRecords (messages tr)).getLast? with
            | none => exact absurd (List.getLast?_eq_none_iff.1 hc) hne
            | some x => rfl
          rw [e3]; exact h5

theorem mod_ne {S R k j : Nat} (h1 : k < j) (h2 : j < k + R) : (S + k) % R ≠ (S + j) % R := by
  intro e
  have e3 : R ∣ (S + j) - (S + k) := Nat.dvd_of_mod_eq_zero (Nat.sub_mod_eq_zero_of_mod_eq e.symm)
  obtain ⟨q, hq⟩ := e3
  have hq1 : 0 < q := by
    rcases Nat.eq_zero_or_pos q with h0 | h0
    · subst h0; omega
    · exact h0
  have : R * 1 ≤ R * q := Nat.mul_le_mul_left _ hq1
  omega

/-- One recording, interrupted. -/
theorem session_left {o : Opt} {results : List Int} {is : List ServiceRecorder.Input} {code : Nat} {h : Hist}
    {seen : List Tr} {f f' : RingFile} (hopt : Permitted o.chunkSize o.numChunks o.startPos)
    (hb : ∀ i ∈ is, i.bytes.length = 188) (hr : Recorded o results is code h) (hs : seen <+: h.trace)
    (hf : f.off = 0) (hl : Left f (fileOps seen) f') :
    let W := (chunks (messages seen) - 1) * o.chunkSize
    let R := o.chunkSize * o.numChunks
    f'.off = 0 ∧ W ≤ (stored h.items).flatten.length ∧ lastChunk o.startPos (messages seen) = (o.startPos + W) % R ∧
    (∀ k < W, W + o.chunkSize ≤ k + R → (o.startPos + k) % R < f'.size ∧
      (stored h.items).flatten[k]? = some (f'.content ((o.startPos + k) % R))) ∧
    (∀ i < R, (∀ k < W + o.chunkSize, (o.startPos + k) % R ≠ i) → i < f.size →
      i < f'.size ∧ f'.content i = f.content i) := by
  intro W R
  have hC := hopt.chunkPos
  have hR : 0 < R := Nat.mul_pos hC hopt.numPos
  obtain ⟨rest, hrest⟩ := hs
  have hchunk := (C38_chunks o results is code h hopt hb hr).1
  -- the data written, and what the file is
  obtain ⟨c1, c2, c3⟩ : written (fileOps seen) <+: (stored h.items).flatten ∧
      (∀ k < (written (fileOps seen)).length, (written (fileOps seen)).length ≤ k + R →
        (o.startPos + k) % R < (f.run (fileOps seen)).size ∧
        (stored h.items).flatten[k]? = some ((f.run (fileOps seen)).content ((o.startPos + k) % R))) ∧
      (∀ i < R, (∀ k < (written (fileOps seen)).length, (o.startPos + k) % R ≠ i) →
        (f.run (fileOps seen)).content i = f.content i ∧ (i < f.size → i < (f.run (fileOps seen)).size)) := by
    rcases cases_of_recorded hr with ⟨h1, h2, h3, h4⟩ | ⟨r0, S⟩
    · have hp : fileOps seen <+: [.failed] := by
        rw [← h4, ← hrest, fileOps_append]; exact List.prefix_append _ _
      rcases (List.prefix_cons_iff.1 hp) with e | ⟨l, e, hl⟩
      · rw [e]; exact ⟨List.nil_prefix, by simp [written], fun i _ _ => ⟨rfl, id⟩⟩
      · rw [List.prefix_nil] at hl
        rw [e, hl]; exact ⟨List.nil_prefix, by simp [written], fun i _ _ => ⟨rfl, id⟩⟩
    · refine RingFileSink.prefix_file hopt S.opened (S.bytes hb h.items [] (by simp)) (inv_reach S.reach).consumes ?_ f hf
      rw [← S.fileOps, ← hrest, fileOps_append]
      exact List.prefix_append _ _
  -- at least the announced data is written
  have hlow : W ≤ (written (fileOps seen)).length ∧ lastChunk o.startPos (messages seen) = (o.startPos + W) % R ∧
      (0 < W → ∃ ops b p, fileOps seen = ops ++ .sync :: b ∧ (written ops).length = W ∧ b = .notify p :: (b.drop 1)) := by
    rcases last_chunk seen with ⟨h1, h2⟩ | ⟨a, t, p, b, h1, h2, h3, h4⟩
    · have hW : W = 0 := by show (_ - 1) * _ = _; rw [h1]; simp
      rw [hW, h2, Nat.add_zero, Nat.mod_eq_of_lt hopt.startMax]
      exact ⟨Nat.zero_le _, rfl, by omega⟩
    · obtain ⟨_, _, k3, k4, _, k6⟩ := hchunk a t p (b ++ rest) (by rw [← hrest, h1]; simp)
      have hW : W = (written (fileOps a)).length := by
        rw [k4]; show (_ - 1) * _ = _; rw [h3, Nat.add_sub_cancel]
      have e : fileOps seen = fileOps a ++ fileOps b := by rw [h1, fileOps_append]; rfl
      refine ⟨?_, by rw [h4, k3, ← hW], fun h0 => ?_⟩
      · rw [e, RingFileSink.written_append, List.length_append, hW]; omega
      · obtain ⟨ops, q, k7, _⟩ := k6 (by rw [← hW]; exact h0)
        refine ⟨ops, .notify q :: fileOps b, q, by rw [e, k7]; simp, ?_, rfl⟩
        rw [hW, k7, RingFileSink.written_append]
        simp [written]
  obtain ⟨l1, l2, l3⟩ := hlow
  -- at most one more chunk
  have hup : (written (fileOps seen)).length ≤ W + o.chunkSize := by
    have hmono : ∀ a b, (written (fileOps a)).length ≤ (written (fileOps (a ++ b))).length := by
      intro a b
      rw [fileOps_append, RingFileSink.written_append, List.length_append]; omega
    by_cases hz : (written (fileOps seen)).length = 0
    · omega
    rcases last_chunk rest with ⟨h1, _⟩ | hex
    · rcases cases_of_recorded hr with ⟨_, _, _, h4⟩ | ⟨r0, S⟩
      · exfalso
        apply hz
        have := hmono seen rest
        rw [hrest, h4] at this
        simpa [written] using this
      · have hw := RingFileSink.written_le hopt S.opened (S.bytes hb h.items [] (by simp)) (inv_reach S.reach).consumes
        have hm := hmono seen rest
        rw [hrest, S.fileOps] at hm
        have hinv := inv_reach S.reach
        have hcs : chunks (messages h.trace) = chunks (messages (outs h.items)) := by
          rw [S.messages]; simp [chunks]
        have hcs2 : chunks (messages h.trace) = chunks (messages seen) := by
          rw [← hrest, messages_append, chunks_append, h1, Nat.add_zero]
        by_cases hrec : h.st.recording = true
        · obtain ⟨_, _, _, _, hch⟩ := hinv.record hrec
          have ha : (announced h.st.ring.log).length = (announced (fileOps (outs h.items))).length := by
            rw [hinv.ops, RingFileSink.announced_append, (S.open_log hopt).1, RingFileSink.openLog_announced]; rfl
          have : W + o.chunkSize = o.chunkSize * ((announced h.st.ring.log).length + 1) := by
            show (_ - 1) * _ + _ = _
            rw [← hcs2, hcs, hch, ha, Nat.add_sub_cancel, Nat.mul_comm, Nat.mul_add, Nat.mul_one]
          omega
        · simp only [Bool.not_eq_true] at hrec
          obtain ⟨_, p2, _⟩ := hinv.prep hrec
          exfalso
          apply hz
          rw [p2, (S.open_log hopt).1, RingFileSink.openLog_written] at hm
          simpa using hm
    · -- the first chunk message after the interruption
      have first : ∀ rest : List Tr, chunks (messages rest) ≠ 0 → ∃ a t p b, rest = a ++ .msg (.chunk t p) :: b ∧
          chunks (messages a) = 0 := by
        intro rest
        induction rest with
        | nil => intro h; exact absurd rfl h
        | cons x rest ih =>
          intro h
          by_cases hx : ∃ t p, x = .msg (.chunk t p)
          · obtain ⟨t, p, rfl⟩ := hx
            exact ⟨[], t, p, rest, rfl, rfl⟩
          · have hx0 : chunks (messages [x]) = 0 := by
              cases x with
              | op o => rfl
              | msg m =>
                cases m with
                | chunk t p => exact absurd ⟨t, p, rfl⟩ hx
                | _ => rfl
            have e : messages (x :: rest) = messages [x] ++ messages rest := messages_append [x] rest
            rw [e, chunks_append, hx0, Nat.zero_add] at h
            obtain ⟨a, t, p, b, h1, h2⟩ := ih h
            refine ⟨x :: a, t, p, b, by rw [h1]; rfl, ?_⟩
            have e : messages (x :: a) = messages [x] ++ messages a := messages_append [x] a
            rw [e, chunks_append, hx0, h2]
      have hne : chunks (messages rest) ≠ 0 := by
        obtain ⟨_, _, _, _, _, _, h3, _⟩ := hex
        omega
      obtain ⟨a, t, p, b, h1, h2⟩ := first rest hne
      obtain ⟨_, _, _, k4, _, _⟩ := hchunk (seen ++ a) t p b (by rw [← hrest, h1]; simp)
      have hm := hmono seen a
      rw [k4, messages_append, chunks_append, h2, Nat.add_zero] at hm
      have hc0 : chunks (messages seen) ≠ 0 := by
        intro h0
        rw [h0, Nat.zero_mul] at hm
        omega
      have : W + o.chunkSize = chunks (messages seen) * o.chunkSize := by
        show (_ - 1) * _ + _ = _
        rw [Nat.sub_mul, Nat.one_mul, Nat.sub_add_cancel]
        exact Nat.le_mul_of_pos_left _ (by omega)
      omega
  -- what is not synced comes after the announced data
  have hdirty : ∀ i, Unsynced f (fileOps seen) i → ∃ k, W ≤ k ∧ k < (written (fileOps seen)).length ∧
      (o.startPos + k) % R = i := by
    rintro i ⟨a, bs, b, e, hb1, hi1, hi2⟩
    rcases cases_of_recorded hr with ⟨h1, h2, h3, h4⟩ | ⟨r0, S⟩
    · exfalso
      have hp : fileOps seen <+: [.failed] := by
        rw [← h4, ← hrest, fileOps_append]; exact List.prefix_append _ _
      have hm : RingFileSink.Op.write bs ∈ [RingFileSink.Op.failed] := hp.subset (by rw [e]; simp)
      simp at hm
    · obtain ⟨m1, m2, _⟩ := (C11_ring_bounded o.chunkSize o.numChunks o.startPos hopt results r0 h.st.ring S.opened
        (stored h.items) (stored h.items) (S.bytes hb h.items [] (by simp)) (inv_reach S.reach).consumes f hf).1
        a bs (b ++ fileOps rest) (by rw [← S.fileOps, ← hrest, fileOps_append, e]; simp)
      have hlen : (written (fileOps seen)).length = (written a).length + bs.length + (written b).length := by
        rw [e, RingFileSink.written_append]
        have : written (.write bs :: b) = bs ++ written b := rfl
        rw [this, List.length_append, List.length_append]; omega
      have m2 : (f.run a).off + bs.length ≤ R := m2
      have m1 : (f.run a).off = (o.startPos + (written a).length) % R := m1
      rw [m1] at hi1 hi2 m2
      refine ⟨(written a).length + (i - (o.startPos + (written a).length) % R), ?_, ?_, ?_⟩
      · by_cases h0 : 0 < W
        · obtain ⟨ops, c, p, k1, k2, k3⟩ := l3 h0
          rw [e] at k1
          have : (written ops).length ≤ (written a).length := by
            rw [List.append_eq_append_iff] at k1
            rcases k1 with ⟨x, k4, k5⟩ | ⟨x, k4, k5⟩
            · cases x with
              | nil => rw [k4, List.append_nil]; exact Nat.le_refl _
              | cons y x =>
                simp only [List.cons_append, List.cons.injEq] at k5
                rw [k5.2] at hb1
                simp at hb1
            · rw [k4, RingFileSink.written_append, List.length_append]; omega
          omega
        · omega
      · omega
      · rw [← Nat.add_assoc, ← Nat.mod_add_mod, Nat.add_sub_cancel' hi1, Nat.mod_eq_of_lt (by omega)]
  refine ⟨hl.1, Nat.le_trans l1 c1.length_le, l2, ?_, ?_⟩
  · intro k hk hk2
    obtain ⟨d1, d2⟩ := c2 k (by omega) (by omega)
    obtain ⟨d3, d4⟩ := hl.2 _ d1 (by
      intro hu
      obtain ⟨j, j1, j2, j3⟩ := hdirty _ hu
      exact mod_ne (by omega) (by omega) j3.symm)
    exact ⟨d3, by rw [d4]; exact d2⟩
  · intro i hi hk his
    obtain ⟨d1, d2⟩ := c3 i hi (fun k hk2 => hk k (by omega))
    obtain ⟨d3, d4⟩ := hl.2 i (d2 his) (by
      intro hu
      obtain ⟨j, j1, j2, j3⟩ := hdirty _ hu
      exact hk j (by omega) j3)
    exact ⟨d3, by rw [d4, d1]⟩

/-- **C120**  A recording that was interrupted any number of times, at any moment and in any way (also by a failure of
the system, with the loss of what was not yet synced), and resumed each time at the position in the last chunk message,
is in the file like a recording without interruption, up to the last chunk message: byte `k` of the data is at
`(start + k) mod ring size`, for all of the data that is younger than a ring less one chunk.  The position in the last
chunk message is always allowed as a start position, and it is the end of this data. -/
theorem C120_resume (chunk n start : Nat) (hopt : Permitted chunk n start) (f0 f : RingFile) (hf : f0.off = 0)
    (data : List UInt8) (pos : Nat) (hs : Sessions chunk n start f0 data pos f) :
    Permitted chunk n pos ∧ pos = (start + data.length) % (chunk * n) ∧ data.length % chunk = 0 ∧
    ∀ k < data.length, data.length + chunk ≤ k + chunk * n → (start + k) % (chunk * n) < f.size ∧
      data[k]? = some (f.content ((start + k) % (chunk * n))) := by
  have hR : 0 < chunk * n := Nat.mul_pos hopt.chunkPos hopt.numPos
  have key : f.off = 0 ∧ pos = (start + data.length) % (chunk * n) ∧ data.length % chunk = 0 ∧
      ∀ k < data.length, data.length + chunk ≤ k + chunk * n → (start + k) % (chunk * n) < f.size ∧
        data[k]? = some (f.content ((start + k) % (chunk * n))) := by
    induction hs with
    | none =>
      refine ⟨hf, ?_, Nat.zero_mod _, by simp⟩
      rw [List.length_nil, Nat.add_zero, Nat.mod_eq_of_lt hopt.startMax]
    | @next data pos f o results is code h seen f' _ h1 h2 h3 h4 h5 h6 h7 ih =>
      obtain ⟨i1, i2, i3, i4⟩ := ih
      have hp : Permitted o.chunkSize o.numChunks o.startPos := by
        rw [h1, h2, h3]
        refine ⟨hopt.chunkPos, hopt.chunkMul, hopt.chunkMax, hopt.numPos, hopt.numMax, ?_, ?_⟩
        · rw [i2, Nat.mod_mul_right_mod, Nat.add_mod, hopt.startMul, i3]; rfl
        · rw [i2]; exact Nat.mod_lt _ hR
      obtain ⟨s1, s2, s3, s4, s5⟩ := session_left hp h4 h5 h6 i1 h7
      rw [h1, h2, h3] at s3 s4 s5
      rw [h1] at s2
      generalize hW : (chunks (messages seen) - 1) * chunk = W at s2 s3 s4 s5 ⊢
      have hWm : W % chunk = 0 := by rw [← hW]; exact Nat.mul_mod_left _ _
      have hlen : (data ++ (stored h.items).flatten.take W).length = data.length + W := by
        rw [List.length_append, List.length_take]; omega
      have hmod : ∀ j, (pos + j) % (chunk * n) = (start + (data.length + j)) % (chunk * n) := by
        intro j
        rw [i2, Nat.mod_add_mod, Nat.add_assoc]
      rw [hlen]
      refine ⟨s1, by rw [s3, hmod], by rw [Nat.add_mod, i3, hWm]; rfl, fun k hk hk2 => ?_⟩
      by_cases hkd : k < data.length
      · obtain ⟨d1, d2⟩ := i4 k hkd (by omega)
        obtain ⟨e1, e2⟩ := s5 ((start + k) % (chunk * n)) (Nat.mod_lt _ hR) (by
          intro j hj
          rw [hmod]
          exact (mod_ne (by omega) (by omega)).symm) d1
        rw [List.getElem?_append_left hkd, e2]
        exact ⟨e1, d2⟩
      · obtain ⟨e1, e2⟩ := s4 (k - data.length) (by omega) (by omega)
        rw [hmod, Nat.add_sub_cancel' (by omega)] at e1 e2
        refine ⟨e1, ?_⟩
        rw [List.getElem?_append_right (by omega), List.getElem?_take_of_lt (by omega)]
        exact e2
  obtain ⟨_, k2, k3, k4⟩ := key
  refine ⟨⟨hopt.chunkPos, hopt.chunkMul, hopt.chunkMax, hopt.numPos, hopt.numMax, ?_, ?_⟩, k2, k3, k4⟩
  · rw [k2, Nat.mod_mul_right_mod, Nat.add_mod, hopt.startMul, k3]; rfl
  · rw [k2]; exact Nat.mod_lt _ hR

namespace C120ex
/-- The recording of C37, resumed at its last chunk message. -/
def opt : Opt := { C37ex.opt with startPos := 0 }
/-- Its first write fails. -/
theorem run_broken : ∃ c h, Recorded opt [0] C37ex.stream c h ∧
    decide (chunks (messages h.trace) = 1 ∧ lastChunk 0 (messages h.trace) = 0 ∧ (fileOps h.trace) = [.failed]) = true :=
  C37ex.recorded_of_check (P := fun _ h => decide (chunks (messages h.trace) = 1 ∧ lastChunk 0 (messages h.trace) = 0 ∧
    (fileOps h.trace) = [.failed])) (by decide +kernel)
/-- Nothing is lost. -/
theorem left_run (f : RingFile) (ops : List RingFileSink.Op) : Left f ops { f.run ops with off := 0 } :=
  ⟨rfl, fun _ h _ => ⟨h, rfl⟩⟩
end C120ex

/-- A chunk is recorded, and some packets; after an interruption recording is tried again, without success.  The
chunk is in the file, at the second half of it. -/
example (f0 : RingFile) (hf : f0.off = 0) : ∃ data f, Sessions 8192 2 8192 f0 data 0 f ∧ data.length = 8192 ∧
    ∀ k < 8192, data[k]? = some (f.content (8192 + k)) := by
  obtain ⟨c, h, h1, h2⟩ := C37ex.run_stream
  obtain ⟨c', h', h3, h4⟩ := C120ex.run_broken
  obtain ⟨_, m1, _, m2⟩ := of_decide_eq_true h2
  obtain ⟨m3, m4, _⟩ := of_decide_eq_true h4
  have s1 := Sessions.next (.none (chunk := 8192) (n := 2) (start := 8192) (f0 := f0)) rfl rfl rfl C37ex.bytes_ok h1
    (List.prefix_refl _) (C120ex.left_run f0 (fileOps h.trace))
  have e1 : lastChunk 8192 (messages h.trace) = 0 := by rw [m1]; rfl
  have e2 : chunks (messages h.trace) = 2 := by rw [m1]; rfl
  rw [e1, e2] at s1
  have s2 := Sessions.next s1 rfl rfl rfl C37ex.bytes_ok h3 (List.prefix_refl _)
    (C120ex.left_run _ (fileOps h'.trace))
  rw [m4, m3] at s2
  have hlen : (stored h.items).flatten.length = 188 * 51 := by
    rw [List.length_flatten]
    have : ∀ p ∈ stored h.items, p.length = 188 := by
      rcases cases_of_recorded h1 with ⟨e, _⟩ | ⟨r0, S⟩
      · rw [e]; intro p hp; cases hp
      · exact S.bytes C37ex.bytes_ok h.items [] (by simp)
    rw [List.map_congr_left (g := fun _ => 188) this, List.map_const', m2]
    rfl
  have hl : ([] ++ (stored h.items).flatten.take ((2 - 1) * 8192) ++
      (stored h'.items).flatten.take ((1 - 1) * 8192) : List UInt8).length = 8192 := by
    simp [hlen]
  refine ⟨_, _, s2, hl, fun k hk => ?_⟩
  obtain ⟨_, _, _, h5⟩ := C120_resume 8192 2 8192 C37ex.permitted f0 _ hf _ _ s2
  rw [hl] at h5
  have := (h5 k hk (by omega)).2
  rwa [Nat.mod_eq_of_lt (by omega)] at this

end Mirakc.Props
