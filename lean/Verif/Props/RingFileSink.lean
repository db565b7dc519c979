import Verif.Proof.RingFileSink
import Verif.Proof.Run
/-
Properties C08–C13: the ring file.  `f` is the file as it was when opened (file
offset 0); `f.run log` is the file after the operations `log`.
-/
namespace Mirakc.Props
open Mirakc.Spec RingFileSink

/-- **C08**  While no operation fails, byte `k` of the packet stream is stored at
offset `(start + k) mod ring size`: every flushed byte that has not been
overwritten by a later one is found there, and offsets not reached keep their
old contents.  `flushed` is what has left the 8192-byte buffer. -/
theorem C08_ring_content (chunk n start : Nat) (hopt : Permitted chunk n start)
    (results : List Int) (s0 s : St) (ho : openAt chunk n start results = .ok (true, s0))
    (ps : List (List UInt8)) (hp : ∀ p ∈ ps, p.length = 188) (ha : Accepts sink s0 ps s)
    (f : RingFile) (hf : f.off = 0) :
    let flushed := ps.flatten.length / 8192 * 8192
    (∀ k < flushed, flushed ≤ k + chunk * n →
      ps.flatten[k]? = some ((f.run s.log).content ((start + k) % (chunk * n)))) ∧
    (∀ i < chunk * n, (∀ k < flushed, (start + k) % (chunk * n) ≠ i) →
      (f.run s.log).content i = f.content i) := by
  intro flushed
  obtain ⟨g⟩ := geom_of_accept ((accept_iff _ _ _).2 hopt)
  rcases run_shape hopt g ho hp (accepts_consumes ha) with ⟨_, _, hl, w, hm⟩ | ⟨hb, hbr⟩
  · obtain ⟨t, h1, h2⟩ := hm.log
    have hfl : 8192 * w = flushed := by have := hm.len; omega
    rw [hfl] at h2
    rw [h1, run_append]
    obtain ⟨o1, o2, o3⟩ := openLog_run start f hf
    obtain ⟨_, _, h5, h6⟩ := h2.file g _ o1
    exact ⟨h5, fun i hi hk => by rw [h6 i hi hk, o2]⟩
  · rcases open_spec ((accept_iff _ _ _).2 hopt) results g with ⟨s1, e1, hm, hb⟩ | ⟨s1, e1, _⟩
    · rw [ho] at e1; cases e1
      obtain ⟨w, hm', _⟩ := accepts_spec g hm (by rw [hb]; simp) ha hp
      rw [hm'.ok] at hbr; cases hbr
    · rw [ho] at e1; cases e1

/-- **C09**  Between packets the reported position is `start + 188 * packets`
modulo the ring size, so smaller than the ring size, and the file offset is the
position minus the bytes that are still buffered. -/
theorem C09_ring_position (chunk n start : Nat) (hopt : Permitted chunk n start)
    (results : List Int) (s0 s : St) (ho : openAt chunk n start results = .ok (true, s0))
    (ps : List (List UInt8)) (hp : ∀ p ∈ ps, p.length = 188) (ha : Accepts sink s0 ps s)
    (f : RingFile) (hf : f.off = 0) :
    s.ringPos = (start + 188 * ps.length) % (chunk * n) ∧ s.ringPos < chunk * n ∧
    s.buf.length = 188 * ps.length % 8192 ∧ (f.run s.log).off + s.buf.length = s.ringPos := by
  obtain ⟨g⟩ := geom_of_accept ((accept_iff _ _ _).2 hopt)
  have hlen : ps.flatten.length = 188 * ps.length := by
    rw [List.length_flatten]
    clear ha ho
    induction ps with
    | nil => rfl
    | cons p ps ih =>
      simp only [List.map_cons, List.sum_cons, List.length_cons, hp p (by simp),
        ih (fun q hq => hp q (by simp [hq]))]
      omega
  have hpos : 0 < chunk * n := Nat.mul_pos hopt.chunkPos hopt.numPos
  rcases open_spec ((accept_iff _ _ _).2 hopt) results g with ⟨s1, e1, hm, hb⟩ | ⟨s1, e1, _⟩
  · rw [ho] at e1; cases e1
    obtain ⟨w, hm', hl⟩ := accepts_spec g hm (by rw [hb]; simp) ha hp
    rw [List.nil_append] at hm'
    have h1 := hm'.len
    rw [hlen] at h1
    have h2 := g.modR (g.c * g.a + w) s.buf.length hl
    have h3 : 8192 * (g.c * g.a + w) + s.buf.length = start + 188 * ps.length := by
      have := g.hS; omega
    rw [h3, ← hm'.rp] at h2
    refine ⟨h2.symm, by rw [← h2]; exact Nat.mod_lt _ hpos, by omega, ?_⟩
    obtain ⟨t, h4, h5⟩ := hm'.log
    obtain ⟨o1, _, _⟩ := openLog_run start f hf
    obtain ⟨h6, _⟩ := h5.file g _ o1
    have h7 := g.modR0 (g.c * g.a + w)
    have h8 : 8192 * (g.c * g.a + w) = start + 8192 * w := by have := g.hS; omega
    rw [h8] at h7
    rw [h4, run_append, h6, h7, hm'.rp]
  · rw [ho] at e1; cases e1

/-- **C10**  Whatever happens, and at every point of the history (`pre` is what
was done before the notification): when position `pos` is announced, the bytes
written so far are the first `W` bytes of the stream with `W` a positive multiple
of the chunk size, `pos` is the corresponding ring position (the ring size
instead of 0), the last operation was a successful fsync, the chunk just finished
(and everything else not overwritten since) was in the file at that fsync, and
it is the `W / chunk`-th announcement.  And in an undisturbed run every completed
chunk has been announced. -/
theorem C10_chunk_durable (chunk n start : Nat) (hopt : Permitted chunk n start)
    (results : List Int) (s0 s : St) (ho : openAt chunk n start results = .ok (true, s0))
    (ps cs : List (List UInt8)) (hp : ∀ p ∈ ps, p.length = 188)
    (hc : Consumes sink s0 ps cs s) (f : RingFile) (hf : f.off = 0) :
    (∀ pre pos post, s.log = pre ++ .notify pos :: post →
      ∃ pre', pre = pre' ++ [.sync] ∧
      let W := (written pre).length
      0 < W ∧ W % chunk = 0 ∧ written pre <+: cs.flatten ∧
      pos = (if (start + W) % (chunk * n) = 0 then chunk * n else (start + W) % (chunk * n)) ∧
      (announced pre).length + 1 = W / chunk ∧
      (∀ k < W, W ≤ k + chunk * n →
        cs.flatten[k]? = some ((f.run pre').content ((start + k) % (chunk * n))))) ∧
    (Accepts sink s0 ps s → (announced s.log).length = ps.flatten.length / chunk) := by
  obtain ⟨g⟩ := geom_of_accept ((accept_iff _ _ _).2 hopt)
  obtain ⟨o1, o2, _⟩ := openLog_run start f hf
  constructor
  · intro pre pos post hsplit
    obtain ⟨t, full, W, fl, h1, h2, h3, h4⟩ := log_shape hopt g ho hp hc
    rw [h1] at hsplit
    obtain ⟨pre1, post1, e1, e2⟩ := split_shape (op := .notify pos)
      (by unfold openLog; intro o ho; split at ho <;> simp at ho; subst ho; simp)
      (by rcases h4 with rfl | rfl <;> simp) h3 hsplit
    obtain ⟨W0, m, log0, i, h5, h6, h7, h8, h9, h10⟩ := h2.split pre1 _ post1 e2
    -- the notification is element 2 of its segment, so the chunk boundary is reached
    have hi : i = 2 ∧ (start + (W0 + m)) % chunk = 0 ∧
        pos = (if (start + (W0 + m)) % (chunk * n) = 0 then chunk * n
          else (start + (W0 + m)) % (chunk * n)) := by
      unfold boundary at h9
      by_cases hb : (start + (W0 + m)) % chunk = 0
      · rw [if_pos hb] at h9
        by_cases hr : (start + (W0 + m)) % (chunk * n) = 0
        · simp only [hr, if_true] at h9 ⊢
          match i, h9 with
          | 0, h9 => simp at h9
          | 1, h9 => simp at h9
          | 2, h9 => simp at h9; exact ⟨rfl, hb, h9.symm⟩
          | 3, h9 => simp at h9
          | 4, h9 => simp at h9
          | i + 5, h9 => simp at h9
        · simp only [hr, if_false] at h9 ⊢
          match i, h9 with
          | 0, h9 => simp at h9
          | 1, h9 => simp at h9
          | 2, h9 => simp at h9; exact ⟨rfl, hb, h9.symm⟩
          | i + 3, h9 => simp at h9
      · rw [if_neg hb] at h9
        match i, h9 with
        | 0, h9 => simp at h9
        | i + 1, h9 => simp at h9
    obtain ⟨rfl, hb, hpos⟩ := hi
    have htake : (Op.write ((cs.flatten.drop W0).take m) ::
        boundary chunk (chunk * n) (start + (W0 + m))).take 2 =
        [Op.write ((cs.flatten.drop W0).take m), .sync] := by
      unfold boundary; rw [if_pos hb]; rfl
    rw [htake] at h10
    have htr := Trace.write h5 h6 h7 h8
    obtain ⟨a1, a2, a3, a4, a5⟩ := step_arith g W0 m h6 h8
    rw [if_pos hb] at a3
    have hwr : written pre = cs.flatten.take (W0 + m) := by
      rw [e1, written_append, openLog_written, List.nil_append, h10, List.take_add,
        written_append, h5.written]
      simp [written]
    have hW : (written pre).length = W0 + m := by
      rw [hwr, List.length_take]; omega
    refine ⟨openLog start ++ (log0 ++ [.write ((cs.flatten.drop W0).take m)]), ?_, ?_⟩
    · rw [e1, h10]; simp
    · simp only [hW]
      refine ⟨by omega, a5.1 hb, by rw [hwr]; exact List.take_prefix _ _, hpos, ?_, ?_⟩
      · rw [e1, announced_append, openLog_announced, h10, announced_append, List.nil_append]
        have h11 := h5.announced g
        simp only [List.length_append]
        rw [h11, a3]
        simp [announced]
      · intro k hk hk2
        obtain ⟨_, _, c3, _⟩ := htr.file g _ o1
        rw [c3 k hk hk2]
        have e : log0 ++ Op.write ((cs.flatten.drop W0).take m) ::
            boundary chunk (chunk * n) (start + (W0 + m)) =
            (log0 ++ [Op.write ((cs.flatten.drop W0).take m)]) ++
            boundary chunk (chunk * n) (start + (W0 + m)) := by simp
        rw [e, run_append _ (log0 ++ _), run_append f]
        congr 1
        apply (run_boundary _ chunk (chunk * n) _ a4).2.2
        exact Nat.mod_lt _ (Nat.mul_pos hopt.chunkPos hopt.numPos)
  · intro ha
    rcases open_spec ((accept_iff _ _ _).2 hopt) results g with ⟨s1, e1, hm, hb⟩ | ⟨s1, e1, _⟩
    · rw [ho] at e1; cases e1
      obtain ⟨w, hm', hl⟩ := accepts_spec g hm (by rw [hb]; simp) ha hp
      rw [List.nil_append] at hm'
      obtain ⟨t, h4, h5⟩ := hm'.log
      rw [h4, announced_append, openLog_announced, List.nil_append, h5.announced g]
      have h1 := hm'.len
      have c0 := g.c0
      have hdiv : ∀ x m, m < 8192 → (8192 * x + m) / chunk = 8192 * x / chunk := by
        intro x m hm
        rw [g.hC, ← Nat.div_div_eq_div_mul, ← Nat.div_div_eq_div_mul]
        congr 1
        omega
      rw [h1, hdiv w _ hl]
    · rw [ho] at e1; cases e1

/-- **C11**  Whatever happens: every write starts at `(start + W) mod ring size`
(`W` bytes written before) and does not reach beyond the ring size; when the
stream has come to the end of the ring the operations before the next write were
a truncation to exactly the ring size and a seek to 0; truncation happens only
there; and at every point of the history the file is not larger than the ring,
unless it was before. -/
theorem C11_ring_bounded (chunk n start : Nat) (hopt : Permitted chunk n start)
    (results : List Int) (s0 s : St) (ho : openAt chunk n start results = .ok (true, s0))
    (ps cs : List (List UInt8)) (hp : ∀ p ∈ ps, p.length = 188)
    (hc : Consumes sink s0 ps cs s) (f : RingFile) (hf : f.off = 0) :
    (∀ pre bs post, s.log = pre ++ .write bs :: post →
      let W := (written pre).length
      (f.run pre).off = (start + W) % (chunk * n) ∧ (f.run pre).off + bs.length ≤ chunk * n ∧
      (0 < W → (start + W) % (chunk * n) = 0 →
        ∃ pre', pre = pre' ++ [.trunc (chunk * n), .seek 0])) ∧
    (∀ pre size post, s.log = pre ++ .trunc size :: post →
      size = chunk * n ∧ 0 < (written pre).length ∧
      (start + (written pre).length) % (chunk * n) = 0) ∧
    (∀ pre, pre <+: s.log → (f.run pre).size ≤ max f.size (chunk * n)) := by
  obtain ⟨g⟩ := geom_of_accept ((accept_iff _ _ _).2 hopt)
  obtain ⟨o1, o2, o3⟩ := openLog_run start f hf
  obtain ⟨t, full, W, fl, h1, h2, h3, h4⟩ := log_shape hopt g ho hp hc
  refine ⟨?_, ?_, ?_⟩
  · intro pre bs post hsplit
    rw [h1] at hsplit
    obtain ⟨pre1, post1, e1, e2⟩ := split_shape (op := .write bs)
      (by unfold openLog; intro o ho; split at ho <;> simp at ho; subst ho; simp)
      (by rcases h4 with rfl | rfl <;> simp) h3 hsplit
    obtain ⟨W0, m, log0, i, h5, h6, h7, h8, h9, h10⟩ := h2.split pre1 _ post1 e2
    have hi : i = 0 := by
      cases i with
      | zero => rfl
      | succ i =>
        rw [List.getElem?_cons_succ] at h9
        rcases boundary_ops _ _ _ _ (List.mem_of_getElem? h9) with h | ⟨_, h⟩ | h | ⟨_, h⟩ <;> cases h
    subst hi
    simp only [List.getElem?_cons_zero, Option.some.injEq, Op.write.injEq] at h9
    simp only [List.take_zero, List.append_nil] at h10
    subst h10
    have hW : (written pre).length = W0 := by
      rw [e1, written_append, openLog_written, List.nil_append, h5.written, List.length_take]
      have := h5.le; omega
    obtain ⟨a1, _⟩ := step_arith g W0 m h6 h8
    have hoff := (h5.file g _ o1).1
    rw [← run_append, ← e1] at hoff
    simp only [hW]
    refine ⟨hoff, ?_, ?_⟩
    · rw [hoff, ← h9, List.length_take, List.length_drop]; omega
    · intro hpos hw
      obtain ⟨log', hl⟩ := h5.wrapped g hpos hw
      exact ⟨openLog start ++ log', by rw [e1, hl]; simp⟩
  · intro pre size post hsplit
    rw [h1] at hsplit
    obtain ⟨pre1, post1, e1, e2⟩ := split_shape (op := .trunc size)
      (by unfold openLog; intro o ho; split at ho <;> simp at ho; subst ho; simp)
      (by rcases h4 with rfl | rfl <;> simp) h3 hsplit
    obtain ⟨W0, m, log0, i, h5, h6, h7, h8, h9, h10⟩ := h2.split pre1 _ post1 e2
    have hi : i = 3 ∧ (start + (W0 + m)) % chunk = 0 ∧ (start + (W0 + m)) % (chunk * n) = 0 ∧
        size = chunk * n := by
      unfold boundary at h9
      by_cases hb : (start + (W0 + m)) % chunk = 0
      · rw [if_pos hb] at h9
        by_cases hr : (start + (W0 + m)) % (chunk * n) = 0
        · simp only [hr, if_true] at h9 ⊢
          match i, h9 with
          | 0, h9 => simp at h9
          | 1, h9 => simp at h9
          | 2, h9 => simp at h9
          | 3, h9 => simp at h9; exact ⟨rfl, hb, trivial, h9.symm⟩
          | 4, h9 => simp at h9
          | i + 5, h9 => simp at h9
        · simp only [hr, if_false] at h9 ⊢
          match i, h9 with
          | 0, h9 => simp at h9
          | 1, h9 => simp at h9
          | 2, h9 => simp at h9
          | i + 3, h9 => simp at h9
      · rw [if_neg hb] at h9
        match i, h9 with
        | 0, h9 => simp at h9
        | i + 1, h9 => simp at h9
    obtain ⟨rfl, hb, hr, hsz⟩ := hi
    have htake : (Op.write ((cs.flatten.drop W0).take m) ::
        boundary chunk (chunk * n) (start + (W0 + m))).take 3 =
        [Op.write ((cs.flatten.drop W0).take m), .sync, .notify (chunk * n)] := by
      unfold boundary; rw [if_pos hb, if_pos hr]; rfl
    rw [htake] at h10
    have hW : (written pre).length = W0 + m := by
      have : written pre = cs.flatten.take (W0 + m) := by
        rw [e1, written_append, openLog_written, List.nil_append, h10, List.take_add,
          written_append, h5.written]
        simp [written]
      rw [this, List.length_take]; omega
    rw [hW]
    exact ⟨hsz, by omega, hr⟩
  · intro pre hpre
    rw [h1, List.append_assoc] at hpre
    rcases prefix_append_cases hpre with hpre | ⟨r, e, hr⟩
    · -- inside the opening seek
      have : (f.run pre).size ≤ max f.size (chunk * n) := by
        apply run_size
        intro op hop
        have hop' := hpre.subset hop
        unfold openLog at hop'
        split at hop' <;> simp at hop'
        subst hop'; simp
      exact this
    · rw [e, run_append]
      rcases prefix_append_cases hr with hr | ⟨r2, e2, hr2⟩
      · have := h2.size_prefix g _ o1 (hr.trans h3)
        rw [o3] at this; exact this
      · have h5 := h2.size_prefix g _ o1 h3
        rw [o3] at h5
        rw [e2, run_append]
        have : ((f.run (openLog start)).run t).run r2 = (f.run (openLog start)).run t := by
          rcases h4 with rfl | rfl
          · rw [List.prefix_nil] at hr2; rw [hr2]; rfl
          · rcases (List.prefix_cons_iff.1 hr2) with rfl | ⟨l, rfl, hl⟩
            · rfl
            · rw [List.prefix_nil] at hl; rw [hl]; rfl
        rw [this]; exact h5

/-- **C12**  Errors are reported: either no file operation failed, all packets
were accepted and the exit code is 0, or the last operation failed, it made the
sink refuse the packet, the sink is broken and the exit code is 1.  If no
operation fails, no packet is refused. -/
theorem C12_errors_reported (chunk n start : Nat) (hopt : Permitted chunk n start)
    (results : List Int) :
    (∀ s0 s, openAt chunk n start results = .ok (true, s0) →
      ∀ ps cs, (∀ p ∈ ps, p.length = 188) → Consumes sink s0 ps cs s →
      ((Accepts sink s0 ps s ∧ cs = ps ∧ s.broken = false ∧ sink.exitCode s = 0 ∧
          .failed ∉ s.log ∧ ∃ used, results = used ++ s.results ∧ ∀ r ∈ used, 0 < r) ∨
       ((∃ cs' p s1, cs = cs' ++ [p] ∧ Accepts sink s0 cs' s1 ∧
            sink.handle s1 p = .ok (false, s)) ∧
          s.broken = true ∧ sink.exitCode s = 1 ∧ (∃ log', s.log = log' ++ [.failed]) ∧
          ∃ used r, results = used ++ r :: s.results ∧ r ≤ 0 ∧ ∀ r ∈ used, 0 < r))) ∧
    -- a start position that cannot be reached stops the command at the start
    (∀ s0, openAt chunk n start results = .ok (false, s0) → ∃ r rest, results = r :: rest ∧ r ≤ 0) ∧
    -- without failures everything is accepted
    ((∀ r ∈ results, 0 < r) → ∃ s0, openAt chunk n start results = .ok (true, s0) ∧
      ∀ ps, (∀ p ∈ ps, p.length = 188) → ∃ s, Accepts sink s0 ps s) := by
  obtain ⟨g⟩ := geom_of_accept ((accept_iff _ _ _).2 hopt)
  refine ⟨?_, ?_, ?_⟩
  · intro s0 s ho ps cs hp hc
    rcases run_shape hopt g ho hp hc with ⟨ha, e, _, w, hm⟩ | ⟨hbr, hb⟩
    · left
      obtain ⟨t, h1, h2⟩ := hm.log
      refine ⟨ha, e, hm.ok, by simp [sink, hm.ok, exitSuccess], ?_, hm.oracle⟩
      rw [h1]
      intro hmem
      rcases List.mem_append.1 hmem with hmem | hmem
      · unfold openLog at hmem; split at hmem <;> simp at hmem
      · exact h2.no_failed hmem
    · right
      refine ⟨?_, hb, by simp [sink, hb, exitFailure], ?_, hbr.oracle⟩
      · rcases consumes_cases hc with ⟨ha, _⟩ | h
        · rcases open_spec ((accept_iff _ _ _).2 hopt) results g with ⟨s1, e1, hm, hbuf⟩ | ⟨s1, e1, _⟩
          · rw [ho] at e1; cases e1
            obtain ⟨w, hm', _⟩ := accepts_spec g hm (by rw [hbuf]; simp) ha hp
            rw [hm'.ok] at hb; cases hb
          · rw [ho] at e1; cases e1
        · exact h
      · obtain ⟨t, _, _, h1, _⟩ := hbr.log
        exact ⟨_, h1⟩
  · intro s0 ho
    unfold openAt new at ho
    obtain ⟨h1, h2, h3, h4, h5, h6, h7⟩ := hopt
    rcases open_spec ((accept_iff _ _ _).2 ⟨h1, h2, h3, h4, h5, h6, h7⟩) results g with
      ⟨s1, e1, _⟩ | ⟨s1, e1, hbad⟩
    · unfold openAt new at e1; rw [ho] at e1; cases e1
    · -- only one call was made, so the failing result is the first one
      cases results with
      | nil => obtain ⟨u, r, hu, _⟩ := hbad; cases u <;> simp at hu
      | cons r rest =>
        refine ⟨r, rest, rfl, ?_⟩
        apply Decidable.byContradiction
        intro hr
        have hB : bufferSize = 8192 := rfl
        rw [show decide (chunk > 0) = true by simp; omega,
          show decide (chunk ≤ maxChunkSize) = true by
            rw [show maxChunkSize = 8192 * 0x3FFFF from rfl]; simp; omega,
          show decide (n > 0) = true by simp; omega,
          show decide (n ≤ maxNumChunks) = true by
            rw [show maxNumChunks = 0x7FFFFFFF from rfl]; simp; omega,
          show decide (chunk % bufferSize = 0) = true by simp [hB, h2]] at ho
        simp only [FileSource.assertThat_true, FileSource.bind_ok] at ho
        split at ho
        · unfold setPosition call at ho
          simp only [if_pos (show r > 0 by omega), if_true] at ho
          simp only [bind, Except.bind, assertThat] at ho
          repeat' split at ho
          all_goals simp_all
        · cases ho
  · intro hall
    rcases open_spec ((accept_iff _ _ _).2 hopt) results g with ⟨s0, e1, hm, hb⟩ | ⟨s1, e1, hbad⟩
    · refine ⟨s0, e1, fun ps hp => ?_⟩
      rcases consumes_exists g _ _ ps [] 0 s0 hm (by rw [hb]; simp) hp with
        ⟨s', ha, _⟩ | ⟨cs', s', _, hbr, _, _⟩
      · exact ⟨s', ha⟩
      · obtain ⟨u, r, hu, h0, _⟩ := hbr.oracle
        have := hall r (by rw [hu]; simp)
        omega
    · obtain ⟨u, r, hu, h0, _⟩ := hbad
      have := hall r (by rw [hu]; simp)
      omega

/-- **C13**  The command line accepts exactly the permitted sizes, and for those
neither construction nor positioning nor recording hits an assertion (or any
other abnormal outcome), whatever the file operations return. -/
theorem C13_no_assertion (chunk n start : Nat) :
    (acceptOptions chunk n start = true ↔ Permitted chunk n start) ∧
    (acceptOptions chunk n start = true → ∀ (results : List Int),
      (∃ s, openAt chunk n start results = .ok (false, s)) ∨
      ∃ s0, openAt chunk n start results = .ok (true, s0) ∧
        ∀ ps, (∀ p ∈ ps, p.length = 188) → ∃ cs s, Consumes sink s0 ps cs s) := by
  refine ⟨accept_iff _ _ _, ?_⟩
  intro hopt results
  obtain ⟨g⟩ := geom_of_accept hopt
  rcases open_spec hopt results g with ⟨s0, e1, hm, hb⟩ | ⟨s1, e1, hbad⟩
  · refine .inr ⟨s0, e1, fun ps hp => ?_⟩
    rcases consumes_exists g _ _ ps [] 0 s0 hm (by rw [hb]; simp) hp with
      ⟨s', _, hc⟩ | ⟨cs', s', hc, _, _, _⟩
    · exact ⟨ps, s', hc⟩
    · exact ⟨cs', s', hc⟩
  · exact .inl ⟨s1, e1⟩

/-! Non-trivial cases: 45 packets into a ring of two chunks of 8192 bytes,
starting at the second chunk, so the ring wraps; the first write is short. -/

private def ringPackets : List (List UInt8) :=
  List.replicate 45 (0x47 :: List.replicate 187 0)

private def ringRun (results : List Int) : Option (St × List (List UInt8) × St) :=
  match openAt 8192 2 8192 results with
  | .ok (true, s0) => (consumeAll sink s0 ringPackets).map fun r => (s0, r.1, r.2)
  | _ => none

private theorem ringPermitted : Permitted 8192 2 8192 := by
  constructor <;> decide

private theorem ringLengths : ∀ p ∈ ringPackets, p.length = 188 := by decide +kernel

/-- The hypotheses of C08–C12 are met by an undisturbed run with a wrap. -/
example : ∃ s0 s, openAt 8192 2 8192 [1, 100, 9000] = .ok (true, s0) ∧
    Accepts sink s0 ringPackets s ∧ Permitted 8192 2 8192 ∧
    (∀ p ∈ ringPackets, p.length = 188) ∧
    announced s.log = [16384] ∧ s.ringPos = (8192 + 45 * 188) % 16384 := by
  have h : ∃ s0, openAt 8192 2 8192 [1, 100, 9000] = .ok (true, s0) := ⟨_, rfl⟩
  obtain ⟨s0, h0⟩ := h
  have h1 : ((match openAt 8192 2 8192 [1, 100, 9000] with
      | .ok (true, s0) => acceptAll sink s0 ringPackets
      | _ => none).map fun (s : St) => (announced s.log, s.ringPos)) = some ([16384], 268) := by
    decide +kernel
  rw [h0] at h1
  simp only [Option.map_eq_some_iff] at h1
  obtain ⟨s, h2, h3⟩ := h1
  simp only [Prod.mk.injEq] at h3
  exact ⟨s0, s, h0, acceptAll_accepts h2, ringPermitted, ringLengths, h3.1, h3.2⟩

/-- … and by a run where the fsync after the first buffer fails. -/
example : ∃ s0 cs s, openAt 8192 2 8192 [1, 8192, -1] = .ok (true, s0) ∧
    Consumes sink s0 ringPackets cs s ∧ s.broken = true ∧ cs.length = 44 := by
  have h : ∃ s0, openAt 8192 2 8192 [1, 8192, -1] = .ok (true, s0) := ⟨_, rfl⟩
  obtain ⟨s0, h0⟩ := h
  have h1 : ((ringRun [1, 8192, -1]).map fun r => (r.2.2.broken, r.2.1.length))
      = some (true, 44) := by decide +kernel
  unfold ringRun at h1
  rw [h0] at h1
  simp only [Option.map_map, Option.map_eq_some_iff] at h1
  obtain ⟨⟨cs, s⟩, h2, h3⟩ := h1
  simp only [Function.comp, Prod.mk.injEq] at h3
  exact ⟨s0, cs, s, h0, consumeAll_consumes h2, h3.1, h3.2⟩

end Mirakc.Props
