import Verif.Spec.RingFile
import Verif.Spec.PacketLoop
import Verif.Proof.FileSource
/-
Lemmas about `RingFileSink`.
-/
namespace Mirakc.RingFileSink
open Mirakc.Spec
open FileSource (bind_ok bind_error assertThat_true)

/-- What follows a write that brings the stream to position `p` (counted from
the start of the ring). -/
def boundary (C R p : Nat) : List Op :=
  if p % C = 0 then
    .sync :: .notify (if p % R = 0 then R else p % R) ::
      (if p % R = 0 then [.trunc R, .seek 0] else [])
  else []

/-- The logs of a sink that stores the stream `F` without failures; the number
is the count of bytes written. -/
inductive Trace (S C R : Nat) (F : List UInt8) : Nat → List Op → Prop
  | nil : Trace S C R F 0 []
  | write {W log n} : Trace S C R F W log → 0 < n → W + n ≤ F.length →
      W % 8192 + n ≤ 8192 →
      Trace S C R F (W + n) (log ++ .write ((F.drop W).take n) :: boundary C R (S + (W + n)))

theorem Trace.mono {S C R F W log} (h : Trace S C R F W log) (G : List UInt8) :
    Trace S C R (F ++ G) W log := by
  induction h with
  | nil => exact .nil
  | @write W log n h h1 h2 h3 ih =>
    have := Trace.write ih h1 (by rw [List.length_append]; omega) h3
    rw [List.drop_append_of_le_length (by omega), List.take_append_of_le_length] at this
    · exact this
    · rw [List.length_drop]; omega

/-- The geometry in units of buffers: chunk size `8192*c`, `k` chunks, start at
chunk `a`. -/
structure Geom (S C R : Nat) where
  c : Nat
  k : Nat
  a : Nat
  c0 : 0 < c
  hC : C = 8192 * c
  hR : R = 8192 * (c * k)
  hS : S = 8192 * (c * a)
  hak : a < k

theorem Geom.r0 {S C R} (g : Geom S C R) : 0 < g.c * g.k := Nat.mul_pos g.c0 (by have := g.hak; omega)

theorem blk_mod (x m c : Nat) (hm : m < 8192) :
    (8192 * x + m) % (8192 * c) = 8192 * (x % c) + m := by
  have h1 : 8192 * x + m = 8192 * (x % c) + m + (8192 * c) * (x / c) := by
    have := Nat.mod_add_div x c
    conv => lhs; rw [← this]
    rw [Nat.mul_add, Nat.mul_assoc]; omega
  by_cases hc : c = 0
  · subst hc; simp
  · rw [h1, Nat.add_mul_mod_self_left, Nat.mod_eq_of_lt]
    have := Nat.mod_lt x (Nat.pos_of_ne_zero hc)
    omega

theorem Geom.modC {S C R} (g : Geom S C R) (x m : Nat) (hm : m < 8192) :
    (8192 * x + m) % C = 8192 * (x % g.c) + m := by
  obtain ⟨c, k, a, _, rfl, _, _, _⟩ := g
  exact blk_mod x m c hm

theorem Geom.modR {S C R} (g : Geom S C R) (x m : Nat) (hm : m < 8192) :
    (8192 * x + m) % R = 8192 * (x % (g.c * g.k)) + m := by
  obtain ⟨c, k, a, _, _, rfl, _, _⟩ := g
  exact blk_mod x m (c * k) hm

theorem Geom.SC {S C R} (g : Geom S C R) : S = C * g.a := by
  obtain ⟨c, k, a, _, rfl, _, rfl, _⟩ := g
  exact (Nat.mul_assoc _ _ _).symm

theorem Geom.RC {S C R} (g : Geom S C R) : R = C * g.k := by
  obtain ⟨c, k, a, _, rfl, rfl, _, _⟩ := g
  exact (Nat.mul_assoc _ _ _).symm

theorem Geom.modC0 {S C R} (g : Geom S C R) (x : Nat) : (8192 * x) % C = 8192 * (x % g.c) :=
  g.modC x 0 (by decide)

theorem Geom.modR0 {S C R} (g : Geom S C R) (x : Nat) :
    (8192 * x) % R = 8192 * (x % (g.c * g.k)) :=
  g.modR x 0 (by decide)

theorem succ_mod (x r : Nat) (hr : 0 < r) :
    (x + 1) % r = if x % r + 1 = r then 0 else x % r + 1 := by
  have h := Nat.mod_lt x hr
  split
  · next he =>
    have h1 : x + 1 = r + r * (x / r) := by have := Nat.mod_add_div x r; omega
    rw [h1, Nat.add_mul_mod_self_left, Nat.mod_self]
  · have h1 : x + 1 = (x % r + 1) + r * (x / r) := by have := Nat.mod_add_div x r; omega
    rw [h1, Nat.add_mul_mod_self_left, Nat.mod_eq_of_lt (by omega)]

/-- `rest` is what is left of the oracle `ws` after successful calls only. -/
def Fine (ws rest : List Int) : Prop := ∃ used, ws = used ++ rest ∧ ∀ r ∈ used, 0 < r

/-- `rest` is what is left of the oracle `ws` after successful calls followed by
one failing call. -/
def Bad (ws rest : List Int) : Prop :=
  ∃ used r, ws = used ++ r :: rest ∧ r ≤ 0 ∧ ∀ r ∈ used, 0 < r

theorem Fine.refl (ws) : Fine ws ws := ⟨[], by simp, by simp⟩

theorem Fine.cons {r rs} (h : 0 < r) : Fine (r :: rs) rs := ⟨[r], by simp, by simpa⟩

theorem Bad.cons {r rs} (h : r ≤ 0) : Bad (r :: rs) rs := ⟨[], r, by simp, h, by simp⟩

theorem Fine.trans {a b c} (h1 : Fine a b) (h2 : Fine b c) : Fine a c := by
  obtain ⟨u, rfl, hu⟩ := h1
  obtain ⟨v, rfl, hv⟩ := h2
  refine ⟨u ++ v, by simp, ?_⟩
  intro r hr
  rcases List.mem_append.1 hr with h | h
  · exact hu r h
  · exact hv r h

theorem Fine.trans_bad {a b c} (h1 : Fine a b) (h2 : Bad b c) : Bad a c := by
  obtain ⟨u, rfl, hu⟩ := h1
  obtain ⟨v, r, rfl, h0, hv⟩ := h2
  refine ⟨u ++ v, r, by simp, h0, ?_⟩
  intro r hr
  rcases List.mem_append.1 hr with h | h
  · exact hu r h
  · exact hv r h

theorem call_spec (op : Op) (s : St) :
    (∃ rs, Fine s.results rs ∧ call op s = (true, { s with log := s.log ++ [op], results := rs })) ∨
    (∃ rs, Bad s.results rs ∧
      call op s = (false, { s with log := s.log ++ [.failed], results := rs })) := by
  unfold call
  cases h : s.results with
  | nil =>
    left
    exact ⟨[], Fine.refl _, by simp only [← h]⟩
  | cons r rs =>
    simp only
    by_cases h0 : r > 0
    · rw [if_pos h0]; exact .inl ⟨rs, Fine.cons h0, rfl⟩
    · rw [if_neg h0]; exact .inr ⟨rs, Bad.cons (by omega), rfl⟩

variable {S C R : Nat}

theorem boundary_mid (g : Geom S C R) (w m : Nat) (h0 : 0 < m) (hm : m < 8192) :
    boundary C R (S + (8192 * w + m)) = [] := by
  unfold boundary
  rw [if_neg]
  have e : S + (8192 * w + m) = 8192 * (g.c * g.a + w) + m := by have := g.hS; omega
  rw [e, g.modC _ _ hm]
  omega

/-- The write loop of one flush, for buffer number `w` of the stream. -/
theorem writeLoop_spec (g : Geom S C R) (F : List UInt8) (w : Nat)
    (hF : F.length = 8192 * w + 8192) (pfx : List Op) : ∀ (rs : List Int) (n : Nat) (t : List Op),
    n < 8192 → Trace S C R F (8192 * w + n) t →
    (∃ rest m t', m < 8192 ∧ Fine rs rest ∧ Trace S C R F (8192 * w + m) t' ∧
      writeLoop (F.drop (8192 * w)) n (pfx ++ t) rs =
        (true, rest, pfx ++ (t' ++ [.write ((F.drop (8192 * w + m)).take (8192 - m))]))) ∨
    (∃ rest W' t', Bad rs rest ∧ Trace S C R F W' t' ∧
      writeLoop (F.drop (8192 * w)) n (pfx ++ t) rs = (false, rest, pfx ++ t' ++ [.failed])) := by
  intro rs
  have hB : bufferSize = 8192 := rfl
  have last : ∀ n, n < 8192 → (F.drop (8192 * w)).drop n
      = (F.drop (8192 * w + n)).take (8192 - n) := by
    intro n hn
    rw [List.drop_drop, List.take_of_length_le]
    rw [List.length_drop]; omega
  induction rs with
  | nil =>
    intro n t hn ht
    left
    refine ⟨[], n, t, hn, Fine.refl _, ht, ?_⟩
    unfold writeLoop
    rw [if_pos (by omega), last n hn, List.append_assoc]
  | cons r rs ih =>
    intro n t hn ht
    unfold writeLoop
    rw [if_pos (by omega)]
    by_cases hr : r ≤ 0
    · rw [if_pos hr]
      right
      exact ⟨rs, _, t, Bad.cons hr, ht, rfl⟩
    · rw [if_neg hr]
      simp only
      generalize hm : min r.toNat (bufferSize - n) = m
      by_cases hfull : n + m = 8192
      · left
        refine ⟨rs, n, t, hn, Fine.cons (by omega), ht, ?_⟩
        have : writeLoop (F.drop (8192 * w)) (n + m)
            (pfx ++ t ++ [.write ((List.drop n (F.drop (8192 * w))).take m)]) rs =
            (true, rs, pfx ++ t ++ [.write ((List.drop n (F.drop (8192 * w))).take m)]) := by
          cases rs <;> (unfold writeLoop; rw [if_neg (by omega)])
        rw [this, List.append_assoc, List.drop_drop, show m = 8192 - n by omega]
      · have htr := Trace.write ht (n := m) (by omega) (by omega) (by omega)
        rw [Nat.add_assoc, boundary_mid g w (n + m) (by omega) (by omega)] at htr
        have := ih (n + m) (t ++ [.write ((F.drop (8192 * w + n)).take m)]) (by omega) htr
        rw [← List.append_assoc, ← List.drop_drop] at this
        rcases this with ⟨rest, m', t', h1, h2, h3, h4⟩ | ⟨rest, W', t', h2, h3, h4⟩
        · left
          exact ⟨rest, m', t', h1, (Fine.cons (by omega)).trans h2, h3, h4⟩
        · right
          exact ⟨rest, W', t', (Fine.cons (by omega)).trans_bad h2, h3, h4⟩

/-- What holds between two operations of the packet handling: `F` is the part of
the stream that has been taken, `w` the number of flushed buffers. -/
structure Mid (g : Geom S C R) (pfx : List Op) (rs0 : List Int) (F : List UInt8) (w : Nat)
    (s : St) : Prop where
  chunk : s.chunkSize = C
  ring : s.ringSize = R
  ok : s.broken = false
  len : F.length = 8192 * w + s.buf.length
  buf : s.buf = F.drop (8192 * w)
  rp : s.ringPos = 8192 * ((g.c * g.a + w) % (g.c * g.k)) + s.buf.length
  cp : s.chunkPos = 8192 * (w % g.c)
  log : ∃ t, s.log = pfx ++ t ∧ Trace S C R F (8192 * w) t
  oracle : Fine rs0 s.results

/-- What holds when a file operation failed. -/
structure Broken (_g : Geom S C R) (pfx : List Op) (rs0 : List Int) (F : List UInt8)
    (s : St) : Prop where
  log : ∃ t full W, s.log = pfx ++ t ++ [.failed] ∧ Trace S C R F W full ∧ t <+: full
  oracle : Bad rs0 s.results

theorem flush_spec (g : Geom S C R) {pfx rs0 F w s} (h : Mid g pfx rs0 F w s)
    (hfull : s.buf.length = 8192) :
    (∃ s', flush s = .ok (true, s') ∧ Mid g pfx rs0 F (w + 1) s' ∧ s'.buf = []) ∨
    (∃ s', flush s = .ok (false, s') ∧ Broken g pfx rs0 F s') := by
  have hB : bufferSize = 8192 := rfl
  obtain ⟨hch, hri, hok, hlen, hbuf, hrp, hcp, ⟨t, hlog, ht⟩, hor⟩ := h
  rw [hfull] at hlen hrp
  have c0 := g.c0
  have r0 := g.r0
  unfold flush
  rw [hfull]
  simp only [hB, decide_true, assertThat_true, bind_ok]
  rw [hbuf, hlog]
  -- the arithmetic of the boundaries
  have hxc : (g.c * g.a + w) % (g.c * g.k) % g.c = w % g.c := by
    rw [Nat.mod_mod_of_dvd _ (Nat.dvd_mul_right _ _), Nat.mul_add_mod]
  have hpC : (S + 8192 * (w + 1)) % C = 8192 * ((w + 1) % g.c) := by
    have e : S + 8192 * (w + 1) = 8192 * (g.c * g.a + (w + 1)) := by have := g.hS; omega
    rw [e, g.modC0, Nat.mul_add_mod]
  have hpR : (S + 8192 * (w + 1)) % R = 8192 * ((g.c * g.a + w + 1) % (g.c * g.k)) := by
    have e : S + 8192 * (w + 1) = 8192 * (g.c * g.a + w + 1) := by have := g.hS; omega
    rw [e, g.modR0]
  have hmodc := succ_mod w g.c c0
  have hmodr := succ_mod (g.c * g.a + w) (g.c * g.k) r0
  have hltc := Nat.mod_lt w c0
  have hltr := Nat.mod_lt (g.c * g.a + w) r0
  have hring_chunk : (g.c * g.a + w) % (g.c * g.k) + 1 = g.c * g.k → w % g.c + 1 = g.c := by
    intro he
    rw [if_pos he] at hmodr
    have h1 : (g.c * g.a + w + 1) % g.c = 0 := by
      rw [← Nat.mod_mod_of_dvd _ (Nat.dvd_mul_right g.c g.k), hmodr, Nat.zero_mod]
    rw [Nat.add_assoc, Nat.mul_add_mod] at h1
    rw [h1] at hmodc
    split at hmodc
    · assumption
    · omega
  have ht0 : Trace S C R F (8192 * w + 0) t := ht
  have hlen' : F.length = 8192 * (w + 1) + 0 := by rw [hlen, Nat.add_zero, Nat.mul_succ]
  rcases writeLoop_spec g F w hlen pfx s.results 0 t (by omega) ht0 with
    ⟨rest, m, t', hm, hfine, ht', he⟩ | ⟨rest, W', t', hbad, ht', he⟩
  · have htr := Trace.write ht' (n := 8192 - m) (by omega) (by omega) (by omega)
    rw [show 8192 * w + m + (8192 - m) = 8192 * (w + 1) by omega] at htr
    rw [he]
    simp only
    generalize hwr : Op.write ((F.drop (8192 * w + m)).take (8192 - m)) = wr at *
    unfold endChunk
    simp only [hB, hcp, hch]
    rw [show decide (8192 * (w % g.c) + 8192 ≤ C) = true from by
      have := g.hC; simp; omega]
    simp only [assertThat_true, bind_ok]
    by_cases hcb : w % g.c + 1 = g.c
    · rw [if_pos hcb] at hmodc
      rw [if_pos (by have := g.hC; omega)]
      rw [show decide (s.ringPos ≠ 0) = true from by simp; omega]
      rw [show decide (s.ringPos % C = 0) = true from by
        have e : s.ringPos = 8192 * ((g.c * g.a + w) % (g.c * g.k) + 1) := by omega
        have e2 : ((g.c * g.a + w) % (g.c * g.k) + 1) % g.c = 0 := by
          rw [Nat.add_mod, hxc, ← Nat.add_mod, hmodc]
        rw [e, g.modC0, e2]; simp]
      simp only [assertThat_true, bind_ok]
      unfold boundary at htr
      rw [if_pos (by rw [hpC, hmodc])] at htr
      have hnot : (if (S + 8192 * (w + 1)) % R = 0 then R else (S + 8192 * (w + 1)) % R)
          = s.ringPos := by
        rw [hpR, hmodr]
        have := g.hR
        by_cases he : (g.c * g.a + w) % (g.c * g.k) + 1 = g.c * g.k
        · rw [if_pos he]; simp; omega
        · rw [if_neg he]; simp; omega
      rw [hnot] at htr
      rcases call_spec .sync { s with
          buf := [], chunkPos := 8192 * (w % g.c) + 8192,
          results := rest, log := pfx ++ (t' ++ [wr]) } with
        ⟨rs1, hf1, hc1⟩ | ⟨rs1, hf1, hc1⟩
      · simp only [hch] at hc1 ⊢
        rw [hc1]
        simp only [if_true, bind_ok]
        unfold endRing
        simp only [hri]
        by_cases hrb : (g.c * g.a + w) % (g.c * g.k) + 1 = g.c * g.k
        · rw [if_pos hrb] at hmodr
          rw [if_pos (by rw [hpR, hmodr])] at htr
          rw [if_pos (by have := g.hR; omega)]
          rcases call_spec (.trunc R) { s with
              ringSize := R, chunkSize := C,
              buf := [], chunkPos := 0,
              results := rs1,
              log := pfx ++ (t' ++ [wr]) ++ [.sync] ++ [.notify s.ringPos] } with
            ⟨rs2, hf2, hc2⟩ | ⟨rs2, hf2, hc2⟩
          · simp only at hc2 ⊢
            rw [hc2]
            simp only [if_true]
            rcases call_spec (.seek 0) { s with
                ringSize := R, chunkSize := C,
                buf := [], chunkPos := 0,
                results := rs2,
                log := pfx ++ (t' ++ [wr]) ++ [.sync] ++ [.notify s.ringPos] ++ [.trunc R] } with
              ⟨rs3, hf3, hc3⟩ | ⟨rs3, hf3, hc3⟩
            · simp only at hc3 ⊢
              rw [hc3]
              simp only [if_true]
              left
              refine ⟨_, rfl, ⟨rfl, rfl, hok, ?_, ?_, ?_, ?_, ?_, ?_⟩, rfl⟩
              · exact hlen'
              · rw [List.drop_of_length_le (by omega)]
              · simp only [List.length_nil, ← Nat.add_assoc, hmodr]
              · simp only [hmodc]
              · refine ⟨_, ?_, htr⟩
                simp
              · exact ((hor.trans hfine).trans hf1).trans (hf2.trans hf3)
            · simp only at hc3 ⊢
              rw [hc3]
              simp only [Bool.false_eq_true, if_false]
              right
              refine ⟨_, rfl, ⟨?_, ?_⟩⟩
              · refine ⟨t' ++ [wr] ++ [.sync] ++ [.notify s.ringPos] ++ [.trunc R], _, _, ?_, htr, ?_⟩
                · simp
                · exact ⟨[.seek 0], by simp⟩
              · exact ((hor.trans hfine).trans hf1).trans_bad (hf2.trans_bad hf3)
          · simp only at hc2 ⊢
            rw [hc2]
            simp only [Bool.false_eq_true, if_false]
            right
            refine ⟨_, rfl, ⟨?_, ?_⟩⟩
            · refine ⟨t' ++ [wr] ++ [.sync] ++ [.notify s.ringPos], _, _, ?_, htr, ?_⟩
              · simp
              · exact ⟨[.trunc R, .seek 0], by simp⟩
            · exact ((hor.trans hfine).trans hf1).trans_bad hf2
        · rw [if_neg hrb] at hmodr
          rw [if_neg (by rw [hpR, hmodr]; omega)] at htr
          rw [if_neg (by have := g.hR; omega)]
          have hrp' : s.ringPos = 8192 * ((g.c * g.a + (w + 1)) % (g.c * g.k)) + 0 := by
            rw [← Nat.add_assoc, hmodr, hrp, Nat.add_zero, Nat.mul_succ]
          left
          refine ⟨_, rfl, ⟨rfl, rfl, hok, ?_, ?_, ?_, ?_, ?_, ?_⟩, rfl⟩
          · exact hlen'
          · rw [List.drop_of_length_le (by omega)]
          · exact hrp'
          · simp only [hmodc]
          · refine ⟨_, ?_, htr⟩
            simp
          · exact (hor.trans hfine).trans hf1
      · simp only [hch] at hc1 ⊢
        rw [hc1]
        simp only [Bool.false_eq_true, if_false, bind_ok]
        right
        refine ⟨_, rfl, ⟨?_, ?_⟩⟩
        · refine ⟨t' ++ [wr], _, _, ?_, htr, ?_⟩
          · simp
          · exact ⟨.sync :: .notify s.ringPos :: _, by simp; rfl⟩
        · exact (hor.trans hfine).trans_bad hf1
    · rw [if_neg hcb] at hmodc
      have hrb : ¬ (g.c * g.a + w) % (g.c * g.k) + 1 = g.c * g.k := fun h => hcb (hring_chunk h)
      rw [if_neg (by have := g.hC; omega)]
      simp only [if_true, bind_ok]
      unfold endRing
      simp only [hri]
      rw [if_neg (by have := g.hR; omega)]
      rw [if_neg hrb] at hmodr
      unfold boundary at htr
      rw [if_neg (by rw [hpC, hmodc]; omega)] at htr
      have hrp' : s.ringPos = 8192 * ((g.c * g.a + (w + 1)) % (g.c * g.k)) + 0 := by
        rw [← Nat.add_assoc, hmodr, hrp, Nat.add_zero, Nat.mul_succ]
      have hcp' : 8192 * (w % g.c) + 8192 = 8192 * ((w + 1) % g.c) := by rw [hmodc]; omega
      left
      refine ⟨_, rfl, ⟨rfl, rfl, hok, ?_, ?_, ?_, ?_, ?_, ?_⟩, rfl⟩
      · exact hlen'
      · rw [List.drop_of_length_le (by omega)]
      · exact hrp'
      · exact hcp'
      · exact ⟨_, rfl, htr⟩
      · exact hor.trans hfine
  · rw [he]
    simp only
    right
    exact ⟨_, rfl, ⟨t', t', W', rfl, ht', List.prefix_refl _⟩, hor.trans_bad hbad⟩

theorem fill_spec (g : Geom S C R) {pfx rs0 F w s} (h : Mid g pfx rs0 F w s)
    (hsmall : s.buf.length ≤ 8192) (data : List UInt8) :
    ∃ s', fillBuffer s data = .ok (min data.length (8192 - s.buf.length), s') ∧
      s'.buf.length = s.buf.length + min data.length (8192 - s.buf.length) ∧
      Mid g pfx rs0 (F ++ data.take (min data.length (8192 - s.buf.length))) w s' := by
  have hB : bufferSize = 8192 := rfl
  obtain ⟨hch, hri, hok, hlen, hbuf, hrp, hcp, ⟨t, hlog, ht⟩, hor⟩ := h
  unfold fillBuffer
  simp only [hB]
  generalize hn : min data.length (8192 - s.buf.length) = n
  have hl : (s.buf ++ data.take n).length = s.buf.length + n := by
    rw [List.length_append, List.length_take]; omega
  rw [hl]
  have hR := g.hR
  have hlt := Nat.mod_lt (g.c * g.a + w) g.r0
  have a1 : decide (s.buf.length + n ≤ 8192) = true := by rw [decide_eq_true_eq]; omega
  have a2 : decide (s.ringPos + n ≤ s.ringSize) = true := by
    rw [decide_eq_true_eq, hri]; omega
  simp only [a1, a2, assertThat_true, bind_ok]
  refine ⟨_, rfl, hl, hch, hri, hok, ?_, ?_, ?_, hcp, ⟨t, hlog, ht.mono _⟩, hor⟩
  · rw [hl, List.length_append, List.length_take]; omega
  · rw [List.drop_append_of_le_length (by omega), ← hbuf]
  · rw [hl]; simp only; omega

theorem Broken.mono {g : Geom S C R} {pfx rs0 F s} (h : Broken g pfx rs0 F s) (G : List UInt8) :
    Broken g pfx rs0 (F ++ G) s := by
  obtain ⟨⟨t, full, W, h1, h2, h3⟩, h4⟩ := h
  exact ⟨⟨t, full, W, h1, h2.mono G, h3⟩, h4⟩

theorem handle_spec (g : Geom S C R) {pfx rs0 F w s} (h : Mid g pfx rs0 F w s)
    (hsmall : s.buf.length < 8192) (p : List UInt8) (hp : p.length = 188) :
    (∃ s' w', handlePacket s p = .ok (true, s') ∧ Mid g pfx rs0 (F ++ p) w' s' ∧
      s'.buf.length < 8192) ∨
    (∃ s', handlePacket s p = .ok (false, s') ∧ Broken g pfx rs0 (F ++ p) s' ∧
      s'.broken = true) := by
  have hB : bufferSize = 8192 := rfl
  obtain ⟨s1, e1, hl1, hm1⟩ := fill_spec g h (by omega) p
  generalize hn : min p.length (8192 - s.buf.length) = n at e1 hl1 hm1
  unfold handlePacket handleLoop
  simp only [e1, bind_ok, hB]
  have hsplit : F ++ p = F ++ p.take n ++ p.drop n := by
    rw [List.append_assoc, List.take_append_drop]
  by_cases hf : s1.buf.length = 8192
  · rw [if_pos hf]
    rcases flush_spec g hm1 hf with ⟨s2, e2, hm2, hb2⟩ | ⟨s2, e2, hbr⟩
    · simp only [e2, bind_ok, if_true]
      by_cases hd : (p.drop n).length > 0
      · rw [if_pos hd]
        have hd2 : (p.drop n).length < 189 := by rw [List.length_drop]; omega
        obtain ⟨s3, e3, hl3, hm3⟩ := fill_spec g hm2 (by rw [hb2]; simp) (p.drop n)
        have hn3 : min (p.drop n).length (8192 - s2.buf.length) = (p.drop n).length := by
          rw [hb2, List.length_nil]; omega
        rw [hn3] at e3 hl3 hm3
        rw [List.take_length] at hm3
        have hlt : s3.buf.length < 8192 := by rw [hl3, hb2, List.length_nil]; omega
        unfold handleLoop
        simp only [e3, bind_ok, hB]
        rw [if_neg (by omega)]
        simp only [bind_ok, if_true]
        rw [if_neg (by rw [List.drop_length]; decide)]
        left
        exact ⟨s3, w + 1, rfl, by rw [hsplit]; exact hm3, hlt⟩
      · rw [if_neg hd]
        have hnil : p.drop n = [] := List.length_eq_zero_iff.1 (by omega)
        left
        refine ⟨s2, w + 1, rfl, ?_, by rw [hb2]; simp⟩
        rw [hsplit, hnil, List.append_nil]; exact hm2
    · simp only [e2, bind_ok, Bool.false_eq_true, if_false]
      right
      refine ⟨_, rfl, ?_, rfl⟩
      rw [hsplit]
      obtain ⟨⟨t, full, W, h1, h2, h3⟩, h4⟩ := hbr.mono (p.drop n)
      exact ⟨⟨t, full, W, h1, h2, h3⟩, h4⟩
  · rw [if_neg hf]
    simp only [bind_ok, if_true]
    have hnn : n = p.length := by
      have : s1.buf.length ≤ 8192 := by omega
      omega
    subst hnn
    rw [if_neg (by simp)]
    left
    refine ⟨s1, w, rfl, ?_, by omega⟩
    rw [List.take_length] at hm1
    exact hm1

/-- What `openAt` has logged: the seek to the start position, if any. -/
def openLog (S : Nat) : List Op := if S ≠ 0 then [.seek S] else []

/-- Options accepted by the command line give a geometry. -/
theorem geom_of_accept {C n S : Nat} (h : acceptOptions C n S = true) :
    Nonempty (Geom S C (C * n)) := by
  have hB : bufferSize = 8192 := rfl
  unfold acceptOptions at h
  simp only [Bool.and_eq_true, Bool.not_eq_true', beq_eq_false_iff_ne, bne_eq_false_iff_eq, hB,
    decide_eq_false_iff_not] at h
  obtain ⟨⟨⟨⟨⟨⟨h1, h2⟩, _⟩, h4⟩, _⟩, h6⟩, h7⟩ := h
  obtain ⟨c, rfl⟩ := Nat.dvd_of_mod_eq_zero h2
  obtain ⟨a, rfl⟩ := Nat.dvd_of_mod_eq_zero h6
  refine ⟨⟨c, n, a, by omega, rfl, by rw [Nat.mul_assoc], by rw [Nat.mul_assoc], ?_⟩⟩
  have : 8192 * c * a < 8192 * c * n := by omega
  exact Nat.lt_of_mul_lt_mul_left this

/-- The outcome of `openAt` for accepted options. -/
theorem open_spec {C n S : Nat} (h : acceptOptions C n S = true) (rs : List Int)
    (g : Geom S C (C * n)) :
    (∃ s, openAt C n S rs = .ok (true, s) ∧ Mid g (openLog S) rs [] 0 s ∧ s.buf = []) ∨
    (∃ s, openAt C n S rs = .ok (false, s) ∧ Bad rs s.results) := by
  have hB : bufferSize = 8192 := rfl
  have hlim : maxChunkSize = 2147475456 := rfl
  have hlim2 : maxNumChunks = 2147483647 := rfl
  unfold acceptOptions at h
  simp only [Bool.and_eq_true, Bool.not_eq_true', beq_eq_false_iff_ne, bne_eq_false_iff_eq, hB,
    decide_eq_false_iff_not] at h
  obtain ⟨⟨⟨⟨⟨⟨h1, h2⟩, h3⟩, h4⟩, h5⟩, h6⟩, h7⟩ := h
  have hak := g.hak
  have hcp : (g.c * g.a + 0) % (g.c * g.k) = g.c * g.a := by
    rw [Nat.add_zero, Nat.mod_eq_of_lt]
    exact Nat.mul_lt_mul_of_pos_left hak g.c0
  have hS8 : S % 8192 = 0 := by rw [g.hS]; simp
  have hSlt : S < 2 ^ 63 := by
    have h8 : C * n ≤ 2147475456 * 2147483647 := Nat.mul_le_mul (by omega) (by omega)
    have : 2147475456 * 2147483647 < 2 ^ 63 := by decide
    omega
  have hS : S = 8192 * (g.c * g.a) := g.hS
  unfold openAt new
  rw [show decide (C > 0) = true by simp; omega, show decide (C ≤ maxChunkSize) = true by simp; omega,
    show decide (n > 0) = true by simp; omega, show decide (n ≤ maxNumChunks) = true by simp; omega,
    show decide (C % bufferSize = 0) = true by simp [hB, h2]]
  simp only [assertThat_true, bind_ok]
  unfold openLog
  by_cases hs : S = 0
  · rw [if_neg (by simp [hs]), if_neg (by simp [hs])]
    left
    refine ⟨_, rfl, ⟨rfl, rfl, rfl, by simp, by simp, ?_, by simp, ⟨[], rfl, .nil⟩, Fine.refl _⟩, rfl⟩
    rw [hcp, ← hS, hs]; simp
  · rw [if_pos hs, if_pos hs]
    unfold setPosition
    simp only [hB, hS8, h6, decide_true]
    rw [show decide (S ≤ 2 ^ 63 - 1) = true by rw [decide_eq_true_eq]; omega,
      show decide (S < C * n) = true by simp; omega]
    simp only [assertThat_true, bind_ok]
    rcases call_spec (.seek S) { chunkSize := C, ringSize := C * n, results := rs } with
      ⟨rs1, hf1, hc1⟩ | ⟨rs1, hf1, hc1⟩
    · rw [hc1]
      simp only [if_true]
      left
      refine ⟨_, rfl, ⟨rfl, rfl, rfl, by simp, by simp, ?_, by simp, ⟨[], rfl, .nil⟩, hf1⟩, rfl⟩
      rw [hcp, ← hS]; simp
    · rw [hc1]
      simp only [Bool.false_eq_true, if_false]
      right
      exact ⟨_, rfl, hf1⟩

theorem accepts_spec (g : Geom S C R) {pfx rs0 F w s} (h : Mid g pfx rs0 F w s)
    (hs : s.buf.length < 8192) {ps s'} (ha : Accepts sink s ps s')
    (hp : ∀ p ∈ ps, p.length = 188) :
    ∃ w', Mid g pfx rs0 (F ++ ps.flatten) w' s' ∧ s'.buf.length < 8192 := by
  induction ha generalizing F w with
  | nil => exact ⟨w, by simpa using h, hs⟩
  | @cons s s' s'' p ps h1 _ ih =>
    have := handle_spec g h hs p (hp p (by simp))
    change handlePacket s p = _ at h1
    rw [h1] at this
    rcases this with ⟨_, w', he, hi, hs'⟩ | ⟨_, he, _⟩
    · cases he
      have := ih hi hs' (fun q hq => hp q (by simp [hq]))
      simpa using this
    · cases he

/-- Whatever the file operations return, packets are handled without fault: all
are accepted, or one is refused because an operation failed. -/
theorem consumes_exists (g : Geom S C R) (pfx rs0) : ∀ (ps : List (List UInt8)) (F : List UInt8) w s,
    Mid g pfx rs0 F w s → s.buf.length < 8192 → (∀ p ∈ ps, p.length = 188) →
    (∃ s', Accepts sink s ps s' ∧ Consumes sink s ps ps s') ∨
    (∃ cs s', Consumes sink s ps cs s' ∧ Broken g pfx rs0 (F ++ cs.flatten) s' ∧
      s'.broken = true ∧ cs <+: ps) := by
  intro ps
  induction ps with
  | nil => intro F w s _ _ _; exact .inl ⟨s, .nil, .eof⟩
  | cons p ps ih =>
    intro F w s h hs hp
    rcases handle_spec g h hs p (hp p (by simp)) with ⟨s', w', he, hi, hs'⟩ | ⟨s', he, hb, hbr⟩
    · rcases ih _ _ _ hi hs' (fun q hq => hp q (by simp [hq])) with ⟨s'', ha, hc⟩ | ⟨cs, s'', hc, hb, hbr, hpre⟩
      · exact .inl ⟨s'', .cons he ha, .accept he hc⟩
      · refine .inr ⟨p :: cs, s'', .accept he hc, by simpa using hb, hbr, ?_⟩
        exact List.cons_prefix_cons.2 ⟨rfl, hpre⟩
    · exact .inr ⟨[p], s', .refuse he, by simpa using hb, hbr, by simp⟩

theorem consumes_unique {σ P : Type} {snk : Sink P σ} {s ps cs s1} (h : Consumes snk s ps cs s1) :
    ∀ {cs' s2}, Consumes snk s ps cs' s2 → cs = cs' ∧ s1 = s2 := by
  induction h with
  | eof => intro _ _ h2; cases h2; exact ⟨rfl, rfl⟩
  | refuse h =>
    intro _ _ h2
    cases h2 with
    | refuse h' => rw [h] at h'; cases h'; exact ⟨rfl, rfl⟩
    | accept h' _ => rw [h] at h'; cases h'
  | accept h _ ih =>
    intro _ _ h2
    cases h2 with
    | refuse h' => rw [h] at h'; cases h'
    | accept h' h3 =>
      rw [h] at h'; cases h'
      obtain ⟨e1, e2⟩ := ih h3
      exact ⟨by rw [e1], e2⟩

theorem prefix_append_cases {α : Type} {l a b : List α} (h : l <+: a ++ b) :
    l <+: a ∨ ∃ r, l = a ++ r ∧ r <+: b := by
  obtain ⟨u, hu⟩ := h
  rcases List.append_eq_append_iff.1 hu with ⟨as, h1, h2⟩ | ⟨bs, h1, h2⟩
  · exact .inl ⟨as, h1.symm⟩
  · exact .inr ⟨bs, h1, u, h2.symm⟩

/-! ### What a trace does to the file -/

theorem run_append (f : RingFile) (a b : List Op) : f.run (a ++ b) = (f.run a).run b :=
  List.foldl_append

theorem written_append (a b : List Op) : written (a ++ b) = written a ++ written b :=
  List.flatMap_append

theorem announced_append (a b : List Op) : announced (a ++ b) = announced a ++ announced b :=
  List.filterMap_append

theorem written_boundary (C R p : Nat) : written (boundary C R p) = [] := by
  unfold boundary
  split
  · split <;> simp [written]
  · rfl

theorem Trace.le {F W log} (h : Trace S C R F W log) : W ≤ F.length := by
  cases h with
  | nil => exact Nat.zero_le _
  | write _ _ h _ => exact h

theorem Trace.written {F W log} (h : Trace S C R F W log) : written log = F.take W := by
  induction h with
  | nil => simp [Spec.written]
  | @write W log n h h1 h2 h3 ih =>
    rw [written_append, ih, List.take_add]
    congr 1
    have : Spec.written (.write ((F.drop W).take n) :: boundary C R (S + (W + n)))
        = (F.drop W).take n ++ Spec.written (boundary C R (S + (W + n))) := by
      simp [Spec.written]
    rw [this, written_boundary, List.append_nil]

/-- Position of a byte inside the ring, before and after a write that does not
cross a buffer boundary. -/
theorem step_arith (g : Geom S C R) (W n : Nat) (hn : 0 < n) (hb : W % 8192 + n ≤ 8192) :
    (S + W) % R + n ≤ R ∧
    (S + (W + n)) % R = (if (S + W) % R + n = R then 0 else (S + W) % R + n) ∧
    (W + n) / C = W / C + (if (S + (W + n)) % C = 0 then 1 else 0) ∧
    ((S + (W + n)) % R = 0 → (S + (W + n)) % C = 0) ∧
    ((S + (W + n)) % C = 0 ↔ (W + n) % C = 0) := by
  have c0 := g.c0
  have r0 := g.r0
  have hS := g.hS
  have hR := g.hR
  have hC := g.hC
  obtain ⟨w, m, hW, hm⟩ : ∃ w m, W = 8192 * w + m ∧ m < 8192 :=
    ⟨W / 8192, W % 8192, by omega, by omega⟩
  have e1 : S + W = 8192 * (g.c * g.a + w) + m := by omega
  have hmR := g.modR (g.c * g.a + w) m hm
  rw [← e1] at hmR
  have hltr := Nat.mod_lt (g.c * g.a + w) r0
  have p1 : (S + W) % R + n ≤ R := by omega
  have hdR : ∀ x, (x + n) % R = (x % R + n) % R := by intro x; rw [Nat.mod_add_mod]
  have p2 : (S + (W + n)) % R = (if (S + W) % R + n = R then 0 else (S + W) % R + n) := by
    rw [← Nat.add_assoc, hdR]
    split
    · next h => rw [h, Nat.mod_self]
    · exact Nat.mod_eq_of_lt (by omega)
  have hSC := g.SC
  have hRC := g.RC
  have p5 : (S + (W + n)) % C = (W + n) % C := by rw [hSC, Nat.mul_add_mod]
  have p4 : (S + (W + n)) % R = 0 → (S + (W + n)) % C = 0 := by
    intro h
    have hd := Nat.dvd_of_mod_eq_zero h
    rw [hRC] at hd
    exact Nat.mod_eq_zero_of_dvd (Nat.dvd_trans (Nat.dvd_mul_right _ _) hd)
  refine ⟨p1, p2, ?_, p4, by rw [p5]⟩
  rw [p5]
  have hWC : W % C + n ≤ C := by
    have h1 := g.modC w m hm
    rw [← hW] at h1
    have := Nat.mod_lt w c0
    omega
  have hCpos : 0 < C := by omega
  have hWd := Nat.mod_add_div W C
  by_cases h : W % C + n = C
  · have e : W + n = C * (W / C + 1) := by rw [Nat.mul_succ]; omega
    rw [e, Nat.mul_mod_right, if_pos rfl, Nat.mul_div_cancel_left _ hCpos]
  · have e : W + n = (W % C + n) + C * (W / C) := by omega
    have e2 : (W + n) % C = W % C + n := by
      rw [e, Nat.add_mul_mod_self_left, Nat.mod_eq_of_lt (a := W % C + n) (by omega)]
    rw [if_neg (by omega), e, Nat.add_mul_div_left _ _ hCpos, Nat.div_eq_of_lt (by omega)]
    omega

theorem Trace.announced (g : Geom S C R) {F W log} (h : Trace S C R F W log) :
    (announced log).length = W / C := by
  induction h with
  | nil => simp [Spec.announced]
  | @write W log n h h1 h2 h3 ih =>
    obtain ⟨_, _, h6, _⟩ := step_arith g W n h1 h3
    rw [announced_append, List.length_append, ih, h6]
    congr 1
    unfold boundary
    split
    · split <;> simp [Spec.announced]
    · simp [Spec.announced]

theorem run_boundary (f : RingFile) (C R p : Nat) (h : p % R = 0 → p % C = 0) :
    (f.run (boundary C R p)).off = (if p % R = 0 then 0 else f.off) ∧
    (f.run (boundary C R p)).size ≤ max f.size R ∧
    (∀ i < R, (f.run (boundary C R p)).content i = f.content i) := by
  unfold boundary
  by_cases hc : p % C = 0
  · rw [if_pos hc]
    by_cases hr : p % R = 0
    · simp only [hr, if_true]
      refine ⟨rfl, Nat.le_max_right _ _, ?_⟩
      intro i hi
      show (if i < R then f.content i else 0) = _
      rw [if_pos hi]
    · simp only [hr, if_false]
      exact ⟨rfl, Nat.le_max_left _ _, fun _ _ => rfl⟩
  · rw [if_neg hc, if_neg (fun hr => hc (h hr))]
    exact ⟨rfl, Nat.le_max_left _ _, fun _ _ => rfl⟩

/-- The file after a trace: offset, size and contents. -/
theorem Trace.file (g : Geom S C R) {F W log} (h : Trace S C R F W log) (f : RingFile)
    (hf : f.off = S) :
    (f.run log).off = (S + W) % R ∧
    (f.run log).size ≤ max f.size R ∧
    (∀ k < W, W ≤ k + R → F[k]? = some ((f.run log).content ((S + k) % R))) ∧
    (∀ i < R, (∀ k < W, (S + k) % R ≠ i) → (f.run log).content i = f.content i) := by
  have hSR : S < R := by
    have := Nat.mul_lt_mul_of_pos_left g.hak g.c0
    have := g.hS; have := g.hR; omega
  induction h with
  | nil =>
    refine ⟨?_, ?_, by omega, fun _ _ _ => rfl⟩
    · rw [Nat.add_zero, Nat.mod_eq_of_lt hSR]; exact hf
    · exact Nat.le_max_left _ _
  | @write W log n h h1 h2 h3 ih =>
    obtain ⟨i1, i2, i3, i4⟩ := ih
    obtain ⟨h4, h5, h6, h7, _⟩ := step_arith g W n h1 h3
    rw [run_append]
    generalize f.run log = f1 at i1 i2 i3 i4
    have hlen : ((F.drop W).take n).length = n := by
      rw [List.length_take, List.length_drop]; omega
    -- the file after the write itself
    let f2 : RingFile := f1.apply (.write ((F.drop W).take n))
    have o2 : f2.off = (S + W) % R + n := by
      show f1.off + ((F.drop W).take n).length = _
      rw [hlen, i1]
    have s2 : f2.size ≤ max f.size R := by
      show max f1.size (f1.off + ((F.drop W).take n).length) ≤ _
      rw [hlen, i1]; omega
    have c2 : ∀ i, f2.content i =
        if (S + W) % R ≤ i ∧ i < (S + W) % R + n then (F[W + (i - (S + W) % R)]?).getD 0
        else f1.content i := by
      intro i
      show (if f1.off ≤ i then (((F.drop W).take n)[i - f1.off]?).getD (f1.content i)
        else f1.content i) = _
      rw [i1]
      by_cases ha : (S + W) % R ≤ i
      · rw [if_pos ha]
        by_cases hb : i < (S + W) % R + n
        · rw [if_pos ⟨ha, hb⟩, List.getElem?_take_of_lt (by omega), List.getElem?_drop]
          rw [List.getElem?_eq_getElem (by omega)]
          simp
        · rw [if_neg (by omega), List.getElem?_eq_none (by omega)]
          simp
      · rw [if_neg ha, if_neg (by omega)]
    have key : ∀ k < W + n, W + n ≤ k + R → F[k]? = some (f2.content ((S + k) % R)) := by
      intro k hk hk2
      rw [c2]
      by_cases hkW : k < W
      · rw [if_neg]
        · exact i3 k hkW (by omega)
        · rintro ⟨ha, hb⟩
          -- (S+k)%R = (S+W+i)%R with i < n and k < W
          have hR0 : 0 < R := by omega
          have e1 : (S + W) % R + ((S + k) % R - (S + W) % R) = (S + k) % R := by omega
          generalize hi : (S + k) % R - (S + W) % R = i at e1
          have e2 : (S + (W + i)) % R = (S + k) % R := by
            rw [← Nat.add_assoc, ← Nat.mod_add_mod, e1, Nat.mod_mod]
          have e3 : R ∣ (S + (W + i)) - (S + k) :=
            Nat.dvd_of_mod_eq_zero (Nat.sub_mod_eq_zero_of_mod_eq e2)
          obtain ⟨q, hq⟩ := e3
          have hq1 : 0 < q := by
            rcases Nat.eq_zero_or_pos q with h0 | h0
            · subst h0; omega
            · exact h0
          have : R * 1 ≤ R * q := Nat.mul_le_mul_left _ hq1
          omega
      · have e1 : (S + k) % R = (S + W) % R + (k - W) := by
          rw [show S + k = (S + W) + (k - W) by omega, ← Nat.mod_add_mod, Nat.mod_eq_of_lt]
          omega
        rw [if_pos (by omega), e1, show W + ((S + W) % R + (k - W) - (S + W) % R) = k by omega]
        rw [List.getElem?_eq_getElem (by omega)]
        simp
    have key2 : ∀ i < R, (∀ k < W + n, (S + k) % R ≠ i) → f2.content i = f.content i := by
      intro i hi hk
      rw [c2, if_neg]
      · exact i4 i hi (fun k hk2 => hk k (by omega))
      · rintro ⟨ha, hb⟩
        refine hk (W + (i - (S + W) % R)) (by omega) ?_
        rw [← Nat.add_assoc, ← Nat.mod_add_mod, Nat.mod_eq_of_lt] <;> omega
    have hrun : f1.run (.write ((F.drop W).take n) :: boundary C R (S + (W + n)))
        = f2.run (boundary C R (S + (W + n))) := rfl
    rw [hrun]
    obtain ⟨b1, b2, b3⟩ := run_boundary f2 C R (S + (W + n)) h7
    refine ⟨?_, by omega, ?_, ?_⟩
    · rw [b1, o2, h5]
      by_cases he : (S + W) % R + n = R
      · rw [if_pos he, if_pos rfl]
      · rw [if_neg he, if_neg (by omega)]
    · intro k hk hk2
      rw [b3 _ (Nat.mod_lt _ (by omega))]
      exact key k hk hk2
    · intro i hi hk
      rw [b3 i hi]
      exact key2 i hi hk

/-- Every element of a trace lies in the segment of one write. -/
theorem Trace.split {F W log} (h : Trace S C R F W log) :
    ∀ pre op post, log = pre ++ op :: post →
    ∃ W0 n log0 i, Trace S C R F W0 log0 ∧ 0 < n ∧ W0 + n ≤ F.length ∧ W0 % 8192 + n ≤ 8192 ∧
      (Op.write ((F.drop W0).take n) :: boundary C R (S + (W0 + n)))[i]? = some op ∧
      pre = log0 ++ (Op.write ((F.drop W0).take n) :: boundary C R (S + (W0 + n))).take i := by
  induction h with
  | nil => intro pre op post h; simp at h
  | @write W log n h h1 h2 h3 ih =>
    intro pre op post he
    rw [List.append_eq_append_iff] at he
    rcases he with ⟨as, ha, hb⟩ | ⟨bs, ha, hb⟩
    · refine ⟨W, n, log, as.length, h, h1, h2, h3, ?_, ?_⟩
      · rw [hb]; simp
      · rw [hb, ha, List.take_left]
    · cases bs with
      | nil =>
        refine ⟨W, n, log, 0, h, h1, h2, h3, ?_, ?_⟩
        · have := hb.symm; simp only [List.nil_append] at this; rw [this]; rfl
        · rw [ha]; simp
      | cons b bs =>
        simp only [List.cons_append, List.cons.injEq] at hb
        obtain ⟨rfl, hb⟩ := hb
        exact ih pre op bs ha

theorem accept_iff (C n S : Nat) : acceptOptions C n S = true ↔ Permitted C n S := by
  have hB : bufferSize = 8192 := rfl
  have hlim : maxChunkSize = 8192 * 0x3FFFF := rfl
  have hlim2 : maxNumChunks = 0x7FFFFFFF := rfl
  unfold acceptOptions
  simp only [Bool.and_eq_true, Bool.not_eq_true', beq_eq_false_iff_ne, bne_eq_false_iff_eq, hB,
    decide_eq_false_iff_not, hlim, hlim2]
  constructor
  · rintro ⟨⟨⟨⟨⟨⟨h1, h2⟩, h3⟩, h4⟩, h5⟩, h6⟩, h7⟩
    exact ⟨by omega, h2, by omega, by omega, by omega, h6, by omega⟩
  · rintro ⟨h1, h2, h3, h4, h5, h6, h7⟩
    exact ⟨⟨⟨⟨⟨⟨by omega, h2⟩, by omega⟩, by omega⟩, by omega⟩, h6⟩, by omega⟩

theorem consumes_cases {σ P : Type} {snk : Sink P σ} {s ps cs s'} (h : Consumes snk s ps cs s') :
    (Accepts snk s ps s' ∧ cs = ps) ∨
    ∃ cs' p s1, cs = cs' ++ [p] ∧ Accepts snk s cs' s1 ∧ snk.handle s1 p = .ok (false, s') := by
  induction h with
  | eof => exact .inl ⟨.nil, rfl⟩
  | @refuse s s' p ps h => exact .inr ⟨[], p, s, rfl, .nil, h⟩
  | @accept s s' s'' p ps cs h _ ih =>
    rcases ih with ⟨h1, h2⟩ | ⟨cs', q, s1, h1, h2, h3⟩
    · exact .inl ⟨.cons h h1, by rw [h2]⟩
    · exact .inr ⟨p :: cs', q, s1, by rw [h1]; rfl, .cons h h2, h3⟩

theorem accepts_consumes {σ P : Type} {snk : Sink P σ} {s ps s'} (h : Accepts snk s ps s') :
    Consumes snk s ps ps s' := by
  induction h with
  | nil => exact .eof
  | cons h _ ih => exact .accept h ih

/-- Everything known about a run of the sink, successful or not. -/
theorem run_shape {n : Nat} (hopt : Permitted C n S) (g : Geom S C (C * n)) {rs : List Int} {s0 : St}
    (ho : openAt C n S rs = .ok (true, s0)) {ps cs s} (hp : ∀ p ∈ ps, p.length = 188)
    (hc : Consumes sink s0 ps cs s) :
    (Accepts sink s0 ps s ∧ cs = ps ∧ s.buf.length < 8192 ∧
      ∃ w, Mid g (openLog S) rs ps.flatten w s) ∨
    (Broken g (openLog S) rs cs.flatten s ∧ s.broken = true) := by
  rcases open_spec ((accept_iff _ _ _).2 hopt) rs g with ⟨s1, e1, hm, hb⟩ | ⟨s1, e1, _⟩
  · rw [ho] at e1; cases e1
    rcases consumes_exists g _ _ ps [] 0 s0 hm (by rw [hb]; simp) hp with
      ⟨s', ha, hc'⟩ | ⟨cs', s', hc', hbr, hb2, _⟩
    · obtain ⟨e1, e2⟩ := consumes_unique hc hc'
      subst e1; subst e2
      obtain ⟨w, hm', hl⟩ := accepts_spec g hm (by rw [hb]; simp) ha hp
      exact .inl ⟨ha, rfl, hl, w, by simpa using hm'⟩
    · obtain ⟨e1, e2⟩ := consumes_unique hc hc'
      subst e1; subst e2
      exact .inr ⟨by simpa using hbr, hb2⟩
  · rw [ho] at e1; cases e1

/-- The log of a run, successful or not. -/
theorem log_shape {n : Nat} (hopt : Permitted C n S) (g : Geom S C (C * n)) {rs : List Int} {s0 : St}
    (ho : openAt C n S rs = .ok (true, s0)) {ps cs s} (hp : ∀ p ∈ ps, p.length = 188)
    (hc : Consumes sink s0 ps cs s) :
    ∃ t full W fl, s.log = openLog S ++ t ++ fl ∧ Trace S C (C * n) cs.flatten W full ∧
      t <+: full ∧ (fl = [] ∨ fl = [.failed]) := by
  rcases run_shape hopt g ho hp hc with ⟨_, e, _, w, hm⟩ | ⟨⟨⟨t, full, W, h1, h2, h3⟩, _⟩, _⟩
  · obtain ⟨t, h1, h2⟩ := hm.log
    exact ⟨t, t, _, [], by simpa using h1, by rw [e]; exact h2, List.prefix_refl _, .inl rfl⟩
  · exact ⟨t, full, W, [.failed], h1, h2, h3, .inr rfl⟩

theorem split_shape {L t full fl pre post : List Op} {op : Op}
    (hL : ∀ o ∈ L, o ≠ op) (hfl : ∀ o ∈ fl, o ≠ op) (ht : t <+: full)
    (h : L ++ t ++ fl = pre ++ op :: post) :
    ∃ pre' post', pre = L ++ pre' ∧ full = pre' ++ op :: post' := by
  obtain ⟨u, hu⟩ := ht
  rw [List.append_assoc, List.append_eq_append_iff] at h
  rcases h with ⟨as, ha, hb⟩ | ⟨bs, ha, hb⟩
  · rw [List.append_eq_append_iff] at hb
    rcases hb with ⟨xs, hx, hy⟩ | ⟨xs, hx, hy⟩
    · exact absurd rfl (hfl op (by rw [hy]; simp))
    · cases xs with
      | nil =>
        simp only [List.nil_append] at hy
        exact absurd rfl (hfl op (by rw [← hy]; simp))
      | cons x xs =>
        simp only [List.cons_append, List.cons.injEq] at hy
        obtain ⟨rfl, hy⟩ := hy
        exact ⟨as, xs ++ u, ha, by rw [← hu, hx]; simp⟩
  · cases bs with
    | nil =>
      simp only [List.nil_append] at hb
      simp only [List.append_nil] at ha
      cases t with
      | nil =>
        simp only [List.nil_append] at hb
        exact absurd rfl (hfl op (by rw [← hb]; simp))
      | cons x xs =>
        simp only [List.cons_append, List.cons.injEq] at hb
        obtain ⟨rfl, hb⟩ := hb
        exact ⟨[], xs ++ u, by rw [ha]; simp, by rw [← hu]; simp⟩
    | cons b bs =>
      simp only [List.cons_append, List.cons.injEq] at hb
      obtain ⟨rfl, hb⟩ := hb
      exact absurd rfl (hL op (by rw [ha]; simp))

theorem openLog_run (S : Nat) (f : RingFile) (hf : f.off = 0) :
    (f.run (openLog S)).off = S ∧ (f.run (openLog S)).content = f.content ∧
    (f.run (openLog S)).size = f.size := by
  unfold openLog
  by_cases h : S = 0
  · rw [if_neg (by simp [h])]; exact ⟨by rw [h]; exact hf, rfl, rfl⟩
  · rw [if_pos h]; exact ⟨rfl, rfl, rfl⟩

theorem openLog_written (S : Nat) : written (openLog S) = [] := by
  unfold openLog; split <;> rfl

theorem openLog_announced (S : Nat) : announced (openLog S) = [] := by
  unfold openLog; split <;> rfl

theorem run_size (f : RingFile) (R : Nat) : ∀ (l : List Op),
    (∀ op ∈ l, op = .sync ∨ (∃ p, op = .notify p) ∨ op = .trunc R ∨ (∃ o, op = .seek o)) →
    (f.run l).size ≤ max f.size R := by
  intro l
  induction l generalizing f with
  | nil => intro _; exact Nat.le_max_left _ _
  | cons o l ih =>
    intro h
    have h1 := ih (f.apply o) (fun op ho => h op (by simp [ho]))
    have h2 : (f.apply o).size ≤ max f.size R := by
      rcases h o (by simp) with rfl | ⟨p, rfl⟩ | rfl | ⟨p, rfl⟩
      · exact Nat.le_max_left _ _
      · exact Nat.le_max_left _ _
      · exact Nat.le_max_right _ _
      · exact Nat.le_max_left _ _
    show ((f.apply o).run l).size ≤ _
    omega

theorem boundary_ops (C R p : Nat) : ∀ op ∈ boundary C R p,
    op = .sync ∨ (∃ p, op = .notify p) ∨ op = .trunc R ∨ (∃ o, op = .seek o) := by
  intro op h
  unfold boundary at h
  split at h
  · split at h
    · simp at h
      rcases h with rfl | rfl | rfl | rfl <;> simp
    · simp at h
      rcases h with rfl | rfl <;> simp
  · simp at h

theorem Trace.no_failed {F W log} (h : Trace S C R F W log) : Op.failed ∉ log := by
  induction h with
  | nil => simp
  | @write W log n h h1 h2 h3 ih =>
    intro hm
    rcases List.mem_append.1 hm with hm | hm
    · exact ih hm
    · rcases List.mem_cons.1 hm with hm | hm
      · cases hm
      · rcases boundary_ops _ _ _ _ hm with h | ⟨_, h⟩ | h | ⟨_, h⟩ <;> cases h

theorem Trace.size_prefix (g : Geom S C R) {F W log} (h : Trace S C R F W log) (f : RingFile)
    (hf : f.off = S) {pre} (hpre : pre <+: log) : (f.run pre).size ≤ max f.size R := by
  obtain ⟨post, hpost⟩ := hpre
  cases post with
  | nil =>
    rw [List.append_nil] at hpost
    rw [hpost]
    exact (h.file g f hf).2.1
  | cons op post =>
    obtain ⟨W0, n, log0, i, h0, h1, h2, h3, h4, h5⟩ := h.split pre op post hpost.symm
    obtain ⟨f1, f2, _⟩ := h0.file g f hf
    obtain ⟨a1, _⟩ := step_arith g W0 n h1 h3
    rw [h5, run_append]
    cases i with
    | zero => exact f2
    | succ i =>
      rw [List.take_succ_cons]
      have hlen : ((F.drop W0).take n).length = n := by
        rw [List.length_take, List.length_drop]; omega
      have hs : ((f.run log0).apply (.write ((F.drop W0).take n))).size ≤ max f.size R := by
        show max (f.run log0).size ((f.run log0).off + ((F.drop W0).take n).length) ≤ _
        rw [hlen, f1]; omega
      have := run_size ((f.run log0).apply (.write ((F.drop W0).take n))) R
        ((boundary C R (S + (W0 + n))).take i)
        (fun op ho => boundary_ops _ _ _ op (List.mem_of_mem_take ho))
      show (((f.run log0).apply (.write ((F.drop W0).take n))).run
        ((boundary C R (S + (W0 + n))).take i)).size ≤ _
      omega

theorem Trace.wrapped (g : Geom S C R) {F W log} (h : Trace S C R F W log) (h0 : 0 < W)
    (hw : (S + W) % R = 0) : ∃ log', log = log' ++ [.trunc R, .seek 0] := by
  cases h with
  | nil => omega
  | @write W log n h h1 h2 h3 =>
    obtain ⟨_, _, _, h7, _⟩ := step_arith g W n h1 h3
    unfold boundary
    rw [if_pos (h7 hw), if_pos hw, if_pos hw]
    exact ⟨log ++ [.write ((F.drop W).take n), .sync, .notify R], by simp⟩

end Mirakc.RingFileSink
