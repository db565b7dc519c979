import Verif.Proof.StdoutSink
import Verif.Spec.StdoutSink
/-
What is written to standard output, exactly.
-/
namespace Mirakc.StdoutSink
open Mirakc.Spec
open Mirakc.Spec.StdoutSink (taken)
open FileSource (bind_ok bind_error assertThat_true)

theorem taken_zero (ws : List Int) : taken 0 ws = 0 := by
  induction ws with
  | nil => rfl
  | cons w ws ih => simp only [taken]; split <;> simp [ih]

theorem taken_le : ∀ (ws : List Int) (n : Nat), taken n ws ≤ n
  | [], n => Nat.le_refl n
  | w :: ws, n => by
    have := taken_le ws (n - min w.toNat n)
    simp only [taken]
    split <;> omega

/-- The loop in terms of `taken`. -/
theorem writeLoop_exact (buf : List UInt8) : ∀ (ws : List Int) (n : Nat) (out : List UInt8),
    n ≤ buf.length → ∃ rest,
      writeLoop buf n out ws = (decide (taken (buf.length - n) ws = buf.length - n),
        out ++ (buf.drop n).take (taken (buf.length - n) ws), rest) ∧
      ((taken (buf.length - n) ws = buf.length - n ∧
          ∃ used, (∀ w ∈ used, 0 ≤ w) ∧ ws = used ++ rest) ∨
       (taken (buf.length - n) ws < buf.length - n ∧
          ∃ used w, (∀ w ∈ used, 0 ≤ w) ∧ w < 0 ∧ ws = used ++ w :: rest)) := by
  intro ws
  induction ws with
  | nil =>
    intro n out hn
    refine ⟨[], ?_, .inl ⟨rfl, [], by simp, rfl⟩⟩
    simp only [taken, writeLoop, decide_true]
    rw [List.take_of_length_le (by simp)]
  | cons w ws ih =>
    intro n out hn
    unfold writeLoop
    by_cases h : n < buf.length
    · rw [if_pos h]
      by_cases hw : w < 0
      · have e : taken (buf.length - n) (w :: ws) = 0 := by simp [taken, hw]
        rw [if_pos hw, e]
        refine ⟨ws, ?_, .inr ⟨by omega, [], w, by simp, hw, rfl⟩⟩
        have : decide (0 = buf.length - n) = false := by simp; omega
        rw [this]; simp
      · have e : taken (buf.length - n) (w :: ws) = min w.toNat (buf.length - n) +
            taken (buf.length - (n + min w.toNat (buf.length - n))) ws := by
          simp only [taken, hw, if_false]
          rw [show buf.length - n - min w.toNat (buf.length - n) =
            buf.length - (n + min w.toNat (buf.length - n)) from by omega]
        rw [if_neg hw, e]
        simp only
        generalize hm : min w.toNat (buf.length - n) = m
        have hm' : m ≤ buf.length - n := by omega
        obtain ⟨rest, h1, h2⟩ := ih (n + m) (out ++ (buf.drop n).take m) (by omega)
        generalize hk : taken (buf.length - (n + m)) ws = k at h1 h2
        refine ⟨rest, ?_, ?_⟩
        · rw [h1, List.append_assoc, List.take_add, List.drop_drop]
          congr 1
          refine decide_eq_decide.2 ?_
          omega
        · rcases h2 with ⟨a, used, b, c⟩ | ⟨a, used, w', b, c, d⟩
          · refine .inl ⟨by omega, w :: used, ?_, by rw [c]; rfl⟩
            intro x hx
            rcases List.mem_cons.1 hx with rfl | hx
            · omega
            · exact b x hx
          · refine .inr ⟨by omega, w :: used, w', ?_, c, by rw [d]; rfl⟩
            intro x hx
            rcases List.mem_cons.1 hx with rfl | hx
            · omega
            · exact b x hx
    · have e : buf.length - n = 0 := by omega
      rw [if_neg h, e, taken_zero]
      exact ⟨w :: ws, by simp, .inl ⟨rfl, [], by simp, rfl⟩⟩

theorem flush_out (s : St) :
    (flush s).2.out = s.out ++ s.buf.take (taken s.buf.length s.writes) := by
  obtain ⟨rest, h, _⟩ := writeLoop_exact s.buf s.writes 0 s.out (Nat.zero_le _)
  rw [Nat.sub_zero, List.drop_zero] at h
  unfold flush
  rw [h]
  cases decide (taken s.buf.length s.writes = s.buf.length) <;> rfl

/-- One packet. -/
theorem handle_exact {s s' : St} {ok : Bool} {p : List UInt8} (hs : s.buf.length < 16384)
    (hp : p.length = 188) (h : handlePacket s p = .ok (ok, s')) :
    (ok = true ∧ s'.buf.length < 16384 ∧ s'.out ++ s'.buf = s.out ++ s.buf ++ p ∧
      (s'.out.length = s.out.length ∨ s'.out.length = s.out.length + 16384) ∧
      ∃ used, (∀ w ∈ used, 0 ≤ w) ∧ s.writes = used ++ s'.writes) ∨
    (ok = false ∧ s'.buf.length = 16384 ∧ taken 16384 s.writes < 16384 ∧
      s'.out = s.out ++ s'.buf.take (taken 16384 s.writes) ∧
      (∃ tail, tail.length < 188 ∧ s.out ++ s.buf ++ p = s.out ++ s'.buf ++ tail) ∧
      ∃ used w, (∀ w ∈ used, 0 ≤ w) ∧ w < 0 ∧ s.writes = used ++ w :: s'.writes) := by
  have hB : bufferSize = 16384 := rfl
  have hP : pktSize = 188 := rfl
  unfold handlePacket at h
  by_cases hc : s.buf.length + pktSize < bufferSize
  · rw [if_pos hc] at h
    cases h
    refine .inl ⟨rfl, ?_, by simp, .inl rfl, [], by simp, rfl⟩
    simp only [List.length_append]; omega
  · rw [if_neg hc] at h
    have hlen : (s.buf ++ p.take (bufferSize - s.buf.length)).length = 16384 := by
      simp only [List.length_append, List.length_take]; omega
    have hsplit : s.buf ++ p = s.buf ++ p.take (bufferSize - s.buf.length) ++
        p.drop (bufferSize - s.buf.length) := by
      rw [List.append_assoc, List.take_append_drop]
    have htail : (p.drop (bufferSize - s.buf.length)).length < 188 := by
      rw [List.length_drop]; omega
    obtain ⟨rest, k1, k2⟩ := writeLoop_exact (s.buf ++ p.take (bufferSize - s.buf.length))
      s.writes 0 s.out (Nat.zero_le _)
    rw [Nat.sub_zero, List.drop_zero, hlen] at k1
    rw [Nat.sub_zero, hlen] at k2
    rw [hB] at k1 hsplit htail hlen
    simp only [hB, hlen, decide_true, assertThat_true, bind_ok] at h
    simp only [flush, k1] at h
    rcases k2 with ⟨a, used, b, c⟩ | ⟨a, used, w', b, c, d⟩
    · rw [a] at h
      simp only [decide_true, if_true, List.length_nil, assertThat_true, bind_ok] at h
      have htk : (s.buf ++ p.take (16384 - s.buf.length)).take 16384 =
          s.buf ++ p.take (16384 - s.buf.length) := List.take_of_length_le (by omega)
      rw [htk] at h
      by_cases hr : pktSize > 16384 - s.buf.length
      · rw [if_pos hr] at h
        cases h
        refine .inl ⟨rfl, ?_, ?_, .inr ?_, used, b, c⟩
        · show (p.drop _).length < _; omega
        · show s.out ++ _ ++ p.drop _ = _
          rw [List.append_assoc s.out s.buf p, hsplit]
          simp only [List.append_assoc]
        · show (s.out ++ _).length = _
          rw [List.length_append, hlen]
      · rw [if_neg hr] at h
        cases h
        have hnil : p.drop (16384 - s.buf.length) = [] :=
          List.drop_of_length_le (by omega)
        rw [hnil, List.append_nil] at hsplit
        refine .inl ⟨rfl, by simp, ?_, .inr ?_, used, b, c⟩
        · show s.out ++ _ ++ [] = _
          rw [List.append_nil, List.append_assoc s.out s.buf p, hsplit]
        · show (s.out ++ _).length = _
          rw [List.length_append, hlen]
    · have hd : decide (taken 16384 s.writes = 16384) = false := by simp; omega
      rw [hd] at h
      simp only [Bool.false_eq_true, if_false] at h
      cases h
      refine .inr ⟨rfl, hlen, a, rfl, ⟨_, htail, ?_⟩, used, w', b, c, d⟩
      show _ = s.out ++ _ ++ p.drop _
      rw [List.append_assoc s.out s.buf p, hsplit, ← List.append_assoc s.out]

/-- All packets, starting from a state with complete blocks written. -/
theorem consumes_exact {s s' : St} {ps cs : List (List UInt8)} (hc : Consumes sink s ps cs s') :
    (∀ p ∈ ps, p.length = 188) → ∀ (F : List UInt8) (m : Nat), s.out ++ s.buf = F →
    s.buf.length < 16384 → s.out.length = 16384 * m →
    (cs = ps ∧ s'.out ++ s'.buf = F ++ cs.flatten ∧ s'.buf.length < 16384 ∧
      (∃ m', s'.out.length = 16384 * m') ∧
      ∃ used, (∀ w ∈ used, 0 ≤ w) ∧ s.writes = used ++ s'.writes) ∨
    (∃ m' before after, s.writes = before ++ after ∧ (∀ w ∈ before, 0 ≤ w) ∧
      taken 16384 after < 16384 ∧ s'.buf.length = 16384 ∧
      (∃ full tail, full.length = 16384 * m' ∧ tail.length < 188 ∧
        F ++ cs.flatten = full ++ s'.buf ++ tail ∧
        s'.out = full ++ s'.buf.take (taken 16384 after)) ∧
      ∃ used w, (∀ w ∈ used, 0 ≤ w) ∧ w < 0 ∧ after = used ++ w :: s'.writes) := by
  induction hc with
  | eof =>
    intro _ F m h1 h2 h3
    exact .inl ⟨rfl, by simpa using h1, h2, ⟨m, h3⟩, [], by simp, rfl⟩
  | @refuse s s' p ps h =>
    intro hp F m h1 h2 h3
    rcases handle_exact h2 (hp p (by simp)) h with ⟨k, _⟩ | ⟨_, k1, k2, k3, ⟨tail, k4, k5⟩, k6⟩
    · cases k
    · refine .inr ⟨m, [], s.writes, rfl, by simp, k2, k1, ⟨s.out, tail, h3, k4, ?_, k3⟩, k6⟩
      rw [← h1]; simpa using k5
  | @accept s s1 s' p ps cs h _ ih =>
    intro hp F m h1 h2 h3
    rcases handle_exact h2 (hp p (by simp)) h with ⟨_, k1, k2, k3, used, k4, k5⟩ | ⟨k, _⟩
    · obtain ⟨m1, hm1⟩ : ∃ m1, s1.out.length = 16384 * m1 := by
        rcases k3 with k3 | k3
        · exact ⟨m, by omega⟩
        · exact ⟨m + 1, by omega⟩
      rcases ih (fun q hq => hp q (by simp [hq])) (F ++ p) m1 (by rw [k2, h1]) k1 hm1 with
        ⟨q1, q2, q3, q4, used', q5, q6⟩ |
        ⟨m', before, after, q1, q2, q3, q4, ⟨full, tail, q5, q6, q7, q8⟩, q9⟩
      · refine .inl ⟨by rw [q1], by simpa using q2, q3, q4, used ++ used', ?_, ?_⟩
        · intro w hw
          rcases List.mem_append.1 hw with hw | hw
          · exact k4 w hw
          · exact q5 w hw
        · rw [k5, q6, List.append_assoc]
      · refine .inr ⟨m', used ++ before, after, by rw [k5, q1, List.append_assoc], ?_, q3, q4,
          ⟨full, tail, q5, q6, by simpa using q7, q8⟩, q9⟩
        intro w hw
        rcases List.mem_append.1 hw with hw | hw
        · exact k4 w hw
        · exact q2 w hw
    · cases k

end Mirakc.StdoutSink
