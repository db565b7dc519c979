import Verif.Model.StdoutSink
import Verif.Spec.PacketLoop
import Verif.Proof.FileSource
/-
Lemmas about `StdoutSink`.
-/
namespace Mirakc.StdoutSink
open Mirakc.Spec
open FileSource (bind_ok bind_error assertThat_true)

/-- `used` are the results consumed from `ws`, `rest` those that are left. -/
theorem writeLoop_spec (buf : List UInt8) : ∀ (ws : List Int) (n : Nat) (out : List UInt8),
    n ≤ buf.length →
    ∃ used, ((∃ rest, (∀ w ∈ used, 0 ≤ w) ∧ ws = used ++ rest ∧
        writeLoop buf n out ws = (true, out ++ buf.drop n, rest)) ∨
      (∃ rest k w, (∀ w ∈ used, 0 ≤ w) ∧ ws = used ++ w :: rest ∧ w < 0 ∧
        k < buf.length - n ∧
        writeLoop buf n out ws = (false, out ++ (buf.drop n).take k, rest))) := by
  intro ws
  induction ws with
  | nil => intro n out hn; exact ⟨[], .inl ⟨[], by simp, by simp, rfl⟩⟩
  | cons w ws ih =>
    intro n out hn
    unfold writeLoop
    by_cases h : n < buf.length
    · rw [if_pos h]
      by_cases hw : w < 0
      · rw [if_pos hw]
        exact ⟨[], .inr ⟨ws, 0, w, by simp, by simp, hw, by omega, by simp⟩⟩
      · rw [if_neg hw]
        simp only
        generalize hm : min w.toNat (buf.length - n) = m
        have hm' : m ≤ buf.length - n := by omega
        have key : ∀ k, (buf.drop n).take m ++ (buf.drop (n + m)).take k
            = (buf.drop n).take (m + k) := by
          intro k
          rw [List.take_add, List.drop_drop]
        obtain ⟨used, h | h⟩ := ih (n + m) (out ++ (buf.drop n).take m) (by omega)
        · obtain ⟨rest, h1, h2, h3⟩ := h
          refine ⟨w :: used, .inl ⟨rest, ?_, by simp [h2], ?_⟩⟩
          · intro x hx
            rcases List.mem_cons.1 hx with rfl | hx
            · omega
            · exact h1 x hx
          · rw [h3, List.append_assoc, ← List.drop_drop, List.take_append_drop]
        · obtain ⟨rest, k, w', h1, h2, h3, h4, h5⟩ := h
          refine ⟨w :: used, .inr ⟨rest, m + k, w', ?_, by simp [h2], h3, by omega, ?_⟩⟩
          · intro x hx
            rcases List.mem_cons.1 hx with rfl | hx
            · omega
            · exact h1 x hx
          · rw [h5, List.append_assoc, key]
    · rw [if_neg h]
      refine ⟨[], .inl ⟨w :: ws, by simp, by simp, ?_⟩⟩
      rw [List.drop_of_length_le (by omega), List.append_nil]

theorem flush_spec (s : St) :
    ∃ used, ((∃ rest, (∀ w ∈ used, 0 ≤ w) ∧ s.writes = used ++ rest ∧
        flush s = (true, { buf := [], out := s.out ++ s.buf, writes := rest })) ∨
      (∃ rest k w, (∀ w ∈ used, 0 ≤ w) ∧ s.writes = used ++ w :: rest ∧ w < 0 ∧
        k < s.buf.length ∧
        flush s = (false, { s with out := s.out ++ s.buf.take k, writes := rest }))) := by
  obtain ⟨used, h | h⟩ := writeLoop_spec s.buf s.writes 0 s.out (Nat.zero_le _)
  · obtain ⟨rest, h1, h2, h3⟩ := h
    exact ⟨used, .inl ⟨rest, h1, h2, by simp [flush, h3]⟩⟩
  · obtain ⟨rest, k, w, h1, h2, h3, h4, h5⟩ := h
    exact ⟨used, .inr ⟨rest, k, w, h1, h2, h3, by omega, by simp [flush, h5]⟩⟩

/-- What holds between packets as long as nothing failed: `F` is the stream so
far and `used` are the consumed results of `write`. -/
structure Inv (ws : List Int) (F : List UInt8) (s : St) : Prop where
  small : s.buf.length < 16384
  eq : s.out ++ s.buf = F
  oracle : ∃ used, (∀ w ∈ used, 0 ≤ w) ∧ ws = used ++ s.writes

/-- What holds after a packet was refused. -/
structure Refused (ws : List Int) (F : List UInt8) (s : St) : Prop where
  pre : s.out <+: F
  buf : 0 < s.buf.length
  oracle : ∃ used w, (∀ w ∈ used, 0 ≤ w) ∧ w < 0 ∧ ws = used ++ w :: s.writes

theorem inv_init (ws : List Int) : Inv ws [] (init ws) :=
  ⟨by simp [init], rfl, [], by simp, rfl⟩

theorem handle_spec {ws F s} (h : Inv ws F s) (p : List UInt8) (hp : p.length = 188) :
    (∃ s', handlePacket s p = .ok (true, s') ∧ Inv ws (F ++ p) s') ∨
    (∃ s', handlePacket s p = .ok (false, s') ∧ Refused ws (F ++ p) s') := by
  obtain ⟨hs, heq, used0, hu1, hu2⟩ := h
  have hB : bufferSize = 16384 := rfl
  have hP : pktSize = 188 := rfl
  unfold handlePacket
  by_cases hc : s.buf.length + pktSize < bufferSize
  · rw [if_pos hc]
    left
    refine ⟨_, rfl, ?_, ?_, used0, hu1, hu2⟩
    · simp only [List.length_append]; omega
    · simp only [← heq, List.append_assoc]
  · rw [if_neg hc]
    have hlen : (s.buf ++ p.take (bufferSize - s.buf.length)).length = bufferSize := by
      simp only [List.length_append, List.length_take]; omega
    simp only [hlen, decide_true, assertThat_true, bind_ok]
    obtain ⟨used, h | h⟩ := flush_spec { s with buf := s.buf ++ p.take (bufferSize - s.buf.length) }
    · obtain ⟨rest, h1, h2, h3⟩ := h
      simp only [h3, if_true, List.length_nil, decide_true, assertThat_true, bind_ok]
      have hor : ∃ used, (∀ w ∈ used, 0 ≤ w) ∧ ws = used ++ rest := by
        refine ⟨used0 ++ used, ?_, by rw [hu2, List.append_assoc]; simp only at h2; rw [h2]⟩
        intro w hw
        rcases List.mem_append.1 hw with hw | hw
        · exact hu1 w hw
        · exact h1 w hw
      left
      by_cases hr : pktSize > bufferSize - s.buf.length
      · rw [if_pos hr]
        refine ⟨_, rfl, ?_, ?_, hor⟩
        · simp only [List.length_drop]; omega
        · simp only [← heq, List.append_assoc, List.take_append_drop]
      · rw [if_neg hr]
        refine ⟨_, rfl, by simp, ?_, hor⟩
        simp only [List.append_nil, ← heq, List.append_assoc]
        rw [List.take_of_length_le (by omega)]
    · obtain ⟨rest, k, w, h1, h2, h3, h4, h5⟩ := h
      simp only [h5, Bool.false_eq_true, if_false]
      right
      refine ⟨_, rfl, ?_, ?_, used0 ++ used, w, ?_, h3, ?_⟩
      · simp only [← heq, List.append_assoc]
        refine List.prefix_append_right_inj _ |>.2 ?_
        refine (List.take_prefix _ _).trans ?_
        exact List.prefix_append_right_inj _ |>.2 (List.take_prefix _ _)
      · simp only at h4 ⊢; omega
      · intro w hw
        rcases List.mem_append.1 hw with hw | hw
        · exact hu1 w hw
        · exact h1 w hw
      · simp only at h2; rw [hu2, h2]; simp

theorem accepts_spec {ws F s} (h : Inv ws F s) {ps s'} (ha : Accepts sink s ps s')
    (hp : ∀ p ∈ ps, p.length = 188) : Inv ws (F ++ ps.flatten) s' := by
  induction ha generalizing F with
  | nil => simpa using h
  | @cons s s' s'' p ps h1 _ ih =>
    have := handle_spec h p (hp p (by simp))
    change handlePacket s p = _ at h1
    rw [h1] at this
    rcases this with ⟨_, he, hi⟩ | ⟨_, he, _⟩
    · cases he
      have := ih hi (fun q hq => hp q (by simp [hq]))
      simpa using this
    · cases he

theorem consumes_spec {ws F s} (h : Inv ws F s) {ps cs s'} (ha : Consumes sink s ps cs s')
    (hp : ∀ p ∈ ps, p.length = 188) :
    (cs = ps ∧ Accepts sink s ps s' ∧ Inv ws (F ++ cs.flatten) s') ∨
    Refused ws (F ++ cs.flatten) s' := by
  induction ha generalizing F with
  | eof => left; exact ⟨rfl, .nil, by simpa using h⟩
  | @refuse s s' p ps h1 =>
    have := handle_spec h p (hp p (by simp))
    change handlePacket s p = _ at h1
    rw [h1] at this
    rcases this with ⟨_, he, hi⟩ | ⟨_, he, hi⟩
    · cases he
    · cases he; right; simpa using hi
  | @accept s s' s'' p ps cs h1 _ ih =>
    have := handle_spec h p (hp p (by simp))
    have h1' := h1
    change handlePacket s p = _ at h1
    rw [h1] at this
    rcases this with ⟨_, he, hi⟩ | ⟨_, he, _⟩
    · cases he
      rcases ih hi (fun q hq => hp q (by simp [hq])) with ⟨e, a, i⟩ | r
      · left; exact ⟨by rw [e], .cons h1' a, by simpa using i⟩
      · right; simpa using r
    · cases he

end Mirakc.StdoutSink
