import Verif.Spec.ExtendedEvent
import Verif.Proof.Basic
/-
Proofs about extended event descriptors.
-/
namespace Mirakc.ExtendedEvent
open Mirakc.Spec.ExtendedEvent

/-- What an entry does to the state. -/
def push (s : St) (p : Item) : St :=
  if p.1 = [] then { s with item := s.item ++ p.2 }
  else { flush s with desc := p.1, item := (flush s).item ++ p.2 }

theorem flush_desc (s : St) : (flush s).desc = [] := by
  unfold flush
  split
  · assumption
  · rfl

theorem bytes_append (a b : List UInt8) : bytes a.length (a ++ b) = .ok (a, b) := by
  unfold bytes
  rw [if_pos (by simp)]
  simp

theorem toNat_ofNat {n : Nat} (h : n < 256) : (UInt8.ofNat n).toNat = n := by
  simp [UInt8.toNat_ofNat']; omega

theorem code_length (p : Item) : (code p).length = p.1.length + p.2.length + 2 := by
  simp [code]; omega

theorem code_pos (p : Item) : 2 ≤ (code p).length := by rw [code_length]; omega

theorem push_loop (s : St) (d t : List UInt8) :
    { (if 0 < d.length then { flush s with desc := (flush s).desc ++ d } else s) with
      item := (if 0 < d.length then { flush s with desc := (flush s).desc ++ d } else s : St).item ++ t } =
      push s (d, t) := by
  unfold push
  cases d with
  | nil => simp
  | cons x d => simp [flush_desc]

/-- The loop over the entries. -/
theorem loop_read {data : List UInt8} {ps : List Item} (h : Read data ps) :
    ∀ (fuel : Nat) (rest : List UInt8) (s : St), data.length ≤ fuel →
    loop fuel data.length (data ++ rest) s = .ok (ps.foldl push s) := by
  induction h with
  | nil =>
    intro fuel rest s _
    cases fuel with
    | zero => rfl
    | succ n => rfl
  | one b =>
    intro fuel rest s hf
    cases fuel with
    | zero => rfl
    | succ n => rfl
  | @desc b d hd hl =>
    intro fuel rest s hf
    have hp : 0 < d.length := List.length_pos_iff.2 hd
    cases fuel with
    | zero => simp at hf
    | succ n =>
      rw [List.length_cons, List.cons_append]
      unfold loop
      rw [if_neg (by omega)]
      simp only [byte, ok_bind]
      rw [show min b.toNat (d.length + 1 - 1) = d.length by omega, bytes_append]
      simp only [ok_bind]
      rw [if_pos (by omega), List.foldl_cons, List.foldl_nil, ← push_loop]
      simp [hp]
  | @text b c d t hd ht =>
    intro fuel rest s hf
    simp only [List.length_cons, List.length_append] at hf
    cases fuel with
    | zero => omega
    | succ n =>
      rw [show (b :: (d ++ c :: t)).length = d.length + t.length + 2 by simp; omega,
        show b :: (d ++ c :: t) ++ rest = b :: (d ++ (c :: (t ++ rest))) by simp]
      unfold loop
      rw [if_neg (by omega)]
      simp only [byte, ok_bind]
      rw [show min b.toNat (d.length + t.length + 2 - 1) = d.length by omega, bytes_append]
      simp only [ok_bind]
      rw [if_neg (by omega)]
      rw [show min c.toNat (d.length + t.length + 2 - 1 - d.length - 1) = t.length by omega, bytes_append]
      simp only [ok_bind]
      rw [show d.length + t.length + 2 - 1 - d.length - 1 - t.length = 0 by omega, push_loop]
      cases n with
      | zero => rfl
      | succ n => rfl
  | @more b c d t r ps hd ht _ ih =>
    intro fuel rest s hf
    simp only [List.length_cons, List.length_append] at hf
    cases fuel with
    | zero => omega
    | succ n =>
      rw [show (b :: (d ++ c :: (t ++ r))).length = d.length + t.length + 2 + r.length by simp; omega,
        show b :: (d ++ c :: (t ++ r)) ++ rest = b :: (d ++ (c :: (t ++ (r ++ rest)))) by simp]
      unfold loop
      rw [if_neg (by omega)]
      simp only [byte, ok_bind]
      rw [show min b.toNat (d.length + t.length + 2 + r.length - 1) = d.length by omega, bytes_append]
      simp only [ok_bind]
      rw [if_neg (by omega)]
      rw [show min c.toNat (d.length + t.length + 2 + r.length - 1 - d.length - 1) = t.length by omega, bytes_append]
      simp only [ok_bind]
      rw [show d.length + t.length + 2 + r.length - 1 - d.length - 1 - t.length = r.length by omega, push_loop,
        ih _ _ _ (by omega), List.foldl_cons]

/-- Any bytes have entries. -/
theorem read_total : ∀ (n : Nat) (data : List UInt8), data.length ≤ n → ∃ ps, Read data ps := by
  intro n
  induction n with
  | zero =>
    intro data h
    rw [List.length_eq_zero_iff.1 (Nat.le_zero.1 h)]
    exact ⟨_, .nil⟩
  | succ n ih =>
    intro data h
    cases data with
    | nil => exact ⟨_, .nil⟩
    | cons b data =>
      cases data with
      | nil => exact ⟨_, .one b⟩
      | cons x xs =>
        by_cases h1 : (x :: xs).length ≤ b.toNat
        · exact ⟨_, .desc (by simp) h1⟩
        · obtain ⟨d, r, hd, hl⟩ : ∃ d r, x :: xs = d ++ r ∧ d.length = b.toNat :=
            ⟨(x :: xs).take b.toNat, (x :: xs).drop b.toNat, (List.take_append_drop _ _).symm,
              by rw [List.length_take]; omega⟩
          rw [hd] at h h1 ⊢
          cases r with
          | nil => simp at h1; omega
          | cons c r =>
            by_cases h2 : r.length < c.toNat
            · exact ⟨_, .text hl h2⟩
            · obtain ⟨t, q, ht, hl2⟩ : ∃ t q, r = t ++ q ∧ t.length = c.toNat :=
                ⟨r.take c.toNat, r.drop c.toNat, (List.take_append_drop _ _).symm, by rw [List.length_take]; omega⟩
              subst ht
              obtain ⟨ps, hp⟩ := ih q (by simp at h; omega)
              exact ⟨_, .more hl hl2 hp⟩

/-- The loop over entries followed by a missing byte. -/
theorem loop_short : ∀ (ps : List Item) (fuel : Nat) (s : St),
    (ps.flatMap code).length + 1 ≤ fuel → (ps.flatMap code).length < 256 →
    loop fuel ((ps.flatMap code).length + 1) (ps.flatMap code) s = .ok (ps.foldl push s) := by
  intro ps
  induction ps with
  | nil =>
    intro fuel s _ _
    cases fuel with
    | zero => rfl
    | succ n => rfl
  | cons p ps ih =>
    intro fuel s hf hl
    have hlen : ((p :: ps).flatMap code).length = p.1.length + p.2.length + 2 + (ps.flatMap code).length := by
      rw [List.flatMap_cons, List.length_append, code_length]
    rw [hlen] at hf hl ⊢
    cases fuel with
    | zero => omega
    | succ n =>
      have hdata : (p :: ps).flatMap code =
          UInt8.ofNat p.1.length :: (p.1 ++ (UInt8.ofNat p.2.length :: (p.2 ++ (ps.flatMap code)))) := by
        simp [code]
      rw [hdata]
      unfold loop
      rw [if_neg (by omega)]
      simp only [byte, ok_bind, toNat_ofNat (show p.1.length < 256 by omega)]
      rw [show min p.1.length (p.1.length + p.2.length + 2 + (ps.flatMap code).length + 1 - 1) = p.1.length by omega,
        bytes_append]
      simp only [ok_bind]
      rw [if_neg (by omega)]
      simp only [toNat_ofNat (show p.2.length < 256 by omega)]
      rw [show min p.2.length (p.1.length + p.2.length + 2 + (ps.flatMap code).length + 1 - 1 - p.1.length - 1) =
        p.2.length by omega, bytes_append]
      simp only [ok_bind]
      rw [push_loop, show p.1.length + p.2.length + 2 + (ps.flatMap code).length + 1 - 1 - p.1.length - 1 - p.2.length =
        (ps.flatMap code).length + 1 by omega, ih n _ (by omega) (by omega), List.foldl_cons]

/-- With one byte missing, the loop stays within the bytes only if they are entries. -/
theorem loop_short_oob : ∀ (fuel : Nat) (data : List UInt8) (s : St), data.length + 1 ≤ fuel →
    (∃ ps : List Item, data = ps.flatMap code) ∨ loop fuel (data.length + 1) data s = .error .oob := by
  intro fuel
  induction fuel with
  | zero => intro data s h; omega
  | succ n ih =>
    intro data s h
    cases data with
    | nil => exact .inl ⟨[], rfl⟩
    | cons b data =>
      simp only [List.length_cons] at h
      unfold loop
      rw [if_neg (by simp)]
      simp only [byte, ok_bind, List.length_cons]
      by_cases h1 : b.toNat ≤ data.length
      · obtain ⟨d, r, hd, hl⟩ : ∃ d r, data = d ++ r ∧ d.length = b.toNat :=
          ⟨data.take b.toNat, data.drop b.toNat, (List.take_append_drop _ _).symm, by rw [List.length_take]; omega⟩
        subst hd
        rw [show min b.toNat ((d ++ r).length + 1 + 1 - 1) = d.length by omega, bytes_append]
        simp only [ok_bind]
        rw [if_neg (by simp; omega)]
        cases r with
        | nil => exact .inr rfl
        | cons c r =>
          simp only [ok_bind, byte]
          by_cases h2 : c.toNat ≤ r.length
          · obtain ⟨t, q, ht, hl2⟩ : ∃ t q, r = t ++ q ∧ t.length = c.toNat :=
              ⟨r.take c.toNat, r.drop c.toNat, (List.take_append_drop _ _).symm, by rw [List.length_take]; omega⟩
            subst ht
            simp only [List.length_append, List.length_cons] at h ⊢
            rw [show min c.toNat (d.length + (t.length + q.length + 1) + 1 + 1 - 1 - d.length - 1) = t.length by omega,
              bytes_append]
            simp only [ok_bind]
            rw [show d.length + (t.length + q.length + 1) + 1 + 1 - 1 - d.length - 1 - t.length = q.length + 1 by omega]
            rcases ih q _ (by omega) with ⟨ps, hp⟩ | hp
            · refine .inl ⟨(d, t) :: ps, ?_⟩
              rw [List.flatMap_cons, hp, code, hl, hl2]
              simp
            · exact .inr hp
          · right
            have : ¬ min c.toNat ((d ++ c :: r).length + 1 + 1 - 1 - d.length - 1) ≤ r.length := by
              simp; omega
            simp only [bytes, this, if_false]
            rfl
      · right
        have : ¬ min b.toNat (data.length + 1 + 1 - 1) ≤ data.length := by omega
        simp only [bytes, this, if_false]
        rfl

theorem step_carries {d : ExtDesc} {ps : List Item} (h : Carries d ps) (s : St) :
    step s d = .ok (ps.foldl push s) := by
  obtain ⟨h1, h2, head, n, h4, h5⟩ := h
  have key : ∀ tail, d.payload = head ++ n :: tail → step s d = loop n.toNat n.toNat tail s := by
    intro tail h5
    have e1 : d.payload.getD 4 0 = n := by
      rw [h5, List.getD_eq_getElem?_getD, List.getElem?_append_right (by omega), h4]
      rfl
    have e2 : d.payload.drop 5 = tail := by
      rw [h5, show (5 : Nat) = head.length + 1 by omega, List.drop_append]
      simp
    unfold step
    rw [if_neg (by simp [h1]), if_neg (by simp [h2]), if_neg (by rw [h5]; simp; omega)]
    dsimp only
    rw [e1, e2]
  rcases h5 with ⟨data, rest, h5, h6, h7⟩ | ⟨h5, h6⟩
  · rw [key _ h5, ← h6]
    exact loop_read h7 _ rest s (Nat.le_refl _)
  · rw [key _ h5, ← h6]
    have := n.toNat_lt
    exact loop_short ps _ s (Nat.le_refl _) (by omega)

theorem step_ignored {d : ExtDesc} (h : Ignored d) (s : St) : step s d = .ok s := by
  unfold step
  split
  · rfl
  · split
    · rfl
    · split
      · rfl
      · next h1 h2 h3 =>
        simp only [Bool.not_eq_true, Bool.not_eq_false', bne_iff_ne, ne_eq, Decidable.not_not] at h1 h2
        rcases h with h | h | h
        · rw [h] at h1; simp at h1
        · exact absurd h2 h
        · exact absurd h h3

theorem run_entries {ds : List ExtDesc} {ps : List Item} (h : Entries ds ps) :
    ∀ s, run ds s = .ok (ps.foldl push s) := by
  induction h with
  | nil => exact fun s => rfl
  | skip h1 _ ih =>
    intro s
    simp only [run, step_ignored h1, ok_bind, ih]
  | more h1 _ ih =>
    intro s
    simp only [run, step_carries h1, ok_bind, ih, List.foldl_append]

theorem push_texts (ts : List (List UInt8)) : ∀ s : St,
    (ts.map (([], ·))).foldl push s = { s with item := s.item ++ ts.flatten } := by
  induction ts with
  | nil => intro s; simp
  | cons t ts ih =>
    intro s
    rw [List.map_cons, List.foldl_cons, ih]
    simp [push]

theorem flush_told {is ps : List Item} (h : Told is ps) : ∀ s : St, s.item = [] ∨ s.desc ≠ [] →
    (flush (ps.foldl push s)).items = (flush s).items ++ is := by
  induction h with
  | nil => intro s _; simp
  | @cons i is ps qs hb _ ih =>
    intro s hs
    obtain ⟨hd, t, ts, rfl, ht⟩ := hb
    rw [List.foldl_append, List.foldl_cons, push_texts]
    have hi : (flush s).item = [] := by
      unfold flush
      split
      · next h => exact hs.resolve_right (fun hn => hn h)
      · rfl
    have e : push s (i.1, t) = { flush s with desc := i.1, item := t } := by
      unfold push
      rw [if_neg hd, hi]
      simp
    rw [e, ih _ (.inr hd)]
    simp only [flush, hd, if_false]
    simp [← ht]

/-- The loop stays within the bytes there are. -/
theorem loop_safe : ∀ (fuel remaining : Nat) (data : List UInt8) (s : St), remaining ≤ data.length →
    ∃ s', loop fuel remaining data s = .ok s' := by
  intro fuel
  induction fuel with
  | zero => exact fun _ _ s _ => ⟨s, rfl⟩
  | succ n ih =>
    intro remaining data s h
    unfold loop
    split
    · exact ⟨s, rfl⟩
    · next hr =>
      cases data with
      | nil => simp at h; omega
      | cons b data =>
        simp only [byte, ok_bind]
        simp only [List.length_cons] at h
        have h1 : min b.toNat (remaining - 1) ≤ data.length := by omega
        simp only [bytes, h1, if_true, ok_bind]
        split
        · exact ⟨_, rfl⟩
        · next hr2 =>
          cases hd : data.drop (min b.toNat (remaining - 1)) with
          | nil =>
            have := congrArg List.length hd
            simp only [List.length_drop, List.length_nil] at this
            omega
          | cons c data' =>
            have hl := congrArg List.length hd
            simp only [List.length_drop, List.length_cons] at hl
            simp only [byte, ok_bind]
            have h2 : min c.toNat (remaining - 1 - min b.toNat (remaining - 1) - 1) ≤ data'.length := by omega
            simp only [h2, if_true, ok_bind]
            exact ih _ _ _ (by simp only [List.length_drop]; omega)

theorem step_safe {d : ExtDesc} (h : Ignored d ∨ Complete d) (s : St) : ∃ s', step s d = .ok s' := by
  rcases h with h | h
  · exact ⟨s, step_ignored h s⟩
  · unfold step
    repeat' split
    · exact ⟨s, rfl⟩
    · exact ⟨s, rfl⟩
    · exact ⟨s, rfl⟩
    · exact loop_safe _ _ _ s (by unfold Complete at h; rw [List.length_drop]; omega)

/-- The loop reads outside if two bytes or more are missing. -/
theorem loop_oob : ∀ (fuel remaining : Nat) (data : List UInt8) (s : St), remaining ≤ fuel →
    data.length + 2 ≤ remaining → loop fuel remaining data s = .error .oob := by
  intro fuel
  induction fuel with
  | zero => intro remaining data s h1 h2; omega
  | succ n ih =>
    intro remaining data s hf h
    unfold loop
    rw [if_neg (by omega)]
    cases data with
    | nil => rfl
    | cons b data =>
      simp only [byte, ok_bind]
      simp only [List.length_cons] at h
      by_cases h1 : min b.toNat (remaining - 1) ≤ data.length
      · simp only [bytes, h1, if_true, ok_bind]
        rw [if_neg (by omega)]
        cases hd : data.drop (min b.toNat (remaining - 1)) with
        | nil => rfl
        | cons c data' =>
          have hl := congrArg List.length hd
          simp only [List.length_drop, List.length_cons] at hl
          simp only [byte, ok_bind]
          by_cases h2 : min c.toNat (remaining - 1 - min b.toNat (remaining - 1) - 1) ≤ data'.length
          · simp only [h2, if_true, ok_bind]
            exact ih _ _ _ (by omega) (by simp only [List.length_drop]; omega)
          · simp only [h2, if_false]
            rfl
      · simp only [bytes, h1, if_false]
        rfl

/-- A descriptor has entries, or is no such descriptor, or makes the function read outside of it. -/
theorem step_cases (d : ExtDesc) : Ignored d ∨ (∃ ps, Carries d ps) ∨ ∀ s, step s d = .error .oob := by
  by_cases hi : Ignored d
  · exact .inl hi
  · right
    simp only [Ignored, not_or, Bool.not_eq_false, Decidable.not_not, Nat.not_lt] at hi
    obtain ⟨h1, h2, h3⟩ := hi
    obtain ⟨head, n, tail, hp, hl⟩ : ∃ (head : List UInt8) (n : UInt8) (tail : List UInt8),
        d.payload = head ++ n :: tail ∧ head.length = 4 := by
      refine ⟨d.payload.take 4, d.payload.getD 4 0, d.payload.drop 5, ?_, by rw [List.length_take]; omega⟩
      conv => lhs; rw [← List.take_append_drop 4 d.payload]
      rw [List.drop_eq_getElem_cons (by omega), List.getD_eq_getElem?_getD, List.getElem?_eq_getElem (by omega)]
      rfl
    have hs : ∀ s, step s d = loop n.toNat n.toNat tail s := by
      intro s
      have e1 : d.payload.getD 4 0 = n := by
        rw [hp, List.getD_eq_getElem?_getD, List.getElem?_append_right (by omega), hl]
        rfl
      have e2 : d.payload.drop 5 = tail := by
        rw [hp, show (5 : Nat) = head.length + 1 by omega, List.drop_append]
        simp
      unfold step
      rw [if_neg (by simp [h1]), if_neg (by simp [h2]), if_neg (by omega)]
      dsimp only
      rw [e1, e2]
    by_cases hc : n.toNat ≤ tail.length
    · obtain ⟨ps, hr⟩ := read_total _ (tail.take n.toNat) (Nat.le_refl _)
      exact .inl ⟨ps, h1, h2, head, n, hl, .inl ⟨tail.take n.toNat, tail.drop n.toNat,
        by rw [List.take_append_drop]; exact hp, by rw [List.length_take]; omega, hr⟩⟩
    · by_cases ho : n.toNat = tail.length + 1
      · by_cases he : ∃ ps : List Item, tail = ps.flatMap code
        · obtain ⟨ps, rfl⟩ := he
          exact .inl ⟨ps, h1, h2, head, n, hl, .inr ⟨hp, ho.symm⟩⟩
        · refine .inr fun s => ?_
          rw [hs, ho]
          rcases loop_short_oob (tail.length + 1) tail s (Nat.le_refl _) with h | h
          · exact absurd h he
          · exact h
      · exact .inr fun s => by rw [hs]; exact loop_oob _ _ _ s (Nat.le_refl _) (by omega)

/-- Well-formed entries are read. -/
theorem read_code : ∀ ps : List Item, (∀ p ∈ ps, p.1.length < 256 ∧ p.2.length < 256) → Read (ps.flatMap code) ps := by
  intro ps
  induction ps with
  | nil => exact fun _ => .nil
  | cons p ps ih =>
    intro h
    have := h p (by simp)
    have e : (p :: ps).flatMap code =
        UInt8.ofNat p.1.length :: (p.1 ++ (UInt8.ofNat p.2.length :: (p.2 ++ (ps.flatMap code)))) := by
      simp [code]
    rw [e]
    exact .more (toNat_ofNat this.1).symm (toNat_ofNat this.2).symm (ih fun q hq => h q (by simp [hq]))

end Mirakc.ExtendedEvent
