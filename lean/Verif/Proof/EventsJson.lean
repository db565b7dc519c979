import Verif.Proof.EitBits
import Verif.Proof.Basic
import Verif.Spec.EventsJson
/-
Decoding of the event loop of an EIT section.
-/
set_option linter.unusedSimpArgs false
namespace Mirakc
open Mirakc.Spec.EventsJson

theorem getUInt16_toNat (a b : UInt8) : (getUInt16 a b).toNat = 256 * a.toNat + b.toNat := by
  have ha := a.toNat_lt
  have hb := b.toNat_lt
  simp only [getUInt16, UInt16.toNat_or, UInt16.toNat_shiftLeft, UInt8.toNat_toUInt16]
  show (a.toNat <<< 8 % 2 ^ 16) ||| b.toNat = _
  rw [Nat.shiftLeft_eq, Nat.mod_eq_of_lt (by omega), Nat.mul_comm,
    ← Nat.two_pow_add_eq_or_of_lt (i := 8) (by omega)]

theorem getUInt16_be16 (n : Nat) (h : n < 65536) :
    (getUInt16 (UInt8.ofNat (n / 256)) (UInt8.ofNat n)).toNat = n := by
  rw [getUInt16_toNat]
  simp only [UInt8.toNat_ofNat']
  omega

theorem and_0FFF (x : UInt16) : (x &&& 0x0FFF).toNat = x.toNat % 4096 := by
  rw [UInt16.toNat_and]
  exact Nat.and_two_pow_sub_one_eq_mod _ 12

theorem ca_bit (b : UInt8) : ((b >>> 4) &&& 0x01 != 0) = decide (b.toNat / 16 % 2 = 1) := by
  have h : ((b >>> 4) &&& 0x01).toNat = b.toNat / 16 % 2 := by
    rw [UInt8.toNat_and, UInt8.toNat_shiftRight]
    show b.toNat >>> 4 &&& (2^1 - 1) = _
    rw [Nat.and_two_pow_sub_one_eq_mod, Nat.shiftRight_eq_div_pow]
  rw [← h]
  by_cases h0 : (b >>> 4) &&& 0x01 = 0
  · rw [h0]; rfl
  · have : ((b >>> 4) &&& 0x01).toNat ≠ 0 := fun e => h0 (UInt8.toNat_inj.1 (by rw [e]; rfl))
    have h1 : ((b >>> 4) &&& 0x01).toNat = 1 := by omega
    rw [h1]
    simp [h0]

theorem bcd_high (b : UInt8) : (b >>> 4).toNat = b.toNat / 16 := by
  rw [UInt8.toNat_shiftRight]
  show b.toNat >>> 4 = _
  rw [Nat.shiftRight_eq_div_pow]

theorem bcd_low (b : UInt8) : (b &&& 0x0F).toNat = b.toNat % 16 := by
  rw [UInt8.toNat_and]
  exact Nat.and_two_pow_sub_one_eq_mod _ 4

theorem isValidBcd_iff (b : UInt8) : isValidBcd b = true ↔ ∃ n, Bcd b n := by
  unfold isValidBcd
  rw [Bool.and_eq_true, decide_eq_true_eq, decide_eq_true_eq, UInt8.lt_iff_toNat_lt,
    UInt8.lt_iff_toNat_lt, bcd_high, bcd_low]
  show b.toNat / 16 < 10 ∧ b.toNat % 16 < 10 ↔ _
  constructor
  · intro h
    exact ⟨_, b.toNat / 16, b.toNat % 16, h.1, h.2, by omega, rfl⟩
  · rintro ⟨n, d1, d0, h1, h2, h3, _⟩
    omega

theorem decodeBcd_of {b : UInt8} (h : isValidBcd b = true) : Bcd b (decodeBcd b) := by
  obtain ⟨n, d1, d0, h1, h2, h3, h4⟩ := (isValidBcd_iff b).1 h
  refine ⟨d1, d0, h1, h2, h3, ?_⟩
  unfold decodeBcd
  rw [bcd_high, bcd_low]
  omega

theorem duration_shown (b7 b8 b9 : UInt8) :
    DurationShown (fun i => if i = 0 then b7 else if i = 1 then b8 else b9)
      (if (!isValidBcd b7 || !isValidBcd b8 || !isValidBcd b9) = true then none
       else some (decodeBcd b7 * 3600000 + decodeBcd b8 * 60000 + decodeBcd b9 * 1000)) := by
  have hno : ∀ b : UInt8, isValidBcd b = false → ∀ n, ¬ Bcd b n := by
    intro b h n hn
    have := (isValidBcd_iff b).2 ⟨n, hn⟩
    rw [h] at this; cases this
  cases h7 : isValidBcd b7 with
  | false => simp only [Bool.not_false, Bool.true_or, if_true]; exact ⟨0, hno _ h7⟩
  | true =>
    cases h8 : isValidBcd b8 with
    | false => simp only [Bool.not_false, Bool.not_true, Bool.false_or, Bool.true_or, if_true]; exact ⟨1, hno _ h8⟩
    | true =>
      cases h9 : isValidBcd b9 with
      | false => simp only [Bool.not_false, Bool.not_true, Bool.false_or, if_true]; exact ⟨2, hno _ h9⟩
      | true =>
        simp only [Bool.not_true, Bool.false_or, Bool.false_eq_true, if_false]
        exact ⟨_, _, _, decodeBcd_of h7, decodeBcd_of h8, decodeBcd_of h9, by
          show _ = ((decodeBcd b7 * 60 + decodeBcd b8) * 60 + decodeBcd b9) * 1000
          omega⟩

/-- One round of the loop, for a well-formed event. -/
theorem makeEvents_event (mjd : List UInt8 → Option Int) (fuel : Nat) (ev : BroadcastEvent)
    (hd : ev.descriptors.length < 4096) (rest : List UInt8) :
    ∃ j, Shown mjd ev j ∧ makeEvents mjd (fuel + 1) (ev.bytes ++ rest) =
      (do let evs ← makeEvents mjd fuel rest; .ok (j :: evs)) := by
  have hr := ev.running.isLt
  have hn : 8192 * ev.running.val + (if ev.scrambled then 4096 else 0) + ev.descriptors.length < 65536 := by
    split <;> omega
  generalize hN : 8192 * ev.running.val + (if ev.scrambled = true then 4096 else 0) + ev.descriptors.length = N at hn
  have hbytes : ev.bytes ++ rest =
      UInt8.ofNat (ev.id.toNat / 256) :: UInt8.ofNat ev.id.toNat :: ev.start 0 :: ev.start 1 ::
      ev.start 2 :: ev.start 3 :: ev.start 4 :: ev.duration 0 :: ev.duration 1 :: ev.duration 2 ::
      UInt8.ofNat (N / 256) :: UInt8.ofNat N :: (ev.descriptors ++ rest) := by
    simp [BroadcastEvent.bytes, be16, hN]
  have hlen : (getUInt16 (UInt8.ofNat (N / 256)) (UInt8.ofNat N) &&& 0x0FFF).toNat = ev.descriptors.length := by
    rw [and_0FFF, getUInt16_be16 N hn]
    split at hN <;> omega
  have hca : ((UInt8.ofNat (N / 256)) >>> 4 &&& 0x01 != 0) = ev.scrambled := by
    rw [ca_bit, UInt8.toNat_ofNat']
    cases hs : ev.scrambled with
    | true => rw [hs] at hN; simp only [if_true] at hN; simp only [decide_eq_true_eq]; omega
    | false => rw [hs] at hN; simp only [Bool.false_eq_true, if_false] at hN; simp only [decide_eq_false_iff_not]; omega
  have hid : getUInt16 (UInt8.ofNat (ev.id.toNat / 256)) (UInt8.ofNat ev.id.toNat) = ev.id := by
    apply UInt16.toNat_inj.1
    exact getUInt16_be16 _ ev.id.toNat_lt
  refine ⟨{ eventId := ev.id,
            startTime := (mjd [ev.start 0, ev.start 1, ev.start 2, ev.start 3, ev.start 4]).map jstToUnix,
            duration := if (!isValidBcd (ev.duration 0) || !isValidBcd (ev.duration 1) ||
                !isValidBcd (ev.duration 2)) = true then none
              else some (decodeBcd (ev.duration 0) * 3600000 + decodeBcd (ev.duration 1) * 60000 +
                decodeBcd (ev.duration 2) * 1000),
            scrambled := ev.scrambled, descriptors := ev.descriptors }, ?_, ?_⟩
  · refine ⟨rfl, ?_, ?_, rfl, rfl⟩
    · congr 1
    · have h := duration_shown (ev.duration 0) (ev.duration 1) (ev.duration 2)
      have he : (fun i => if i = 0 then ev.duration 0 else if i = 1 then ev.duration 1 else ev.duration 2) =
          ev.duration := by
        funext i
        match i with
        | 0 => rfl
        | 1 => rfl
        | 2 => rfl
      rw [he] at h
      exact h
  · rw [hbytes]
    conv => lhs; unfold makeEvents
    simp only [hlen, hca, hid]
    rw [if_neg (by simp), List.drop_left, List.take_left]

theorem makeEvents_short (mjd : List UInt8 → Option Int) (fuel : Nat) (data : List UInt8)
    (h : data.length < 12) : makeEvents mjd (fuel + 1) data = .ok [] := by
  unfold makeEvents
  split
  · simp only [List.length_cons] at h; omega
  · rfl

theorem event_bytes_length (ev : BroadcastEvent) : ev.bytes.length = 12 + ev.descriptors.length := by
  simp [BroadcastEvent.bytes, be16]; omega

theorem makeEvents_encode (mjd : List UInt8 → Option Int) (evs : List BroadcastEvent) (tail : List UInt8)
    (hd : ∀ ev ∈ evs, ev.descriptors.length < 4096) (ht : tail.length < 12) :
    ∀ fuel, (encode evs ++ tail).length < fuel →
      ∃ js, Pairwise₂ (Shown mjd) evs js ∧ makeEvents mjd fuel (encode evs ++ tail) = .ok js := by
  induction evs with
  | nil =>
    intro fuel hf
    cases fuel with
    | zero => exact absurd hf (Nat.not_lt_zero _)
    | succ fuel => exact ⟨[], .nil, makeEvents_short mjd fuel _ (by simpa [encode] using ht)⟩
  | cons ev evs ih =>
    intro fuel hf
    have he : encode (ev :: evs) ++ tail = ev.bytes ++ (encode evs ++ tail) := by
      simp [encode]
    rw [he] at hf ⊢
    rw [List.length_append, event_bytes_length] at hf
    cases fuel with
    | zero => exact absurd hf (Nat.not_lt_zero _)
    | succ fuel =>
      obtain ⟨j, h1, h2⟩ := makeEvents_event mjd fuel ev (hd ev (by simp)) (encode evs ++ tail)
      obtain ⟨js, h3, h4⟩ := ih (fun ev h => hd ev (by simp [h])) fuel (by omega)
      exact ⟨j :: js, .cons h1 h3, by rw [h2, h4]; rfl⟩

/-- Bytes of an event, read back. -/
theorem event_of_bytes (b0 b1 b2 b3 b4 b5 b6 b7 b8 b9 b10 b11 : UInt8) (rest : List UInt8)
    (h : (getUInt16 b10 b11 &&& 0x0FFF).toNat ≤ rest.length) :
    ∃ ev : BroadcastEvent, ev.descriptors.length < 4096 ∧
      b0 :: b1 :: b2 :: b3 :: b4 :: b5 :: b6 :: b7 :: b8 :: b9 :: b10 :: b11 :: rest =
        ev.bytes ++ rest.drop (getUInt16 b10 b11 &&& 0x0FFF).toNat := by
  rw [and_0FFF, getUInt16_toNat] at h ⊢
  have l0 := b0.toNat_lt; have l1 := b1.toNat_lt
  have l10 := b10.toNat_lt; have l11 := b11.toNat_lt
  generalize hL : (256 * b10.toNat + b11.toNat) % 4096 = L at h
  refine ⟨{ id := getUInt16 b0 b1,
            start := fun i => match i with | 0 => b2 | 1 => b3 | 2 => b4 | 3 => b5 | 4 => b6,
            duration := fun i => match i with | 0 => b7 | 1 => b8 | 2 => b9,
            running := ⟨b10.toNat / 32, by omega⟩,
            scrambled := decide (b10.toNat / 16 % 2 = 1),
            descriptors := rest.take L }, ?_, ?_⟩
  · simp only [List.length_take]; omega
  · have e0 : UInt8.ofNat ((getUInt16 b0 b1).toNat / 256) = b0 := by
      apply UInt8.toNat_inj.1
      rw [UInt8.toNat_ofNat', getUInt16_toNat]; omega
    have e1 : UInt8.ofNat (getUInt16 b0 b1).toNat = b1 := by
      apply UInt8.toNat_inj.1
      rw [UInt8.toNat_ofNat', getUInt16_toNat]; omega
    have hlen : (rest.take L).length = L := by rw [List.length_take]; omega
    have hN : 8192 * (b10.toNat / 32) + (if decide (b10.toNat / 16 % 2 = 1) = true then 4096 else 0) + L =
        256 * b10.toNat + b11.toNat := by
      simp only [decide_eq_true_eq]
      split <;> omega
    have e2 : UInt8.ofNat ((256 * b10.toNat + b11.toNat) / 256) = b10 := by
      apply UInt8.toNat_inj.1
      rw [UInt8.toNat_ofNat']; omega
    have e3 : UInt8.ofNat (256 * b10.toNat + b11.toNat) = b11 := by
      apply UInt8.toNat_inj.1
      rw [UInt8.toNat_ofNat']; omega
    simp only [BroadcastEvent.bytes, be16, hlen, hN, e0, e1, e2, e3, List.cons_append, List.nil_append,
      List.take_append_drop]

theorem makeEvents_total (mjd : List UInt8 → Option Int) : ∀ (fuel : Nat) (data : List UInt8),
    data.length < fuel →
    (WellFormed data ∧ ∃ js, makeEvents mjd fuel data = .ok js) ∨
    (¬ WellFormed data ∧ makeEvents mjd fuel data = .error .oob) := by
  intro fuel data hf
  by_cases hw : WellFormed data
  · obtain ⟨evs, tail, h1, rfl, h3⟩ := hw
    obtain ⟨js, _, h4⟩ := makeEvents_encode mjd evs tail h1 h3 fuel hf
    exact .inl ⟨⟨evs, tail, h1, rfl, h3⟩, js, h4⟩
  · refine .inr ⟨hw, ?_⟩
    induction fuel generalizing data with
    | zero => exact absurd hf (Nat.not_lt_zero _)
    | succ fuel ih =>
      by_cases hlen : data.length < 12
      · exact absurd ⟨[], data, by simp, rfl, hlen⟩ hw
      · match data, hlen, hf, hw with
        | b0 :: b1 :: b2 :: b3 :: b4 :: b5 :: b6 :: b7 :: b8 :: b9 :: b10 :: b11 :: rest, _, hf, hw =>
          unfold makeEvents
          dsimp only
          by_cases hr : rest.length < (getUInt16 b10 b11 &&& 0x0FFF).toNat
          · rw [if_pos hr]
          · rw [if_neg hr]
            obtain ⟨ev, k1, k2⟩ := event_of_bytes b0 b1 b2 b3 b4 b5 b6 b7 b8 b9 b10 b11 rest (by omega)
            have hd : ¬ WellFormed (rest.drop (getUInt16 b10 b11 &&& 0x0FFF).toNat) := by
              rintro ⟨evs, tail, q1, q2, q3⟩
              refine hw ⟨ev :: evs, tail, ?_, ?_, q3⟩
              · intro x hx
                rcases List.mem_cons.1 hx with rfl | hx
                · exact k1
                · exact q1 x hx
              · rw [k2, q2]; simp [encode]
            rw [ih _ (by simp only [List.length_cons] at hf; rw [List.length_drop]; omega) hd]
            rfl
        | [], h, _, _ => simp at h
        | [_], h, _, _ => simp at h
        | [_, _], h, _, _ => simp at h
        | [_, _, _], h, _, _ => simp at h
        | [_, _, _, _], h, _, _ => simp at h
        | [_, _, _, _, _], h, _, _ => simp at h
        | [_, _, _, _, _, _], h, _, _ => simp at h
        | [_, _, _, _, _, _, _], h, _, _ => simp at h
        | [_, _, _, _, _, _, _, _], h, _, _ => simp at h
        | [_, _, _, _, _, _, _, _, _], h, _, _ => simp at h
        | [_, _, _, _, _, _, _, _, _, _], h, _, _ => simp at h
        | [_, _, _, _, _, _, _, _, _, _, _], h, _, _ => simp at h

theorem makeJsonEit_total (mjd : List UInt8 → Option Int) (e : EitSection) :
    (WellFormed e.events ∧ ∃ j, makeJsonEit mjd e = .ok j) ∨
    (¬ WellFormed e.events ∧ makeJsonEit mjd e = .error .oob) := by
  unfold makeJsonEit makeEventsJson
  rcases makeEvents_total mjd _ e.events (Nat.lt_succ_self _) with ⟨h1, js, h2⟩ | ⟨h1, h2⟩
  · exact .inl ⟨h1, _, by rw [h2]; rfl⟩
  · exact .inr ⟨h1, by rw [h2]; rfl⟩

end Mirakc
