import Verif.Spec.Json
/-
What is written is read back.
-/
namespace Mirakc.Json
open Mirakc.Spec.Json

/-! ### Numbers -/

theorem ofNat_digit (n : Nat) (h : n < 10) : (UInt8.ofNat (48 + n)).toNat = 48 + n := by
  simp only [UInt8.toNat_ofNat']; omega

theorem isDigit_iff (c : UInt8) : isDigit c = true ↔ 48 ≤ c.toNat ∧ c.toNat ≤ 57 := by
  unfold isDigit
  rw [Bool.and_eq_true, decide_eq_true_eq, decide_eq_true_eq, UInt8.le_iff_toNat_le,
    UInt8.le_iff_toNat_le]
  rfl

/-- The value of digits. -/
def valueOf (n : Nat) (l : List UInt8) : Nat := l.foldl (fun n c => 10 * n + (c.toNat - 48)) n

theorem decimals_append : ∀ (l : List UInt8) (n : Nat) (r : List UInt8), (∀ c ∈ l, isDigit c = true) →
    ends r = true → decimals n (l ++ r) = (valueOf n l, r) := by
  intro l
  induction l with
  | nil =>
    intro n r _ hr
    cases r with
    | nil => rfl
    | cons c r =>
      simp only [ends, Bool.not_eq_true', Bool.or_eq_false_iff] at hr
      simp [decimals, hr, valueOf]
  | cons c l ih =>
    intro n r h hr
    simp only [List.cons_append, decimals, h c List.mem_cons_self, if_true]
    rw [ih _ _ (fun x hx => h x (List.mem_cons_of_mem _ hx)) hr]
    rfl

theorem digits_spec : ∀ (fuel n : Nat), n < fuel →
    (∀ c ∈ digits fuel n, isDigit c = true) ∧ valueOf 0 (digits fuel n) = n ∧
    (n ≠ 0 → ∃ c r, digits fuel n = c :: r ∧ c ≠ 0x30) := by
  intro fuel
  induction fuel with
  | zero => intro n h; omega
  | succ fuel ih =>
    intro n h
    unfold digits
    split
    · next hn =>
      have ht := ofNat_digit n hn
      refine ⟨?_, ?_, ?_⟩
      · intro c hc
        rw [List.mem_singleton] at hc
        subst hc
        rw [isDigit_iff, ht]; omega
      · simp only [valueOf, List.foldl, ht]; omega
      · intro h0
        refine ⟨_, _, rfl, fun he => ?_⟩
        rw [he] at ht
        have : (0x30 : UInt8).toNat = 48 := rfl
        omega
    · next hn =>
      obtain ⟨h1, h2, h3⟩ := ih (n / 10) (by omega)
      have ht := ofNat_digit (n % 10) (by omega)
      refine ⟨?_, ?_, ?_⟩
      · intro c hc
        rcases List.mem_append.1 hc with hc | hc
        · exact h1 c hc
        · rw [List.mem_singleton] at hc
          subst hc
          rw [isDigit_iff, ht]; omega
      · rw [valueOf, List.foldl_append]
        rw [valueOf] at h2
        rw [h2]
        simp only [List.foldl, ht]; omega
      · intro _
        obtain ⟨c, r, h4, h5⟩ := h3 (by omega)
        exact ⟨c, r ++ [UInt8.ofNat (48 + n % 10)], by rw [h4]; rfl, h5⟩

theorem natural_digits (fuel n : Nat) (h : n < fuel) (r : List UInt8) (hr : ends r = true) :
    natural (digits fuel n ++ r) = some (n, r) := by
  obtain ⟨h1, h2, h3⟩ := digits_spec fuel n h
  by_cases h0 : n = 0
  · subst h0
    obtain ⟨f, rfl⟩ : ∃ f, fuel = f + 1 := ⟨fuel - 1, by omega⟩
    rfl
  · obtain ⟨c, l, h4, h5⟩ := h3 h0
    have hc : isDigit c = true := h1 c (by rw [h4]; exact List.mem_cons_self)
    have hd := decimals_append (digits fuel n) 0 r h1 hr
    rw [h4] at hd h2 ⊢
    simp only [List.cons_append] at hd ⊢
    simp only [natural, h5, if_false, hc, if_true, hd, h2]

theorem digits_head (fuel n : Nat) (h : n < fuel) : ∃ c r, digits fuel n = c :: r ∧ isDigit c = true := by
  obtain ⟨h1, _, _⟩ := digits_spec fuel n h
  cases hd : digits fuel n with
  | nil =>
    exfalso
    obtain ⟨f, rfl⟩ : ∃ f, fuel = f + 1 := ⟨fuel - 1, by omega⟩
    unfold digits at hd
    split at hd
    · cases hd
    · simp at hd
  | cons c r => exact ⟨c, r, rfl, h1 c (by rw [hd]; exact List.mem_cons_self)⟩

theorem integer_write (n : Int) (r : List UInt8) (hr : ends r = true) :
    integer (writeInt n ++ r) = some (n, r) := by
  cases n with
  | ofNat n =>
    have h := natural_digits (n + 1) n (by omega) r hr
    obtain ⟨c, l, h1, h2⟩ := digits_head (n + 1) n (by omega)
    simp only [writeInt]
    rw [h1] at h ⊢
    simp only [List.cons_append] at h ⊢
    have hc : c ≠ 0x2D := by
      intro he; subst he; revert h2; decide
    simp only [integer, hc, if_false, h]; rfl
  | negSucc n =>
    have h := natural_digits (n + 2) (n + 1) (by omega) r hr
    simp only [writeInt, List.cons_append, integer, if_true, h, Option.map_some]
    rfl

/-- A number begins with a digit or a minus sign. -/
theorem writeInt_head (n : Int) : ∃ c r, writeInt n = c :: r ∧ (isDigit c = true ∨ c = 0x2D) := by
  cases n with
  | ofNat n =>
    obtain ⟨c, l, h1, h2⟩ := digits_head (n + 1) n (by omega)
    exact ⟨c, l, h1, .inl h2⟩
  | negSucc n => exact ⟨_, _, rfl, .inr rfl⟩

/-! ### Strings -/

theorem hex_hexDigit (n : Nat) (h : n < 16) : hex (hexDigit n) = some n := by
  have : ∀ n : Fin 16, hex (hexDigit n) = some n.val := by decide
  exact this ⟨n, h⟩

theorem chars_byte (b : UInt8) (r : List UInt8) (fuel : Nat) :
    chars (fuel + 1) (writeByte b ++ r) = (chars fuel r).map fun (s, r) => (b :: s, r) := by
  by_cases h1 : b = 0x22
  · subst h1; rfl
  by_cases h2 : b = 0x5C
  · subst h2; rfl
  by_cases h3 : b = 0x08
  · subst h3; rfl
  by_cases h4 : b = 0x09
  · subst h4; rfl
  by_cases h5 : b = 0x0A
  · subst h5; rfl
  by_cases h6 : b = 0x0C
  · subst h6; rfl
  by_cases h7 : b = 0x0D
  · subst h7; rfl
  by_cases h8 : b < 0x20
  · have hb : b.toNat < 32 := UInt8.lt_iff_toNat_lt.1 h8
    have ha : hex (hexDigit (b.toNat / 16)) = some (b.toNat / 16) := hex_hexDigit _ (by omega)
    have hc : hex (hexDigit (b.toNat % 16)) = some (b.toNat % 16) := hex_hexDigit _ (by omega)
    have h0 : hex 0x30 = some 0 := rfl
    have hn : UInt8.ofNat (16 * (b.toNat / 16) + b.toNat % 16) = b := by
      rw [Nat.div_add_mod]; exact UInt8.ofNat_toNat
    have hlt : b.toNat / 16 < 8 := by omega
    simp only [writeByte, h1, h2, h3, h4, h5, h6, h7, h8, if_false, if_true, List.cons_append,
      List.nil_append, chars, escaped, h0, ha, hc, hlt, hn]
    rfl
  · simp only [writeByte, h1, h2, h3, h4, h5, h6, h7, h8, if_false, List.cons_append,
      List.nil_append, chars]

theorem writeByte_length (b : UInt8) : 1 ≤ (writeByte b).length := by
  unfold writeByte
  repeat' split
  all_goals simp

theorem chars_write (s r : List UInt8) : ∀ fuel, (s.flatMap writeByte ++ [0x22]).length ≤ fuel →
    chars fuel (s.flatMap writeByte ++ [0x22] ++ r) = some (s, r) := by
  induction s with
  | nil =>
    intro fuel h
    obtain ⟨f, rfl⟩ : ∃ f, fuel = f + 1 := ⟨fuel - 1, by simp at h; omega⟩
    rfl
  | cons b s ih =>
    intro fuel h
    have hl := writeByte_length b
    simp only [List.flatMap_cons, List.length_append, List.length_cons, List.length_nil] at h
    obtain ⟨f, rfl⟩ : ∃ f, fuel = f + 1 := ⟨fuel - 1, by omega⟩
    rw [List.flatMap_cons, List.append_assoc, List.append_assoc, chars_byte, ← List.append_assoc,
      ih f (by simp only [List.length_append, List.length_cons, List.length_nil]; omega)]
    rfl

theorem after_append (w r : List UInt8) : after w (w ++ r) = some r := by
  induction w with
  | nil => rfl
  | cons c w ih => simp [after, ih]

/-! ### Values -/

/-- A value begins with something else than white space or a closing bracket. -/
theorem write_head (j : Json) : ∃ c r, write j = c :: r ∧ isSpace c = false ∧ c ≠ 0x5D ∧ c ≠ 0x7D := by
  have h : ∀ c : UInt8, isDigit c = true ∨ c = 0x2D → isSpace c = false ∧ c ≠ 0x5D ∧ c ≠ 0x7D := by
    intro c hc
    rcases hc with hc | rfl
    · have hd := (isDigit_iff c).1 hc
      have hne : ∀ d : UInt8, isDigit d = false → c ≠ d := by
        intro d h1 h2; subst h2; rw [hc] at h1; cases h1
      simp only [isSpace, Bool.or_eq_false_iff, beq_eq_false_iff_ne]
      exact ⟨⟨⟨⟨hne _ rfl, hne _ rfl⟩, hne _ rfl⟩, hne _ rfl⟩, hne _ rfl, hne _ rfl⟩
    · decide
  match j with
  | .null => exact ⟨_, _, by rw [write], by decide⟩
  | .bool true => exact ⟨_, _, by rw [write], by decide⟩
  | .bool false => exact ⟨_, _, by rw [write], by decide⟩
  | .num n =>
    obtain ⟨c, r, h1, h2⟩ := writeInt_head n
    exact ⟨c, r, by rw [write, h1], h c h2⟩
  | .str s => exact ⟨_, _, by rw [write, writeStr], by decide⟩
  | .arr [] => exact ⟨_, _, by rw [write], by decide⟩
  | .arr (x :: l) => exact ⟨_, _, by rw [write], by decide⟩
  | .obj [] => exact ⟨_, _, by rw [write], by decide⟩
  | .obj ((k, x) :: l) => exact ⟨_, _, by rw [write], by decide⟩

theorem skip_write (j : Json) (r : List UInt8) : skip (write j ++ r) = write j ++ r := by
  obtain ⟨c, l, h1, h2, _⟩ := write_head j
  rw [h1]
  simp [skip, h2]

theorem writeItems_head (l : List Json) : ∃ c r, writeItems l = c :: r ∧ isSpace c = false ∧
    (c = 0x5D ∨ c = 0x2C) := by
  cases l with
  | nil => exact ⟨_, _, by rw [writeItems], by decide, .inl rfl⟩
  | cons x l => exact ⟨_, _, by rw [writeItems], by decide, .inr rfl⟩

theorem writeMembers_head (l : List (List UInt8 × Json)) : ∃ c r, writeMembers l = c :: r ∧
    isSpace c = false ∧ (c = 0x7D ∨ c = 0x2C) := by
  cases l with
  | nil => exact ⟨_, _, by rw [writeMembers], by decide, .inl rfl⟩
  | cons x l => obtain ⟨k, x⟩ := x; exact ⟨_, _, by rw [writeMembers], by decide, .inr rfl⟩

theorem ends_items (l : List Json) (r : List UInt8) : ends (writeItems l ++ r) = true := by
  obtain ⟨c, r', h, _, h1⟩ := writeItems_head l
  rw [h]
  rcases h1 with rfl | rfl <;> rfl

theorem ends_members (l : List (List UInt8 × Json)) (r : List UInt8) :
    ends (writeMembers l ++ r) = true := by
  obtain ⟨c, r', h, _, h1⟩ := writeMembers_head l
  rw [h]
  rcases h1 with rfl | rfl <;> rfl

/-- What `value`, `items` and `members` do with enough fuel. -/
def Back (fuel : Nat) : Prop :=
  (∀ j r, ends r = true → 2 * (write j).length ≤ fuel → value fuel (write j ++ r) = some (j, r)) ∧
  (∀ x l r, 2 * (write x ++ writeItems l).length ≤ fuel →
    items fuel (write x ++ writeItems l ++ r) = some (x :: l, r)) ∧
  (∀ k x l r, 2 * (writeStr k ++ 0x3A :: (write x ++ writeMembers l)).length ≤ fuel →
    members fuel (writeStr k ++ 0x3A :: (write x ++ writeMembers l) ++ r) = some ((k, x) :: l, r))

theorem value_back {f : Nat} (ih : Back f) (j : Json) (r : List UInt8) (hr : ends r = true)
    (hf : 2 * (write j).length ≤ f + 1) : value (f + 1) (write j ++ r) = some (j, r) := by
  rw [value, skip_write]
  match j with
  | .null => simp only [write]; rfl
  | .bool true => simp only [write]; rfl
  | .bool false => simp only [write]; rfl
  | .num n =>
    obtain ⟨c, l, h1, h2⟩ := writeInt_head n
    have hi := integer_write n r hr
    simp only [write]
    rw [h1] at hi ⊢
    simp only [List.cons_append] at hi ⊢
    have hne : ∀ d : UInt8, isDigit d = false → d ≠ 0x2D → c ≠ d := by
      intro d h3 h4 h5
      subst h5
      rcases h2 with h2 | h2
      · rw [h2] at h3; cases h3
      · exact h4 h2
    simp only [hne 0x6E rfl (by decide), hne 0x74 rfl (by decide), hne 0x66 rfl (by decide),
      hne 0x22 rfl (by decide), hne 0x5B rfl (by decide), hne 0x7B rfl (by decide), if_false, hi, hr, if_true]
  | .str s =>
    simp only [write, writeStr, List.length_cons] at hf
    have h := chars_write s r f (by omega)
    simp only [write, writeStr, List.cons_append]
    rw [h]
    rfl
  | .arr [] => simp only [write]; rfl
  | .arr (x :: l) =>
    simp only [write, List.length_cons, List.length_append] at hf
    have h := ih.2.1 x l r (by simp only [List.length_append]; omega)
    obtain ⟨c, t, h1, h2, h3, _⟩ := write_head x
    have hs : skip (write x ++ writeItems l ++ r) = c :: (t ++ writeItems l ++ r) := by
      rw [h1]; simp [skip, h2]
    simp only [write, List.cons_append]
    rw [hs, h]
    simp only [h3, if_false]
    rfl
  | .obj [] => simp only [write]; rfl
  | .obj ((k, x) :: l) =>
    simp only [write, List.length_cons, List.length_append] at hf
    have h := ih.2.2 k x l r (by simp only [List.length_append, List.length_cons]; omega)
    have hs : skip (writeStr k ++ 0x3A :: (write x ++ writeMembers l) ++ r) =
        writeStr k ++ 0x3A :: (write x ++ writeMembers l) ++ r := by
      simp only [writeStr, List.cons_append]
      rw [skip, if_neg (by decide)]
    simp only [write, List.cons_append]
    rw [hs, h]
    simp only [writeStr, List.cons_append]
    rfl

theorem items_back {f : Nat} (ih : Back f) (x : Json) (l : List Json) (r : List UInt8)
    (hf : 2 * (write x ++ writeItems l).length ≤ f + 1) :
    items (f + 1) (write x ++ writeItems l ++ r) = some (x :: l, r) := by
  obtain ⟨c, t, h1, h2, h3⟩ := writeItems_head l
  have hl : (writeItems l).length = t.length + 1 := by rw [h1]; rfl
  rw [List.length_append] at hf
  rw [items, List.append_assoc, ih.1 x _ (ends_items l r) (by omega)]
  match l with
  | [] => simp only [writeItems]; rfl
  | y :: l =>
    simp only [writeItems, List.length_cons, List.length_append] at hf
    have h := ih.2.1 y l r (by simp only [List.length_append]; omega)
    simp only [writeItems, List.cons_append]
    rw [skip, if_neg (by decide)]
    simp only [h]
    rfl

theorem members_back {f : Nat} (ih : Back f) (k : List UInt8) (x : Json)
    (l : List (List UInt8 × Json)) (r : List UInt8)
    (hf : 2 * (writeStr k ++ 0x3A :: (write x ++ writeMembers l)).length ≤ f + 1) :
    members (f + 1) (writeStr k ++ 0x3A :: (write x ++ writeMembers l) ++ r) = some ((k, x) :: l, r) := by
  obtain ⟨c, t, h1, h2, h3⟩ := writeMembers_head l
  have hl : (writeMembers l).length = t.length + 1 := by rw [h1]; rfl
  rw [List.length_append, List.length_cons, List.length_append] at hf
  have hk : chars f (k.flatMap writeByte ++ [0x22] ++ 0x3A :: (write x ++ writeMembers l ++ r)) =
      some (k, 0x3A :: (write x ++ writeMembers l ++ r)) :=
    chars_write k _ f (by simp only [writeStr, List.length_cons] at hf; omega)
  have hv := ih.1 x _ (ends_members l r) (by omega)
  have e : writeStr k ++ 0x3A :: (write x ++ writeMembers l) ++ r =
      0x22 :: (k.flatMap writeByte ++ [0x22] ++ 0x3A :: (write x ++ writeMembers l ++ r)) := by
    simp [writeStr]
  rw [e, members, skip, if_neg (by decide)]
  simp only [if_true, hk]
  rw [skip, if_neg (by decide)]
  simp only [if_true]
  rw [List.append_assoc, hv]
  match l with
  | [] => simp only [writeMembers]; rfl
  | (k', y) :: l =>
    simp only [writeMembers, List.length_cons, List.length_append] at hf
    have h := ih.2.2 k' y l r (by simp only [List.length_append, List.length_cons]; omega)
    simp only [writeMembers, List.cons_append]
    rw [skip, if_neg (by decide)]
    simp only [h]
    rfl

theorem back (fuel : Nat) : Back fuel := by
  induction fuel with
  | zero =>
    refine ⟨fun j r _ hf => ?_, fun x l r hf => ?_, fun k x l r hf => ?_⟩
    · obtain ⟨c, l, h, _⟩ := write_head j
      rw [h, List.length_cons] at hf; omega
    · obtain ⟨c, t, h, _⟩ := write_head x
      rw [h, List.cons_append, List.length_cons] at hf; omega
    · rw [List.length_append, List.length_cons] at hf; omega
  | succ f ih => exact ⟨value_back ih, items_back ih, members_back ih⟩

theorem read_write (j : Json) : read (write j) = some j := by
  have h := (back (2 * (write j).length + 2)).1 j [] rfl (by omega)
  rw [List.append_nil] at h
  unfold Spec.Json.read
  rw [h]
  rfl

/-! ### Lines -/

theorem lines_append : ∀ (l r : List UInt8), 0x0A ∉ l → lines (l ++ 0x0A :: r) = l :: lines r := by
  intro l
  induction l with
  | nil => intro r _; simp [lines]
  | cons c l ih =>
    intro r h
    have hc : c ≠ 0x0A := fun e => h (by rw [e]; exact List.mem_cons_self)
    simp only [List.cons_append, lines, hc, if_false,
      ih r (fun hm => h (List.mem_cons_of_mem _ hm))]

theorem writeByte_clean (b : UInt8) : 0x0A ∉ writeByte b := by
  by_cases h5 : b = 0x0A
  · subst h5; decide
  by_cases h8 : b < 0x20
  · have hb : b.toNat < 32 := UInt8.lt_iff_toNat_lt.1 h8
    have : ∀ n : Fin 32, 0x0A ∉ writeByte (UInt8.ofNat n) := by decide
    have h := this ⟨b.toNat, hb⟩
    simpa using h
  · unfold writeByte
    repeat' split
    all_goals first | exact absurd ‹b < 0x20› h8 | decide | skip
    exact fun h => h5 (List.mem_singleton.1 h).symm

theorem writeStr_clean (s : List UInt8) : 0x0A ∉ writeStr s := by
  unfold writeStr
  simp only [List.mem_cons, List.mem_append, List.mem_flatMap, List.not_mem_nil, or_false, not_or,
    not_exists, not_and]
  exact ⟨by decide, fun b _ => writeByte_clean b, by decide⟩

theorem writeInt_clean (n : Int) : 0x0A ∉ writeInt n := by
  have h : ∀ fuel m, m < fuel → 0x0A ∉ digits fuel m := by
    intro fuel m hm hc
    have := (digits_spec fuel m hm).1 _ hc
    revert this
    decide
  cases n with
  | ofNat n => exact h _ _ (by omega)
  | negSucc n =>
    simp only [writeInt, List.mem_cons, not_or]
    exact ⟨by decide, h _ _ (by omega)⟩

mutual
theorem write_clean (j : Json) : 0x0A ∉ write j := by
  match j with
  | .null => rw [write]; decide
  | .bool true => rw [write]; decide
  | .bool false => rw [write]; decide
  | .num n => rw [write]; exact writeInt_clean n
  | .str s => rw [write]; exact writeStr_clean s
  | .arr [] => rw [write]; decide
  | .arr (x :: l) =>
    rw [write]
    simp only [List.mem_cons, List.mem_append, not_or]
    exact ⟨by decide, write_clean x, writeItems_clean l⟩
  | .obj [] => rw [write]; decide
  | .obj ((k, x) :: l) =>
    rw [write]
    simp only [List.mem_cons, List.mem_append, not_or]
    exact ⟨by decide, writeStr_clean k, by decide, write_clean x, writeMembers_clean l⟩

theorem writeItems_clean (l : List Json) : 0x0A ∉ writeItems l := by
  match l with
  | [] => rw [writeItems]; decide
  | x :: l =>
    rw [writeItems]
    simp only [List.mem_cons, List.mem_append, not_or]
    exact ⟨by decide, write_clean x, writeItems_clean l⟩

theorem writeMembers_clean (l : List (List UInt8 × Json)) : 0x0A ∉ writeMembers l := by
  match l with
  | [] => rw [writeMembers]; decide
  | (k, x) :: l =>
    rw [writeMembers]
    simp only [List.mem_cons, List.mem_append, not_or]
    exact ⟨by decide, writeStr_clean k, by decide, write_clean x, writeMembers_clean l⟩
end

theorem documents_jsonl (docs : List Json) : documents (jsonl docs) = docs.map some := by
  induction docs with
  | nil => rfl
  | cons d docs ih =>
    have e : jsonl (d :: docs) = write d ++ 0x0A :: jsonl docs := by simp [jsonl]
    rw [documents, e, lines_append _ _ (write_clean d), List.map_cons, read_write]
    rw [documents] at ih
    rw [ih]
    rfl

/-! ### Encoding -/

theorem _root_.Mirakc.Spec.Json.Utf8.append {l r : List UInt8} (hl : Utf8 l) (hr : Utf8 r) : Utf8 (l ++ r) := by
  induction hl with
  | nil => exact hr
  | one h _ ih => exact .one h ih
  | two h1 h2 h3 _ ih => exact .two h1 h2 h3 ih
  | three h1 h2 h3 h4 h5 h6 _ ih => exact .three h1 h2 h3 h4 h5 h6 ih
  | four h1 h2 h3 h4 h5 h6 h7 _ ih => exact .four h1 h2 h3 h4 h5 h6 h7 ih

theorem utf8_ascii : ∀ l : List UInt8, (∀ b ∈ l, b.toNat ≤ 0x7F) → Utf8 l := by
  intro l
  induction l with
  | nil => intro _; exact .nil
  | cons b l ih =>
    intro h
    exact .one (h b List.mem_cons_self) (ih fun x hx => h x (List.mem_cons_of_mem _ hx))

theorem writeByte_high {b : UInt8} (h : 0x80 ≤ b.toNat) : writeByte b = [b] := by
  have hne : ∀ c : UInt8, c.toNat < 0x80 → b ≠ c := by intro c hc e; subst e; omega
  have hlt : ¬ b < 0x20 := by
    rw [UInt8.lt_iff_toNat_lt]
    have : (0x20 : UInt8).toNat = 32 := rfl
    omega
  simp only [writeByte, hne 0x22 (by decide), hne 0x5C (by decide), hne 0x08 (by decide),
    hne 0x09 (by decide), hne 0x0A (by decide), hne 0x0C (by decide), hne 0x0D (by decide), hlt, if_false]

theorem writeByte_low {b : UInt8} (h : b.toNat ≤ 0x7F) : Utf8 (writeByte b) := by
  have hh : ∀ n : Fin 16, (hexDigit n).toNat ≤ 0x7F := by decide
  refine utf8_ascii _ fun c hc => ?_
  unfold writeByte at hc
  split at hc
  · revert c; decide
  split at hc
  · revert c; decide
  split at hc
  · revert c; decide
  split at hc
  · revert c; decide
  split at hc
  · revert c; decide
  split at hc
  · revert c; decide
  split at hc
  · revert c; decide
  split at hc
  · next hb =>
    have hb : b.toNat < 32 := UInt8.lt_iff_toNat_lt.1 hb
    simp only [List.mem_cons, List.not_mem_nil, or_false] at hc
    rcases hc with rfl | rfl | rfl | rfl | rfl | rfl
    · decide
    · decide
    · decide
    · decide
    · exact hh ⟨b.toNat / 16, by omega⟩
    · exact hh ⟨b.toNat % 16, by omega⟩
  · rw [List.mem_singleton] at hc
    subst hc
    exact h

theorem utf8_chars {s : List UInt8} (h : Utf8 s) : Utf8 (s.flatMap writeByte) := by
  induction h with
  | nil => exact .nil
  | one h _ ih =>
    rw [List.flatMap_cons]
    exact (writeByte_low h).append ih
  | two h1 h2 h3 _ ih =>
    rw [List.flatMap_cons, List.flatMap_cons, writeByte_high (by omega), writeByte_high h3.1]
    exact .two h1 h2 h3 ih
  | three h1 h2 h3 h4 h5 h6 _ ih =>
    rw [List.flatMap_cons, List.flatMap_cons, List.flatMap_cons, writeByte_high (by omega),
      writeByte_high h3.1, writeByte_high h4.1]
    exact .three h1 h2 h3 h4 h5 h6 ih
  | four h1 h2 h3 h4 h5 h6 h7 _ ih =>
    rw [List.flatMap_cons, List.flatMap_cons, List.flatMap_cons, List.flatMap_cons,
      writeByte_high (by omega), writeByte_high h3.1, writeByte_high h4.1, writeByte_high h5.1]
    exact .four h1 h2 h3 h4 h5 h6 h7 ih

theorem utf8_str {s r : List UInt8} (h : Utf8 s) (hr : Utf8 r) : Utf8 (writeStr s ++ r) := by
  unfold writeStr
  rw [List.cons_append, List.append_assoc]
  exact .one (by decide) ((utf8_chars h).append (.one (by decide) hr))

theorem utf8_int (n : Int) : Utf8 (writeInt n) := by
  have h : ∀ fuel m, m < fuel → Utf8 (digits fuel m) := by
    intro fuel m hm
    refine utf8_ascii _ fun c hc => ?_
    have := (isDigit_iff c).1 ((digits_spec fuel m hm).1 c hc)
    omega
  cases n with
  | ofNat n => exact h _ _ (by omega)
  | negSucc n => exact .one (by decide) (h _ _ (by omega))

mutual
theorem utf8_write (j : Json) (h : Text j) : Utf8 (write j) := by
  match j with
  | .null => rw [write]; exact utf8_ascii _ (by decide)
  | .bool true => rw [write]; exact utf8_ascii _ (by decide)
  | .bool false => rw [write]; exact utf8_ascii _ (by decide)
  | .num n => rw [write]; exact utf8_int n
  | .str s =>
    rw [write]
    rw [Text] at h
    have := utf8_str h .nil
    rwa [List.append_nil] at this
  | .arr [] => rw [write]; exact utf8_ascii _ (by decide)
  | .arr (x :: l) =>
    rw [write]
    rw [Text, TextItems] at h
    exact .one (by decide) ((utf8_write x h.1).append (utf8_items l h.2))
  | .obj [] => rw [write]; exact utf8_ascii _ (by decide)
  | .obj ((k, x) :: l) =>
    rw [write]
    rw [Text, TextMembers] at h
    exact .one (by decide) (utf8_str h.1 (.one (by decide)
      ((utf8_write x h.2.1).append (utf8_members l h.2.2))))

theorem utf8_items (l : List Json) (h : TextItems l) : Utf8 (writeItems l) := by
  match l with
  | [] => rw [writeItems]; exact utf8_ascii _ (by decide)
  | x :: l =>
    rw [writeItems]
    rw [TextItems] at h
    exact .one (by decide) ((utf8_write x h.1).append (utf8_items l h.2))

theorem utf8_members (l : List (List UInt8 × Json)) (h : TextMembers l) : Utf8 (writeMembers l) := by
  match l with
  | [] => rw [writeMembers]; exact utf8_ascii _ (by decide)
  | (k, x) :: l =>
    rw [writeMembers]
    rw [TextMembers] at h
    exact .one (by decide) (utf8_str h.1 (.one (by decide)
      ((utf8_write x h.2.1).append (utf8_members l h.2.2))))
end

theorem utf8_jsonl (docs : List Json) (h : ∀ d ∈ docs, Text d) : Utf8 (jsonl docs) := by
  induction docs with
  | nil => exact .nil
  | cons d docs ih =>
    have e : jsonl (d :: docs) = write d ++ 0x0A :: jsonl docs := by simp [jsonl]
    rw [e]
    exact (utf8_write d (h d List.mem_cons_self)).append
      (.one (by decide) (ih fun x hx => h x (List.mem_cons_of_mem _ hx)))

end Mirakc.Json
