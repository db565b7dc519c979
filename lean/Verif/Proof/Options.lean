import Verif.Model.Options
import Verif.Spec.Options
import Verif.Proof.Basic
/-
Lemmas on option parsing.
-/
set_option linter.unusedSimpArgs false
namespace Mirakc.Options
open Mirakc.Spec.Options

@[simp] theorem ok_bind {α β : Type} (a : α) (f : α → Except Refusal β) :
    ((Except.ok a : Except Refusal α) >>= f) = f a := rfl

@[simp] theorem error_bind {α β : Type} (e : Refusal) (f : α → Except Refusal β) :
    ((Except.error e : Except Refusal α) >>= f) = .error e := rfl

theorem isDigit_iff (c : Char) : isDigit c = true ↔ Digit c := by
  simp [isDigit, Digit]

theorem isSpace_iff (c : Char) : isSpace c = true ↔ Blank c := by
  have key : ∀ d : Char, (c == d) = true ↔ c.toNat = d.toNat := by
    intro d
    rw [beq_iff_eq]
    constructor
    · rintro rfl; rfl
    · intro h; exact Char.toNat_inj.1 h
  simp only [isSpace, Bool.or_eq_true, key, Blank]
  have e1 : (' ' : Char).toNat = 32 := rfl
  have e2 : ('\t' : Char).toNat = 9 := rfl
  have e3 : ('\n' : Char).toNat = 10 := rfl
  have e4 : ('\x0b' : Char).toNat = 11 := rfl
  have e5 : ('\x0c' : Char).toNat = 12 := rfl
  have e6 : ('\r' : Char).toNat = 13 := rfl
  rw [e1, e2, e3, e4, e5, e6]
  omega

theorem foldl_decimal (ds : List Char) (n : Nat) :
    ds.foldl (fun n c => n * 10 + (c.toNat - 48)) n = n * 10 ^ ds.length + decimal ds := by
  induction ds generalizing n with
  | nil => simp [decimal]
  | cons c cs ih =>
    rw [List.foldl_cons, ih]
    simp only [decimal, List.length_cons, Nat.pow_succ, Nat.add_mul]
    rw [Nat.mul_assoc, Nat.mul_comm 10]
    omega

theorem takeWhile_split {p : Char → Bool} {a b : List Char} (h1 : ∀ c ∈ a, p c = true)
    (h2 : ∀ c, b.head? = some c → p c = false) :
    (a ++ b).takeWhile p = a ∧ (a ++ b).dropWhile p = b := by
  induction a with
  | nil =>
    cases b with
    | nil => simp
    | cons c b => simp [h2 c rfl]
  | cons x a ih =>
    have hx := h1 x (by simp)
    have := ih (fun c hc => h1 c (by simp [hc]))
    simp [hx, this.1, this.2]

theorem dropWhile_head {p : Char → Bool} (l : List Char) :
    ∀ c, (l.dropWhile p).head? = some c → p c = false := by
  induction l with
  | nil => simp
  | cons x l ih =>
    intro c hc
    rw [List.dropWhile_cons] at hc
    split at hc
    · exact ih c hc
    · rename_i h
      simp at hc; subst hc; simpa using h

theorem takeWhile_all {p : Char → Bool} (l : List Char) : ∀ c ∈ l.takeWhile p, p c = true := by
  induction l with
  | nil => simp
  | cons x l ih =>
    intro c hc
    rw [List.takeWhile_cons] at hc
    split at hc
    · rename_i h
      rcases List.mem_cons.1 hc with rfl | hc
      · exact h
      · exact ih c hc
    · simp at hc

theorem digit_ne {c : Char} (h : Digit c) : c ≠ '-' ∧ c ≠ '+' ∧ ¬ Blank c := by
  refine ⟨?_, ?_, ?_⟩
  · rintro rfl; revert h; unfold Digit; decide
  · rintro rfl; revert h; unfold Digit; decide
  · intro hb; unfold Digit at h; unfold Blank at hb; omega

theorem takeSign_other {r : List Char} (h : ∀ c, r.head? = some c → c ≠ '-' ∧ c ≠ '+') :
    takeSign r = (false, r) := by
  unfold takeSign
  split
  · exact absurd rfl (h '-' rfl).1
  · exact absurd rfl (h '+' rfl).2
  · rfl

theorem takeSign_sign {sg : List Char} {k : Int} (hs : Sign sg k) {r : List Char}
    (h : ∀ c, r.head? = some c → c ≠ '-' ∧ c ≠ '+') :
    takeSign (sg ++ r) = (decide (k = -1), r) := by
  cases hs with
  | none => simp [takeSign_other h]
  | plus => simp [takeSign]
  | minus => simp [takeSign]

theorem takeSign_cases (r : List Char) :
    ∃ sg k, Sign sg k ∧ r = sg ++ (takeSign r).2 ∧ (takeSign r).1 = decide (k = -1) := by
  unfold takeSign
  split
  · exact ⟨_, _, .minus, rfl, by simp⟩
  · exact ⟨_, _, .plus, rfl, by simp⟩
  · exact ⟨_, _, .none, rfl, by simp⟩

theorem sign_val {sg : List Char} {k : Int} (hs : Sign sg k) (v : Int) :
    (if decide (k = -1) = true then -v else v) = k * v := by
  cases hs <;> simp <;> omega

theorem strtol_of_reads {cs : List Char} {v : Int} {rest : List Char} (h : Reads cs v rest) :
    strtol cs = some (v, cs.length - rest.length) := by
  obtain ⟨ws, sg, ds, k, rfl, h1, h2, h3, h4, h5, rfl⟩ := h
  have hhead : ∀ c, (ds ++ rest).head? = some c → Digit c := by
    cases ds with
    | nil => exact absurd rfl h3
    | cons d ds => intro c hc; simp at hc; subst hc; exact h4 d (by simp)
  have hd : (ws ++ (sg ++ (ds ++ rest))).dropWhile isSpace = sg ++ (ds ++ rest) := by
    refine (takeWhile_split (fun c hc => (isSpace_iff c).2 (h1 c hc)) ?_).2
    intro c hc
    rw [Bool.eq_false_iff, ne_eq, isSpace_iff]
    cases h2 with
    | none => exact (digit_ne (hhead c hc)).2.2
    | plus => simp at hc; subst hc; unfold Blank; decide
    | minus => simp at hc; subst hc; unfold Blank; decide
  have hs := takeSign_sign h2 (r := ds ++ rest) (fun c hc => ⟨(digit_ne (hhead c hc)).1, (digit_ne (hhead c hc)).2.1⟩)
  have ht := takeWhile_split (a := ds) (b := rest) (p := isDigit) (fun c hc => (isDigit_iff c).2 (h4 c hc))
    (fun c hc => by rw [Bool.eq_false_iff, ne_eq, isDigit_iff]; exact h5 c hc)
  unfold strtol
  rw [List.append_assoc, List.append_assoc, hd]
  dsimp only
  rw [hs]
  dsimp only
  rw [ht.1, if_neg (by simp [h3]), foldl_decimal, Nat.zero_mul, Nat.zero_add, sign_val h2]
  congr 2
  simp only [List.length_append]
  omega

theorem reads_of_strtol {cs : List Char} {v : Int} {pos : Nat} (h : strtol cs = some (v, pos)) :
    ∃ rest, Reads cs v rest ∧ pos = cs.length - rest.length ∧ rest.length ≤ cs.length := by
  unfold strtol at h
  dsimp only at h
  obtain ⟨sg, k, hs, he, hk⟩ := takeSign_cases (cs.dropWhile isSpace)
  split at h
  · cases h
  · rename_i hne
    simp only [Option.some.injEq, Prod.mk.injEq] at h
    obtain ⟨rfl, rfl⟩ := h
    have hr : Reads cs (k * (decimal (((takeSign (cs.dropWhile isSpace)).2).takeWhile isDigit) : Nat))
        (((takeSign (cs.dropWhile isSpace)).2).dropWhile isDigit) := by
      refine ⟨cs.takeWhile isSpace, sg, ((takeSign (cs.dropWhile isSpace)).2).takeWhile isDigit, k, ?_,
        fun c hc => (isSpace_iff c).1 (takeWhile_all _ c hc), hs, by simpa using hne,
        fun c hc => (isDigit_iff c).1 (takeWhile_all _ c hc), fun c hc hd => ?_, rfl⟩
      · rw [List.append_assoc, List.append_assoc, List.takeWhile_append_dropWhile, ← he,
          List.takeWhile_append_dropWhile]
      · rw [← isDigit_iff, dropWhile_head _ c hc] at hd; cases hd
    refine ⟨_, by rw [hk, foldl_decimal, Nat.zero_mul, Nat.zero_add, sign_val hs]; exact hr, ?_, ?_⟩
    · have e1 := congrArg List.length (List.takeWhile_append_dropWhile (p := isSpace) (l := cs))
      have e2 := congrArg List.length he
      have e3 := congrArg List.length (List.takeWhile_append_dropWhile (p := isDigit)
        (l := (takeSign (cs.dropWhile isSpace)).2))
      simp only [List.length_append] at e1 e2 e3
      omega
    · obtain ⟨ws, sg', ds, k', e, _⟩ := hr
      have := congrArg List.length e
      simp only [List.length_append] at this
      omega

/-- The outcome of `stoi`. -/
theorem stoi_spec (s : List Char) :
    (∃ v rest, Reads s v rest ∧ Fits v ∧ stoi s = .ok (v, s.length - rest.length) ∧ rest.length ≤ s.length) ∨
    ((∀ v rest, Reads s v rest → ¬ Fits v) ∧ stoi s = .error .uncaught) := by
  cases h : strtol s with
  | none =>
    right
    refine ⟨fun v rest hr => ?_, by simp [stoi, h]⟩
    rw [strtol_of_reads hr] at h; cases h
  | some p =>
    obtain ⟨v, pos⟩ := p
    obtain ⟨rest, hr, hp, hl⟩ := reads_of_strtol h
    by_cases hf : Fits v
    · left
      refine ⟨v, rest, hr, hf, ?_, hl⟩
      unfold Fits at hf
      simp only [stoi, h]
      rw [if_neg (by simp only [Bool.or_eq_true, decide_eq_true_eq]; omega), hp]
    · right
      refine ⟨fun v' rest' hr' => ?_, ?_⟩
      · have := strtol_of_reads hr'
        rw [h] at this
        simp only [Option.some.injEq, Prod.mk.injEq] at this
        rw [← this.1]; exact hf
      · unfold Fits at hf
        simp only [stoi, h]
        rw [if_pos (by simp only [Bool.or_eq_true, decide_eq_true_eq]; omega)]

theorem reads_unique {s : List Char} {v w : Int} {r r' : List Char} (h1 : Reads s v r)
    (h2 : Reads s w r') : v = w ∧ r.length = r'.length := by
  have e1 := strtol_of_reads h1
  have e2 := strtol_of_reads h2
  have l1 : r.length ≤ s.length := by obtain ⟨_, _, _, _, e, _⟩ := h1; rw [e]; simp only [List.length_append]; omega
  have l2 : r'.length ≤ s.length := by obtain ⟨_, _, _, _, e, _⟩ := h2; rw [e]; simp only [List.length_append]; omega
  rw [e1] at e2
  simp only [Option.some.injEq, Prod.mk.injEq] at e2
  exact ⟨e2.1, by omega⟩

theorem addTags_spec (l : List (List Char)) (t0 : List Nat) :
    ((∀ s ∈ l, ∃ v, Denotes s v ∧ 0 ≤ v ∧ v < 256) ∧ ∃ t, addTags l t0 = .ok (t0 ++ t) ∧
      ∀ x, x ∈ t ↔ ∃ s ∈ l, Denotes s x) ∨
    ((∃ s ∈ l, ¬ ∃ v, Denotes s v ∧ 0 ≤ v ∧ v < 256) ∧ ∃ r, addTags l t0 = .error r) := by
  induction l generalizing t0 with
  | nil => left; exact ⟨by simp, [], by simp [addTags], by simp⟩
  | cons s l ih =>
    rcases stoi_spec s with ⟨v, rest, hr, hf, he, hl⟩ | ⟨hn, he⟩
    · simp only [addTags, he, ok_bind]
      cases rest with
      | cons c rest =>
        right
        refine ⟨⟨s, by simp, ?_⟩, .abort, ?_⟩
        · rintro ⟨w, hw, _⟩
          have := (reads_unique hr hw).2
          simp at this
        · rw [if_pos (by simp at hl ⊢; omega)]
      | nil =>
        simp only [List.length_nil, Nat.sub_zero, ne_eq, not_true_eq_false, if_false]
        by_cases hv : 0 ≤ v ∧ v < 256
        · rw [if_neg (by omega), if_neg (by omega)]
          rcases ih (t0 ++ [v.toNat]) with ⟨h1, t, h2, h3⟩ | ⟨⟨s', hs', h1⟩, h2⟩
          · left
            refine ⟨?_, [v.toNat] ++ t, by rw [h2, List.append_assoc], fun x => ?_⟩
            · intro s' hs'
              rcases List.mem_cons.1 hs' with rfl | hs'
              · exact ⟨v, hr, hv⟩
              · exact h1 s' hs'
            · rw [List.mem_append, h3]
              constructor
              · rintro (hx | ⟨s', hs', hx⟩)
                · simp at hx
                  refine ⟨s, by simp, ?_⟩
                  have : (x : Int) = v := by omega
                  rw [this]; exact hr
                · exact ⟨s', by simp [hs'], hx⟩
              · rintro ⟨s', hs', hx⟩
                rcases List.mem_cons.1 hs' with rfl | hs'
                · left
                  have := (reads_unique hr hx).1
                  simp; omega
                · exact .inr ⟨s', hs', hx⟩
          · right
            exact ⟨⟨s', by simp [hs'], h1⟩, h2⟩
        · right
          refine ⟨⟨s, by simp, ?_⟩, .abort, ?_⟩
          · rintro ⟨w, hw, hw'⟩
            have := (reads_unique hr hw).1
            omega
          · by_cases h0 : v < 0
            · rw [if_pos h0]
            · rw [if_neg h0, if_pos (by omega)]
    · right
      refine ⟨⟨s, by simp, ?_⟩, .uncaught, by simp [addTags, he]⟩
      rintro ⟨w, hw, hw'⟩
      exact hn w _ hw (by unfold Fits; omega)

theorem addSids_spec (l : List (List Char)) (t0 : List Nat) :
    ((∀ s ∈ l, ∃ v rest, Reads s v rest ∧ Fits v) ∧ ∃ t, addSids l t0 = .ok (t0 ++ t) ∧
      ∀ x, x ∈ t ↔ ∃ s ∈ l, ∃ v, Denotes s v ∧ (x : Int) = v % 65536) ∨
    ((∃ s ∈ l, ¬ ∃ v rest, Reads s v rest ∧ Fits v) ∧ addSids l t0 = .error .uncaught) := by
  induction l generalizing t0 with
  | nil => left; exact ⟨by simp, [], by simp [addSids], by simp⟩
  | cons s l ih =>
    rcases stoi_spec s with ⟨v, rest, hr, hf, he, hl⟩ | ⟨hn, he⟩
    · have hall : (∀ s' ∈ l, ∃ v rest, Reads s' v rest ∧ Fits v) →
          ∀ s' ∈ s :: l, ∃ v rest, Reads s' v rest ∧ Fits v := by
        intro h s' hs'
        rcases List.mem_cons.1 hs' with rfl | hs'
        · exact ⟨v, rest, hr, hf⟩
        · exact h s' hs'
      simp only [addSids, he, ok_bind]
      cases rest with
      | cons c rest =>
        rw [if_pos (by simp at hl ⊢; omega)]
        rcases ih t0 with ⟨h1, t, h2, h3⟩ | ⟨⟨s', hs', h1⟩, h2⟩
        · left
          refine ⟨hall h1, t, h2, fun x => ?_⟩
          rw [h3]
          constructor
          · rintro ⟨s', hs', w⟩; exact ⟨s', by simp [hs'], w⟩
          · rintro ⟨s', hs', w, hw, hx⟩
            rcases List.mem_cons.1 hs' with rfl | hs'
            · have := (reads_unique hr hw).2
              simp at this
            · exact ⟨s', hs', w, hw, hx⟩
        · right; exact ⟨⟨s', by simp [hs'], h1⟩, h2⟩
      | nil =>
        simp only [List.length_nil, Nat.sub_zero, ne_eq, not_true_eq_false, if_false]
        rcases ih (t0 ++ [(v % 65536).toNat]) with ⟨h1, t, h2, h3⟩ | ⟨⟨s', hs', h1⟩, h2⟩
        · left
          refine ⟨hall h1, [(v % 65536).toNat] ++ t, by rw [h2, List.append_assoc], fun x => ?_⟩
          rw [List.mem_append, h3]
          constructor
          · rintro (hx | ⟨s', hs', hx⟩)
            · simp at hx
              exact ⟨s, by simp, v, hr, by omega⟩
            · exact ⟨s', by simp [hs'], hx⟩
          · rintro ⟨s', hs', w, hw, hx⟩
            rcases List.mem_cons.1 hs' with rfl | hs'
            · left
              have := (reads_unique hr hw).1
              subst this
              simp; omega
            · exact .inr ⟨s', hs', w, hw, hx⟩
        · right; exact ⟨⟨s', by simp [hs'], h1⟩, h2⟩
    · right
      refine ⟨⟨s, by simp, ?_⟩, by simp [addSids, he]⟩
      rintro ⟨w, r, hw, hw'⟩
      exact hn w _ hw hw'

theorem bind_ok {α β : Type} {x : Except Refusal α} {f : α → Except Refusal β} {b : β} :
    (x >>= f) = .ok b ↔ ∃ a, x = .ok a ∧ f a = .ok b := by
  cases x with
  | error e => simp only [error_bind, reduceCtorEq, false_and, exists_false]
  | ok a => simp only [ok_bind, Except.ok.injEq, exists_eq_left']

theorem toJst_ok {t v : Int} (h : toJst t = .ok v) :
    unixToJst t = v ∧ -9223372036854775808 ≤ unixToJst t ∧ unixToJst t ≤ 9223372036854775807 := by
  unfold toJst at h
  split at h
  · rename_i k
    cases h
    simp only [Bool.and_eq_true, decide_eq_true_eq] at k
    exact ⟨rfl, k⟩
  · cases h

theorem toJst_iff {t : Int} : (∃ v, toJst t = .ok v) ↔ -2 ^ 63 ≤ t + 9 * 3600 * 1000 ∧ t + 9 * 3600 * 1000 < 2 ^ 63 := by
  constructor
  · rintro ⟨v, h⟩
    have := (toJst_ok h).2
    unfold unixToJst jstTzOffset at this
    omega
  · intro h
    refine ⟨unixToJst t, if_pos ?_⟩
    simp only [Bool.and_eq_true, decide_eq_true_eq]
    unfold unixToJst jstTzOffset
    omega

end Mirakc.Options
