import Verif.Spec.PesText
import Verif.Proof.PesTables
import Verif.Proof.Pcr
/-
Proofs about the text of print-pes.
-/
namespace Mirakc.PesPrinter
open Mirakc.Spec Mirakc.Spec.PesText

/-! ### Numbers -/

/-- All characters are digits of the base. -/
def Digits (b : Nat) (ds : List Char) : Prop := ∀ c ∈ ds, digit c < b

/-- What follows a number. -/
def Ends (b : Nat) (r : List Char) : Prop := ∀ c t, r = c :: t → ¬ digit c < b

theorem number_digits {b w : Nat} {ds r : List Char} (h : Digits b ds) (hr : Ends b r) (h1 : ds ≠ [])
    (hw : w ≤ ds.length) :
    number b w (ds ++ r) = some (ds.foldl (fun n c => b * n + digit c) 0, r) := by
  have ht : (ds ++ r).takeWhile (fun c => decide (digit c < b)) = ds := by
    rw [List.takeWhile_append_of_pos (fun c hc => decide_eq_true (h c hc))]
    cases r with
    | nil => simp
    | cons c t => simp [hr c t rfl]
  have hd : (ds ++ r).dropWhile (fun c => decide (digit c < b)) = r := by
    rw [List.dropWhile_append_of_pos (fun c hc => decide_eq_true (h c hc))]
    cases r with
    | nil => simp
    | cons c t => simp [hr c t rfl]
  unfold number
  simp only [ht, hd]
  rw [if_neg]
  rintro (h | h)
  · exact h1 h
  · omega

theorem digits_append {b : Nat} {l m : List Char} (h1 : Digits b l) (h2 : Digits b m) : Digits b (l ++ m) := by
  intro c hc
  rcases List.mem_append.1 hc with hc | hc
  · exact h1 c hc
  · exact h2 c hc

theorem digits_zeros (b n : Nat) (hb : 0 < b) : Digits b (List.replicate n '0') := by
  intro c hc
  rw [List.eq_of_mem_replicate hc]
  exact hb

theorem fold_zeros (b n : Nat) (l : List Char) :
    (List.replicate n '0' ++ l).foldl (fun n c => b * n + digit c) 0 = l.foldl (fun n c => b * n + digit c) 0 := by
  induction n with
  | zero => simp
  | succ n ih =>
    rw [List.replicate_succ, List.cons_append, List.foldl_cons]
    have : digit '0' = 0 := rfl
    rw [this, Nat.mul_zero, Nat.zero_add]
    exact ih

/-- The digits of a number, each mapped. -/
theorem toDigits_spec {b : Nat} (f : Char → Char) (hb : 1 < b) (hf : ∀ d, d < b → digit (f d.digitChar) = d) (n : Nat) :
    Digits b ((Nat.toDigits b n).map f) ∧ ((Nat.toDigits b n).map f).foldl (fun n c => b * n + digit c) 0 = n ∧
      0 < ((Nat.toDigits b n).map f).length := by
  induction n using Nat.strongRecOn with
  | _ n ih =>
    by_cases hn : n < b
    · rw [Nat.toDigits_of_lt_base hn]
      refine ⟨?_, ?_, by simp⟩
      · intro c hc
        simp only [List.map_cons, List.map_nil, List.mem_singleton] at hc
        rw [hc, hf n hn]; exact hn
      · simp [hf n hn]
    · have hn' : b ≤ n := by omega
      obtain ⟨h1, h2, h3⟩ := ih (n / b) (Nat.div_lt_self (by omega) hb)
      rw [Nat.toDigits_of_base_le hb hn', List.map_append]
      have hm : n % b < b := Nat.mod_lt _ (by omega)
      refine ⟨digits_append h1 ?_, ?_, by simp⟩
      · intro c hc
        simp only [List.map_cons, List.map_nil, List.mem_singleton] at hc
        rw [hc, hf _ hm]; exact hm
      · rw [List.foldl_append, h2]
        simp only [List.map_cons, List.map_nil, List.foldl_cons, List.foldl_nil]
        rw [hf _ hm]
        exact Nat.div_add_mod n b

theorem fmtHex_digits (w n : Nat) : Digits 16 (fmtHex w n) := by
  unfold fmtHex
  rw [List.leftpad]
  exact digits_append (digits_zeros _ _ (by decide)) (toDigits_spec Char.toUpper (by decide) (by decide) n).1

theorem fmtNat_digits (n : Nat) : Digits 10 (fmtNat n) := by
  have := (toDigits_spec (b := 10) id (by decide) (by decide) n).1
  simpa [fmtNat] using this

theorem fmtPadded_digits (w n : Nat) : Digits 10 (fmtPadded w n) := by
  unfold fmtPadded
  rw [List.leftpad]
  exact digits_append (digits_zeros _ _ (by decide)) (fmtNat_digits n)

theorem number_hex {w w' : Nat} (n : Nat) {r : List Char} (hw : w' ≤ w) (hr : Ends 16 r) :
    number 16 w' (fmtHex w n ++ r) = some (n, r) := by
  obtain ⟨h1, h2, h3⟩ := toDigits_spec (b := 16) Char.toUpper (by decide) (by decide) n
  have hl : (fmtHex w n).length = max w ((Nat.toDigits 16 n).map Char.toUpper).length := by
    simp [fmtHex, List.leftpad]; omega
  rw [number_digits (fmtHex_digits w n) hr (by intro h; rw [h] at hl; simp at hl h3; omega) (by omega)]
  unfold fmtHex
  rw [List.leftpad, fold_zeros, h2]

theorem number_hex_end {w w' : Nat} (n : Nat) (hw : w' ≤ w) : number 16 w' (fmtHex w n) = some (n, []) := by
  have := number_hex (w := w) (w' := w') n (r := []) hw (by simp [Ends])
  simpa using this

theorem number_nat (n : Nat) {r : List Char} (hr : Ends 10 r) : dec (fmtNat n ++ r) = some (n, r) := by
  obtain ⟨h1, h2, h3⟩ := toDigits_spec (b := 10) id (by decide) (by decide) n
  simp only [List.map_id] at h1 h2 h3
  unfold dec
  rw [number_digits (ds := fmtNat n) h1 hr (by intro h; rw [fmtNat] at h; rw [h] at h3; simp at h3) h3]
  rw [fmtNat, h2]

theorem number_nat_end (n : Nat) : dec (fmtNat n) = some (n, []) := by
  have := number_nat n (r := []) (by simp [Ends])
  simpa using this

theorem number_padded {w w' : Nat} (n : Nat) {r : List Char} (hw : w' ≤ w) (hr : Ends 10 r) :
    number 10 w' (fmtPadded w n ++ r) = some (n, r) := by
  obtain ⟨h1, h2, h3⟩ := toDigits_spec (b := 10) id (by decide) (by decide) n
  simp only [List.map_id] at h1 h2 h3
  have hl : (fmtPadded w n).length = max w (Nat.toDigits 10 n).length := by
    simp [fmtPadded, List.leftpad]; omega
  rw [number_digits (fmtPadded_digits w n) hr (by intro h; rw [h] at hl; simp at hl h3; omega) (by omega)]
  unfold fmtPadded
  rw [List.leftpad, fold_zeros, h2]

theorem int_fmt (i : Int) {r : List Char} (hr : Ends 10 r) : int (fmtInt i ++ r) = some (i, r) := by
  cases i with
  | ofNat n =>
    have : after ['-'] (fmtInt (.ofNat n) ++ r) = none := by
      have hd := fmtNat_digits n
      show after ['-'] (fmtNat n ++ r) = none
      cases hf : fmtNat n with
      | nil =>
        have := (toDigits_spec (b := 10) id (by decide) (by decide) n).2.2
        rw [List.map_id, ← fmtNat, hf] at this
        simp at this
      | cons c t =>
        have hc := hd c (by rw [hf]; simp)
        have : c ≠ '-' := by rintro rfl; revert hc; decide
        simp [after, Ne.symm this]
    unfold int
    rw [this]
    show Option.map _ (dec (fmtNat n ++ r)) = _
    rw [number_nat n hr]
    rfl
  | negSucc n =>
    have : after ['-'] (fmtInt (.negSucc n) ++ r) = some (fmtNat (n + 1) ++ r) := by
      simp [fmtInt, after]
    unfold int
    rw [this]
    simp only [number_nat (n + 1) hr, Option.map_some, Option.some.injEq, Prod.mk.injEq, and_true]
    omega

/-! ### Words and columns -/

theorem after_append (w t : List Char) : after w (w ++ t) = some t := by
  induction w with
  | nil => cases t <;> rfl
  | cons c w ih => simp [after, ih]

theorem after_self (w : List Char) : after w w = some [] := by
  simpa using after_append w []

theorem column_append {n : Nat} {a t : List Char} (h : a.length = n) : column n (a ++ t) = some (a, t) := by
  unfold column
  subst h
  simp

theorem name_append {k r : List Char} (h : '#' ∉ k) : name (k ++ '#' :: r) = (k, '#' :: r) := by
  have h' : ∀ c ∈ k, decide (c ≠ '#') = true := by
    intro c hc; simp only [decide_eq_true_eq]; rintro rfl; exact h hc
  unfold name
  rw [List.takeWhile_append_of_pos h', List.dropWhile_append_of_pos h']
  simp

/-! ### Messages -/

theorem kind_text (k : Kind) : k.text = (kindName k).toList := by cases k <;> rfl

theorem label_text (k : Option Kind) : labelText k = streamName k := by
  cases k with
  | none => rfl
  | some k => cases k <;> rfl

theorem streamName_hash (k : Option Kind) : '#' ∉ streamName k := by
  cases k with
  | none => decide
  | some k => cases k <;> decide


theorem ends_cons {b : Nat} {c : Char} {r : List Char} (h : ¬ digit c < b) : Ends b (c :: r) := by
  rintro d t e
  cases e
  exact h

theorem done_nil : done [] = some () := rfl

theorem message_pat (v p : Nat) :
    message ("PAT: V#".toList ++ fmtNat v ++ " PID#".toList ++ fmtHex 4 p) = some (.pat v p) := by
  have : readPat ("PAT: V#".toList ++ fmtNat v ++ " PID#".toList ++ fmtHex 4 p) = some (.pat v p) := by
    have e1 : Ends 10 (" PID#".toList ++ fmtHex 4 p) := ends_cons (by decide)
    simp only [readPat, List.append_assoc, after_append, number_nat v e1, hex4, number_hex_end p (Nat.le_refl 4),
      done_nil, Option.bind_eq_bind, Option.bind_some, Option.pure_def]
  rw [message, this]
  rfl

theorem message_service (s p : Nat) :
    message ("  SID#".toList ++ fmtHex 4 s ++ " => PMT#".toList ++ fmtHex 4 p) = some (.service s p) := by
  have : readService ("  SID#".toList ++ fmtHex 4 s ++ " => PMT#".toList ++ fmtHex 4 p) = some (.service s p) := by
    have e1 : Ends 16 (" => PMT#".toList ++ fmtHex 4 p) := ends_cons (by decide)
    simp only [readService, List.append_assoc, after_append, hex4, number_hex s (Nat.le_refl 4) e1,
      number_hex_end p (Nat.le_refl 4), done_nil, Option.bind_eq_bind, Option.bind_some, Option.pure_def]
  rw [message, this]
  rfl

theorem message_cat (v : Nat) : message ("CAT: V#".toList ++ fmtNat v) = some (.cat v) := by
  have : readCat ("CAT: V#".toList ++ fmtNat v) = some (.cat v) := by
    simp only [readCat, after_append, number_nat_end v, done_nil, Option.bind_eq_bind, Option.bind_some,
      Option.pure_def]
  rw [message, this]
  rfl

theorem message_pmt (s p v : Nat) :
    message ("PMT: SID#".toList ++ fmtHex 4 s ++ " PCR#".toList ++ fmtHex 4 p ++ " V#".toList ++ fmtNat v) =
      some (.pmt s p v) := by
  have : readPmt ("PMT: SID#".toList ++ fmtHex 4 s ++ " PCR#".toList ++ fmtHex 4 p ++ " V#".toList ++ fmtNat v) =
      some (.pmt s p v) := by
    have e1 : Ends 16 (" PCR#".toList ++ (fmtHex 4 p ++ (" V#".toList ++ fmtNat v))) := ends_cons (by decide)
    have e2 : Ends 16 (" V#".toList ++ fmtNat v) := ends_cons (by decide)
    simp only [readPmt, List.append_assoc, after_append, hex4, number_hex s (Nat.le_refl 4) e1,
      number_hex p (Nat.le_refl 4) e2, number_nat_end v, done_nil, Option.bind_eq_bind, Option.bind_some,
      Option.pure_def]
  rw [message, this]
  rfl

theorem message_stream (p : Nat) (k : Kind) (ty : Nat) :
    message ("  PES#".toList ++ fmtHex 4 p ++ " => ".toList ++ k.text ++ "#".toList ++ fmtHex 2 ty) =
      some (.stream p (kindName k).toList ty) := by
  have : readStream ("  PES#".toList ++ fmtHex 4 p ++ " => ".toList ++ k.text ++ "#".toList ++ fmtHex 2 ty) =
      some (.stream p (kindName k).toList ty) := by
    have e1 : Ends 16 (" => ".toList ++ (k.text ++ ("#".toList ++ fmtHex 2 ty))) := ends_cons (by decide)
    have e2 : name (k.text ++ ("#".toList ++ fmtHex 2 ty)) = (k.text, "#".toList ++ fmtHex 2 ty) :=
      name_append (by cases k <;> decide)
    simp only [readStream, List.append_assoc, after_append, hex4, number_hex p (Nat.le_refl 4) e1, e2,
      number_hex_end ty (Nat.le_refl 2), done_nil, Option.bind_eq_bind, Option.bind_some, Option.pure_def]
    rw [kind_text]
  rw [message, this]
  rfl

theorem message_eit (s v : Nat) :
    message ("EIT p/f Actual: SID#".toList ++ fmtHex 4 s ++ " V#".toList ++ fmtNat v) = some (.eit s v) := by
  have : readEit ("EIT p/f Actual: SID#".toList ++ fmtHex 4 s ++ " V#".toList ++ fmtNat v) = some (.eit s v) := by
    have e1 : Ends 16 (" V#".toList ++ fmtNat v) := ends_cons (by decide)
    simp only [readEit, List.append_assoc, after_append, hex4, number_hex s (Nat.le_refl 4) e1,
      number_nat_end v, done_nil, Option.bind_eq_bind, Option.bind_some, Option.pure_def]
  rw [message, this]
  rfl

theorem message_event (n e : Nat) (a b : List Char) (m : Int) (ha : a.length = 23) (hb : b.length = 23) :
    message ("  Event[".toList ++ fmtNat n ++ "]: EID#".toList ++ fmtHex 4 e ++ " ".toList ++ a ++
      " - ".toList ++ b ++ " (".toList ++ fmtInt m ++ "m)".toList) = some (.event n e a b m) := by
  have : readEvent ("  Event[".toList ++ fmtNat n ++ "]: EID#".toList ++ fmtHex 4 e ++ " ".toList ++ a ++
      " - ".toList ++ b ++ " (".toList ++ fmtInt m ++ "m)".toList) = some (.event n e a b m) := by
    have e1 : Ends 10 ("]: EID#".toList ++ (fmtHex 4 e ++ (" ".toList ++ (a ++
      (" - ".toList ++ (b ++ (" (".toList ++ (fmtInt m ++ "m)".toList)))))))) := ends_cons (by decide)
    have e2 : Ends 16 (" ".toList ++ (a ++
      (" - ".toList ++ (b ++ (" (".toList ++ (fmtInt m ++ "m)".toList)))))) := ends_cons (by decide)
    have e3 : Ends 10 "m)".toList := ends_cons (by decide)
    simp only [readEvent, List.append_assoc, after_append, hex4, number_nat n e1, number_hex e (Nat.le_refl 4) e2,
      column_append ha, column_append hb, int_fmt m e3, after_self, done_nil, Option.bind_eq_bind,
      Option.bind_some, Option.pure_def]
  rw [message, this]
  rfl

theorem message_pcr (p : Nat) : message ("PCR#".toList ++ fmtHex 4 p) = some (.pcr p) := by
  have : readPcr ("PCR#".toList ++ fmtHex 4 p) = some (.pcr p) := by
    simp only [readPcr, after_append, hex4, number_hex_end p (Nat.le_refl 4), done_nil, Option.bind_eq_bind,
      Option.bind_some, Option.pure_def]
  rw [message, this]
  rfl

theorem stamp_text (word : List Char) (what : List Char → Nat → What) (k : Option Kind) (p : Nat)
    (hw : Ends 16 word) :
    readStamp word what (labelText k ++ "#".toList ++ fmtHex 4 p ++ word) = some (what (streamName k) p) := by
  have e2 : name (labelText k ++ ("#".toList ++ (fmtHex 4 p ++ word))) =
      (labelText k, "#".toList ++ (fmtHex 4 p ++ word)) :=
    name_append (by rw [label_text]; exact streamName_hash k)
  simp only [readStamp, List.append_assoc, after_append, hex4, number_hex p (Nat.le_refl 4) hw, e2,
    after_self, done_nil, Option.bind_eq_bind, Option.bind_some, Option.pure_def]
  rw [label_text]

theorem message_pts (k : Option Kind) (p : Nat) :
    message (labelText k ++ "#".toList ++ fmtHex 4 p ++ " PTS".toList) = some (.pts (streamName k) p) := by
  have := stamp_text " PTS".toList .pts k p (ends_cons (by decide))
  rw [message, this]
  cases k with
  | none => rfl
  | some k => cases k <;> rfl

theorem message_dts (k : Option Kind) (p : Nat) :
    message (labelText k ++ "#".toList ++ fmtHex 4 p ++ " DTS".toList) = some (.dts (streamName k) p) := by
  have := stamp_text " DTS".toList .dts k p (ends_cons (by decide))
  have no : readStamp " PTS".toList .pts (labelText k ++ "#".toList ++ fmtHex 4 p ++ " DTS".toList) = none := by
    have e1 : Ends 16 " DTS".toList := ends_cons (by decide)
    have e2 : name (labelText k ++ ("#".toList ++ (fmtHex 4 p ++ " DTS".toList))) =
        (labelText k, "#".toList ++ (fmtHex 4 p ++ " DTS".toList)) :=
      name_append (by rw [label_text]; exact streamName_hash k)
    simp only [readStamp, List.append_assoc, after_append, hex4, number_hex p (Nat.le_refl 4) e1, e2,
      Option.bind_eq_bind, Option.bind_some, Option.pure_def]
    rfl
  rw [message, this, no]
  cases k with
  | none => rfl
  | some k => cases k <;> rfl

theorem message_text {time : Int → List Char} (hf : TimeText time) (label : Option Kind) (m : Msg) :
    message (m.text time label) = some (whatOf time label m) := by
  cases m with
  | pat v p => exact message_pat v p
  | service s p => exact message_service s p
  | cat v => exact message_cat v
  | pmt s p v => exact message_pmt s p v
  | stream p k ty => exact message_stream p k ty
  | eit s v => exact message_eit s v
  | event n e a b m => exact message_event n e _ _ m (hf a).1 (hf b).1
  | tot => rfl
  | pcr p => exact message_pcr p
  | pts p => exact message_pts label p
  | dts p => exact message_dts label p

/-! ### Lines -/

theorem digits_newline {b : Nat} {l : List Char} (hb : b ≤ 16) (h : Digits b l) : '\n' ∉ l := by
  intro hm
  have := h _ hm
  have e : digit '\n' = 16 := by decide
  omega

theorem fmtInt_newline (i : Int) : '\n' ∉ fmtInt i := by
  cases i with
  | ofNat n => exact digits_newline (by decide) (fmtNat_digits n)
  | negSucc n =>
    intro h
    rcases List.mem_cons.1 h with h | h
    · revert h; decide
    · exact digits_newline (by decide) (fmtNat_digits _) h

theorem kind_newline (k : Kind) : '\n' ∉ k.text := by cases k <;> decide

theorem label_newline (k : Option Kind) : '\n' ∉ labelText k := by
  cases k with
  | none => decide
  | some k => exact kind_newline k

theorem hex_newline (w n : Nat) : '\n' ∉ fmtHex w n := digits_newline (by decide) (fmtHex_digits w n)

theorem nat_newline (n : Nat) : '\n' ∉ fmtNat n := digits_newline (by decide) (fmtNat_digits n)

theorem append_newline {l m : List Char} (h1 : '\n' ∉ l) (h2 : '\n' ∉ m) : '\n' ∉ l ++ m := by
  simp [h1, h2]

theorem msg_newline {time : Int → List Char} (hf : TimeText time) (label : Option Kind) (m : Msg) :
    '\n' ∉ m.text time label := by
  have ht : ∀ t, '\n' ∉ time t := fun t => (hf t).2.1
  cases m
  case tot => exact (by decide : '\n' ∉ "TOT".toList)
  all_goals
    unfold Msg.text
    repeat' first
      | apply hex_newline
      | apply nat_newline
      | apply fmtInt_newline
      | apply ht
      | apply kind_newline
      | apply label_newline
      | apply append_newline
      | decide

theorem pcr_text {p : Int} (h : isValidPcr p = true) :
    ∃ base ext : Nat, pcrText p = fmtPadded 10 base ++ "+".toList ++ fmtPadded 3 ext ∧ p = 300 * base + ext ∧
      ext < 300 ∧ (pcrText p).length = 14 := by
  have h' := (isValidPcr_iff p).1 h
  have e1 : (p.tdiv maxPcrExt).toNat = p.toNat / 300 := by
    rw [Int.tdiv_eq_ediv_of_nonneg h'.1]; simp [maxPcrExt]; omega
  have e2 : (p.tmod maxPcrExt).toNat = p.toNat % 300 := by
    rw [tmod_nonneg_eq _ _ h'.1]; simp [maxPcrExt]; omega
  refine ⟨p.toNat / 300, p.toNat % 300, ?_, by omega, by omega, ?_⟩
  · unfold pcrText
    simp only [formatPcr, h, assert_true, ok_bind, e1, e2]
    simp
  · unfold pcrText
    rw [formatPcr_eq p h]
    simp [fixedDigits_length]

theorem clock_text {p : Int} (h : isValidPcr p = true) :
    ∃ base ext : Nat, clock (pcrText p) = some (some (base, ext)) ∧ p = 300 * base + ext ∧ ext < 300 := by
  obtain ⟨base, ext, h1, h2, h3, h4⟩ := pcr_text h
  refine ⟨base, ext, ?_, h2, h3⟩
  have e1 : Ends 10 ("+".toList ++ fmtPadded 3 ext) := ends_cons (by decide)
  have hb : blank (fmtPadded 10 base ++ ("+".toList ++ fmtPadded 3 ext)) = false := by
    unfold blank
    simp
  have e2 : number 10 3 (fmtPadded 3 ext) = some (ext, []) := by
    have := number_padded (w := 3) ext (r := []) (Nat.le_refl 3) (by simp [Ends])
    simpa using this
  rw [h1]
  unfold clock
  simp only [List.append_assoc, hb, Bool.false_eq_true, if_false, number_padded base (Nat.le_refl 10) e1,
    after_append, e2, done_nil, Option.bind_eq_bind, Option.bind_some, Option.pure_def]

theorem pcr_newline (p : Int) : '\n' ∉ pcrText p := by
  unfold pcrText
  split
  · next s hs =>
    unfold formatPcr at hs
    obtain ⟨_, _, hs⟩ := bind_eq_ok hs
    cases hs
    have hn : ∀ w n, '\n' ∉ fmtPadded w n := fun w n => digits_newline (by decide) (fmtPadded_digits w n)
    simp [hn]
  · simp

/-- The text of a line without the newline. -/
theorem line_parts (time : Int → List Char) (l : PLine) :
    l.text time = ((l.time.map time).getD (List.replicate 23 ' ') ++ "|".toList ++
      (l.pcr.map pcrText).getD (List.replicate 14 ' ') ++ "|".toList ++ l.msg.text time l.label) ++ ['\n'] := by
  unfold PLine.text
  cases l.time <;> cases l.pcr <;> simp <;> rfl

theorem row_text {time : Int → List Char} (hf : TimeText time) (l : PLine)
    (hv : ∀ p, l.pcr = some p → isValidPcr p = true) :
    ∃ r, row ((l.time.map time).getD (List.replicate 23 ' ') ++ "|".toList ++
      (l.pcr.map pcrText).getD (List.replicate 14 ' ') ++ "|".toList ++ l.msg.text time l.label) = some r ∧
      Shows time l r := by
  have h1 : ((l.time.map time).getD (List.replicate 23 ' ')).length = 23 := by
    cases l.time with
    | none => rfl
    | some t => exact (hf t).1
  have h2 : ((l.pcr.map pcrText).getD (List.replicate 14 ' ')).length = 14 := by
    cases hp : l.pcr with
    | none => rfl
    | some p => exact (pcr_text (hv p hp)).choose_spec.choose_spec.2.2.2
  have h3 : (if blank ((l.time.map time).getD (List.replicate 23 ' ')) then none
      else some ((l.time.map time).getD (List.replicate 23 ' '))) = l.time.map time := by
    cases l.time with
    | none => rfl
    | some t => simp [(hf t).2.2]
  have h4 : ∃ c, clock ((l.pcr.map pcrText).getD (List.replicate 14 ' ')) = some c ∧
      match l.pcr, c with
      | none, none => True
      | some pcr, some (base, ext) => pcr = 300 * base + ext ∧ ext < 300
      | _, _ => False := by
    cases hp : l.pcr with
    | none => exact ⟨none, rfl, trivial⟩
    | some p =>
      obtain ⟨base, ext, k1, k2, k3⟩ := clock_text (hv p hp)
      exact ⟨_, k1, k2, k3⟩
  obtain ⟨c, hc1, hc2⟩ := h4
  refine ⟨⟨l.time.map time, c, whatOf time l.label l.msg⟩, ?_, rfl, rfl, hc2⟩
  simp only [row, List.append_assoc, column_append h1, column_append h2, after_append, hc1, message_text hf,
    Option.bind_eq_bind, Option.bind_some, Option.pure_def, h3]

theorem lines_line {l r : List Char} (h : '\n' ∉ l) : lines (l ++ ['\n'] ++ r) = (lines r).map (l :: ·) := by
  induction l with
  | nil => simp [lines]
  | cons c l ih =>
    have hc : c ≠ '\n' := by rintro rfl; exact h (by simp)
    have ih := ih fun hm => h (by simp [hm])
    simp only [List.cons_append, lines, hc, if_false]
    rw [ih]
    cases lines r <;> rfl

theorem line_newline {time : Int → List Char} (hf : TimeText time) (l : PLine) :
    '\n' ∉ (l.time.map time).getD (List.replicate 23 ' ') ++ "|".toList ++
      (l.pcr.map pcrText).getD (List.replicate 14 ' ') ++ "|".toList ++ l.msg.text time l.label := by
  have h1 : '\n' ∉ (l.time.map time).getD (List.replicate 23 ' ') := by
    cases l.time with
    | none => show '\n' ∉ List.replicate 23 ' '; decide
    | some t => exact (hf t).2.1
  have h2 : '\n' ∉ (l.pcr.map pcrText).getD (List.replicate 14 ' ') := by
    cases l.pcr with
    | none => decide
    | some p => exact pcr_newline p
  have h3 := msg_newline hf l.label l.msg
  have h4 : '\n' ∉ "|".toList := by decide
  simp only [List.mem_append, h1, h2, h3, h4, or_self, not_false_iff]

theorem read_text {time : Int → List Char} (hf : TimeText time) (ls : List PLine)
    (hv : ∀ l ∈ ls, ∀ p, l.pcr = some p → isValidPcr p = true) :
    ∃ rs, PesText.read (ls.flatMap (·.text time)) = some rs ∧ EventsJson.Pairwise₂ (Shows time) ls rs := by
  induction ls with
  | nil => exact ⟨[], rfl, .nil⟩
  | cons l ls ih =>
    obtain ⟨rs, h1, h2⟩ := ih fun l hl => hv l (List.mem_cons_of_mem _ hl)
    obtain ⟨r, h3, h4⟩ := row_text hf l (hv l (List.mem_cons_self ..))
    refine ⟨r :: rs, ?_, .cons h4 h2⟩
    unfold PesText.read at h1 ⊢
    rw [List.flatMap_cons, line_parts, lines_line (line_newline hf l)]
    cases hl : lines (ls.flatMap (·.text time)) with
    | none => rw [hl] at h1; cases h1
    | some ts =>
      rw [hl] at h1
      simp only [Option.bind_some] at h1
      simp only [Option.map_some, Option.bind_some, List.mapM_cons, h3, h1, Option.bind_eq_bind, Option.pure_def]

/-! ### The lines printed -/

open Mirakc.Spec.PesPrinter

theorem handleStamp_inRange {s s' : St} {p : Nat} {v : Option Int} {m : Msg} (he : handleStamp s p v m = .ok s') :
    ∃ ls, s'.out = s.out ++ ls ∧ ∀ ln ∈ ls, ∀ x, ln.pcr = some x → isValidPcr x = true := by
  unfold handleStamp at he
  split at he
  · cases he; exact ⟨[], by simp, by simp⟩
  · obtain ⟨_, hv, he⟩ := bind_eq_ok he
    have hv := assert_ok hv
    split at he
    · rw [printPcr_ok hv] at he
      cases he
      exact ⟨_, rfl, by simpa using hv⟩
    · rw [printPcr_ok hv] at he
      cases he
      exact ⟨_, rfl, by simpa using hv⟩

theorem handlePcr_inRange {s s' : St} {p : Packet} (he : handlePcr s p = .ok s') :
    ∃ ls, s'.out = s.out ++ ls ∧ ∀ ln ∈ ls, ∀ x, ln.pcr = some x → isValidPcr x = true := by
  unfold handlePcr at he
  split at he
  · cases he; exact ⟨[], by simp, by simp⟩
  · split at he
    · cases he; exact ⟨[], by simp, by simp⟩
    · obtain ⟨_, _, he⟩ := bind_eq_ok he
      have hv := printPcr_valid he
      rw [printPcr_ok hv] at he
      cases he
      exact ⟨_, rfl, by simpa using hv⟩

theorem text_quiet (l : List Table) (t : Table) : ∀ ln ∈ text l t, ln.pcr = none := by
  intro ln hl
  unfold text at hl
  split at hl
  · rcases List.mem_cons.1 hl with rfl | hl
    · rfl
    · obtain ⟨_, _, rfl⟩ := List.mem_map.1 hl; rfl
  · simp only [List.mem_singleton] at hl; subst hl; rfl
  · rcases List.mem_cons.1 hl with rfl | hl
    · rfl
    · obtain ⟨_, _, rfl⟩ := List.mem_map.1 hl; rfl
  · split at hl
    · rcases List.mem_cons.1 hl with rfl | hl
      · rfl
      · obtain ⟨n, h, rfl⟩ := List.mem_mapIdx.1 hl; rfl
    · cases hl
  · simp only [List.mem_singleton] at hl; subst hl; rfl
  · cases hl

theorem texts_quiet (ts : List Table) : ∀ l, ∀ ln ∈ texts l ts, ln.pcr = none := by
  induction ts with
  | nil => intro l ln hl; cases hl
  | cons t ts ih =>
    intro l ln hl
    rcases List.mem_append.1 hl with hl | hl
    · exact text_quiet l t ln hl
    · exact ih _ ln hl

theorem step_inRange {s s' : St} {l : List Table} {i : Input} {d : Did} {more : Bool} (hw : Words s l)
    (h : step s i = .ok (s', d, more)) : ∀ ln ∈ d.lines, ∀ x, ln.pcr = some x → isValidPcr x = true := by
  unfold step at h
  obtain ⟨s1, h1, h⟩ := bind_eq_ok h
  obtain ⟨s2, h2, h⟩ := bind_eq_ok h
  obtain ⟨s3, h3, h⟩ := bind_eq_ok h
  obtain ⟨⟨s4, log⟩, h4, h⟩ := bind_eq_ok h
  simp only [Except.ok.injEq, Prod.mk.injEq] at h
  obtain ⟨rfl, rfl, rfl⟩ := h
  have w3 := (handleStamp_words (handleStamp_words (handlePcr_words hw h1).1 (by simp) h2).1 (by simp) h3).1
  obtain ⟨l1, o1, k1⟩ := handlePcr_inRange h1
  obtain ⟨l2, o2, k2⟩ := handleStamp_inRange h2
  obtain ⟨l3, o3, k3⟩ := handleStamp_inRange h3
  have := feedDemux_inv (watched := St.demux) (handle := handleTable) (pid := i.packet.pid)
    (fun s rs => Words s (l ++ rs) ∧ s.out = s3.out ++ texts l rs)
    (by
      rintro a t b rs ⟨j1, j2⟩ _ _ he
      obtain ⟨j3, j4⟩ := handleTable_words j1 he
      exact ⟨by simpa using j3, by rw [j4, j2, texts_snoc]; simp⟩)
    i.tables s3 s4 log [] ⟨by simpa using w3, by simp [texts]⟩ h4
  have e : s4.out.drop s.out.length = l1 ++ l2 ++ l3 ++ texts l log := by
    rw [this.2, o3, o2, o1]
    simp
  intro ln hl x hx
  have hl : ln ∈ s4.out.drop s.out.length := hl
  rw [e] at hl
  simp only [List.mem_append] at hl
  rcases hl with ((hl | hl) | hl) | hl
  · exact k1 ln hl x hx
  · exact k2 ln hl x hx
  · exact k3 ln hl x hx
  · rw [texts_quiet _ _ ln hl] at hx; cases hx

/-- Every clock printed is in range. -/
theorem lines_inRange {items : List (Line Input Did)} {s : St} (h : Reach step {} items s) :
    ∀ ln ∈ items.flatMap (·.did.lines), ∀ x, ln.pcr = some x → isValidPcr x = true := by
  induction h with
  | nil => intro ln hl; cases hl
  | @snoc items s i s' a more h1 h2 h3 ih =>
    intro ln hl
    rw [List.flatMap_append] at hl
    rcases List.mem_append.1 hl with hl | hl
    · exact ih ln hl
    · simp only [List.flatMap_cons, List.flatMap_nil, List.append_nil] at hl
      exact step_inRange (reach_words h1) h3 ln hl

end Mirakc.PesPrinter
