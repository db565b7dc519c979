import Verif.Spec.Usage
import Verif.Proof.Cli
/-
Proofs about the usage: how often a name occurs in the command lines of a pattern.
-/
namespace Mirakc.Usage
open Mirakc.Cli (Value Args Reader)
open Mirakc.Spec.Cli (names Only NoHelp Switch Number MaybeNumber Words Word Given)
open Mirakc.Spec.Usage
open Mirakc.Main (Cmd World)

/-- The kind of a part (with a value or not) and its name. -/
def Leaf.tok : Leaf → Bool × String
  | .word n => (false, n)
  | .value n _ => (true, n)

/-- How often parts satisfying `g` occur at least … -/
def least (g : Bool × String → Bool) : Pat → Nat
  | .word n => if g (false, n) then 1 else 0
  | .value n => if g (true, n) then 1 else 0
  | .seq p q => least g p + least g q
  | .maybe _ => 0
  | .either p q => min (least g p) (least g q)
  | .many p => least g p

/-- … and at most. -/
def most (g : Bool × String → Bool) : Pat → Option Nat
  | .word n => some (if g (false, n) then 1 else 0)
  | .value n => some (if g (true, n) then 1 else 0)
  | .seq p q => match most g p, most g q with
    | some a, some b => some (a + b)
    | _, _ => none
  | .maybe p => most g p
  | .either p q => match most g p, most g q with
    | some a, some b => some (max a b)
    | _, _ => none
  | .many p => if most g p = some 0 then some 0 else none

variable {g : Bool × String → Bool}

theorem least_le : ∀ {p : Pat} {l : List Leaf}, Matches p l → least g p ≤ l.countP (g ∘ Leaf.tok) := by
  intro p
  induction p with
  | word n => rintro l rfl; by_cases e : g (false, n) <;> simp [least, Leaf.tok, e]
  | value n => rintro l ⟨v, rfl⟩; by_cases e : g (true, n) <;> simp [least, Leaf.tok, e]
  | seq p q hp hq =>
    rintro l ⟨a, b, rfl, h1, h2⟩
    have := hp h1
    have := hq h2
    simp only [least, List.countP_append]
    omega
  | maybe p hp => intro l _; exact Nat.zero_le _
  | either p q hp hq =>
    rintro l (h | h)
    · have := hp h; simp only [least]; omega
    · have := hq h; simp only [least]; omega
  | many p hp =>
    rintro l ⟨ls, hn, rfl, h⟩
    cases ls with
    | nil => exact absurd rfl hn
    | cons x xs =>
      have := hp (h x List.mem_cons_self)
      simp only [least, List.flatten_cons, List.countP_append]
      omega

theorem le_most : ∀ {p : Pat} {l : List Leaf} {k : Nat}, Matches p l → most g p = some k → l.countP (g ∘ Leaf.tok) ≤ k := by
  intro p
  induction p with
  | word n => rintro l k rfl h; cases h; by_cases e : g (false, n) <;> simp [Leaf.tok, e]
  | value n => rintro l k ⟨v, rfl⟩ h; cases h; by_cases e : g (true, n) <;> simp [Leaf.tok, e]
  | seq p q hp hq =>
    rintro l k ⟨a, b, rfl, h1, h2⟩ h
    simp only [most] at h
    split at h
    · next x y hx hy =>
      have := hp h1 hx
      have := hq h2 hy
      cases h
      simp only [List.countP_append]
      omega
    · cases h
  | maybe p hp =>
    rintro l k (rfl | h1) h
    · exact Nat.zero_le _
    · exact hp h1 h
  | either p q hp hq =>
    intro l k h1 h
    simp only [most] at h
    split at h
    · next x y hx hy =>
      cases h
      rcases h1 with h1 | h1
      · have := hp h1 hx; omega
      · have := hq h1 hy; omega
    · cases h
  | many p hp =>
    rintro l k ⟨ls, hn, rfl, h1⟩ h
    clear hn
    simp only [most] at h
    split at h
    · next h0 =>
      cases h
      induction ls with
      | nil => exact Nat.le_refl _
      | cons x xs ih =>
        have := hp (h1 x List.mem_cons_self) h0
        have := ih fun y hy => h1 y (List.mem_cons_of_mem _ hy)
        simp only [List.flatten_cons, List.countP_append]
        omega
    · cases h

/-- The command line is one of those of the pattern, up to the order. -/
def Of (p : Pat) (l : List Leaf) : Prop := ∃ l', Matches p l' ∧ l.Perm l'

theorem Of.least {p : Pat} {l : List Leaf} (h : Of p l) : least g p ≤ l.countP (g ∘ Leaf.tok) := by
  obtain ⟨l', h1, h2⟩ := h
  rw [h2.countP_eq]
  exact least_le h1

theorem Of.most {p : Pat} {l : List Leaf} {k : Nat} (h : Of p l) (hk : most g p = some k) : l.countP (g ∘ Leaf.tok) ≤ k := by
  obtain ⟨l', h1, h2⟩ := h
  rw [h2.countP_eq]
  exact le_most h1 hk

/-- The part with this kind and name. -/
def is (v : Bool) (n : String) (t : Bool × String) : Bool := t == (v, n)

theorem mem_count {x : Leaf} {l : List Leaf} (hx : x ∈ l) (hg : g x.tok = true) : 0 < l.countP (g ∘ Leaf.tok) :=
  List.countP_pos_iff.2 ⟨x, hx, hg⟩

theorem tok_word {n : String} {x : Leaf} (h : is false n x.tok = true) : x = .word n := by
  cases x with
  | word m => simp [is, Leaf.tok] at h; rw [h]
  | value m v => simp [is, Leaf.tok] at h

theorem tok_value {n : String} {x : Leaf} (h : is true n x.tok = true) : ∃ s, x = .value n s := by
  cases x with
  | word m => simp [is, Leaf.tok] at h
  | value m v => simp [is, Leaf.tok] at h; exact ⟨v, by rw [h]⟩

variable {p : Pat} {l : List Leaf} {n : String}

theorem Of.word_yes (h : Of p l) (hk : 1 ≤ Usage.least (is false n) p) : .word n ∈ l := by
  have := h.least (g := is false n)
  obtain ⟨x, hx, e⟩ := List.countP_pos_iff.1 (show 0 < l.countP (is false n ∘ Leaf.tok) by omega)
  rw [← tok_word e]
  exact hx

theorem Of.word_no (h : Of p l) (hk : Usage.most (is false n) p = some 0) : .word n ∉ l := by
  intro hx
  have := mem_count (g := is false n) hx (by simp [is, Leaf.tok])
  have := h.most hk
  omega

theorem Of.value_yes (h : Of p l) (hk : 1 ≤ Usage.least (is true n) p) : ∃ s, .value n s ∈ l := by
  have := h.least (g := is true n)
  obtain ⟨x, hx, e⟩ := List.countP_pos_iff.1 (show 0 < l.countP (is true n ∘ Leaf.tok) by omega)
  obtain ⟨s, rfl⟩ := tok_value e
  exact ⟨s, hx⟩

theorem Of.value_no (h : Of p l) (hk : Usage.most (is true n) p = some 0) (s : List Char) : .value n s ∉ l := by
  intro hx
  have := mem_count (g := is true n) hx (by simp [is, Leaf.tok])
  have := h.most hk
  omega

theorem valuesOf_eq (n : String) : ∀ l, valuesOf n l = given n l
  | [] => rfl
  | .word m :: l => by
    rw [given, ← valuesOf_eq n l]
    rfl
  | .value m s :: l => by
    rw [given, ← valuesOf_eq n l]
    unfold valuesOf
    rw [List.filterMap_cons]
    by_cases e : m = n <;> simp [e]

theorem mem_valuesOf {s : List Char} : s ∈ valuesOf n l ↔ .value n s ∈ l := by
  unfold valuesOf
  rw [List.mem_filterMap]
  constructor
  · rintro ⟨x, hx, e⟩
    cases x with
    | word m => cases e
    | value m v =>
      by_cases e' : m = n
      · simp only [e', if_true, Option.some.injEq] at e
        rw [← e, ← e']
        exact hx
      · simp only [e', if_false] at e
        cases e
  · intro h
    exact ⟨_, h, by simp⟩

theorem length_valuesOf (n : String) : ∀ l : List Leaf, (valuesOf n l).length = l.countP (is true n ∘ Leaf.tok)
  | [] => rfl
  | .word m :: l => by
    rw [List.countP_cons, ← length_valuesOf n l]
    simp [valuesOf, is, Leaf.tok]
  | .value m s :: l => by
    rw [List.countP_cons, ← length_valuesOf n l]
    unfold valuesOf
    rw [List.filterMap_cons]
    by_cases e : m = n <;> simp [e, is, Leaf.tok]

/-- An option given at most once has the value given. -/
theorem Of.value_one {s : List Char} (h : Of p l) (hk : Usage.most (is true n) p = some 1) (hs : .value n s ∈ l) :
    valuesOf n l = [s] := by
  have h1 := h.most hk
  rw [← length_valuesOf] at h1
  have h2 := mem_valuesOf.2 hs
  match hv : valuesOf n l with
  | [] => rw [hv] at h2; cases h2
  | [x] => rw [hv] at h2; rw [List.mem_singleton.1 h2]
  | x :: y :: r => rw [hv] at h1; simp at h1

theorem args_word (hk : kind n = some .word) (l : List Leaf) : args l n = some (.bool (decide (.word n ∈ l))) := by
  unfold args
  rw [hk]

theorem args_values (hk : kind n = some .values) (l : List Leaf) : Words (args l) n (some (given n l)) := by
  show args l n = _
  unfold args
  rw [hk, ← valuesOf_eq]

theorem args_none (hk : kind n = some .value) (h : ∀ s, .value n s ∉ l) : args l n = some .empty := by
  unfold args
  rw [hk]
  match hv : valuesOf n l with
  | [] => rfl
  | x :: y => exact absurd (mem_valuesOf.1 (by rw [hv]; exact List.mem_cons_self)) (h x)

theorem Of.args_some {s : List Char} (h : Of p l) (hk : kind n = some .value) (hm : Usage.most (is true n) p = some 1)
    (hs : .value n s ∈ l) : args l n = some (.str s) := by
  unfold args
  rw [hk, h.value_one hm hs]

theorem switch {b : Bool} (hk : kind n = some .word) (h : On l n b) : Switch (args l) n b := by
  show args l n = _
  rw [args_word hk]
  have : decide (.word n ∈ l) = b := by
    cases b with
    | true => exact decide_eq_true (h.1 rfl)
    | false => exact decide_eq_false fun h' => by cases h.2 h'
  rw [this]

variable {α : Type} {read : List Char → Option α}

theorem Of.one {v : α} (h : Of p l) (hk : kind n = some .value) (hm : Usage.most (is true n) p = some 1)
    (ho : One read l n v) : Number read (args l) n v := by
  obtain ⟨s, h1, h2⟩ := ho
  exact ⟨s, h.args_some hk hm h1, h2⟩

theorem Of.maybe {o : Option α} (h : Of p l) (hk : kind n = some .value) (hm : Usage.most (is true n) p = some 1)
    (ho : AtMost read l n o) : MaybeNumber read (args l) n o := by
  cases o with
  | none => exact args_none hk ho
  | some v => exact h.one hk hm ho

theorem names_word : ∀ x ∈ names, kind x = some .word := by decide +kernel

theorem Of.only {c : String} (h : Of p l) (hc : c ∈ names) (hl : .word c ∈ l)
    (hm : ∀ x ∈ names, x ≠ c → Usage.most (is false x) p = some 0) : Only (args l) c := by
  refine ⟨hc, fun x hx => ?_⟩
  rw [args_word (names_word x hx)]
  by_cases e : x = c
  · rw [e, decide_eq_true hl, decide_eq_true rfl]
  · rw [decide_eq_false (h.word_no (hm x hx e)), decide_eq_false e]

/-- The help is not asked for. -/
theorem noHelp (hr : Runs l) : NoHelp (args l) := by
  constructor
  · rw [args_word (by decide +kernel), decide_eq_false hr.1]
  · rw [args_word (by decide +kernel), decide_eq_false hr.2.1]

/-- Asks for help or the version. -/
def asks (t : Bool × String) : Bool := is false "-h" t || is false "--help" t || is false "--version" t

theorem asked (h : Of p l) (hr : Runs l) : least asks p = 0 := by
  apply Classical.byContradiction
  intro h0
  have := h.least (g := asks)
  obtain ⟨x, hx, e⟩ := List.countP_pos_iff.1 (show 0 < l.countP (asks ∘ Leaf.tok) by omega)
  simp only [asks, Function.comp, Bool.or_eq_true] at e
  rcases e with (e | e) | e
  · exact hr.1 (tok_word e ▸ hx)
  · exact hr.2.1 (tok_word e ▸ hx)
  · exact hr.2.2 (tok_word e ▸ hx)

theorem line {c : String} {q : Pat} (ha : Accepted l) (hr : Runs l) (hc : .word c ∈ l)
    (hq : usage.filter (fun p => decide (most (is false c) p ≠ some 0) && decide (least asks p = 0)) = [q]) : Of q l := by
  obtain ⟨p, hp, h⟩ := ha
  have h : Of p l := h
  have h1 : most (is false c) p ≠ some 0 := fun h0 => h.word_no h0 hc
  have h2 : least asks p = 0 := asked h hr
  have h3 : p ∈ usage.filter (fun p => decide (most (is false c) p ≠ some 0) && decide (least asks p = 0)) :=
    List.mem_filter.2 ⟨hp, by simp only [Bool.and_eq_true]; exact ⟨decide_eq_true h1, decide_eq_true h2⟩⟩
  rw [hq, List.mem_singleton] at h3
  rw [← h3]
  exact h

theorem line_scan (ha : Accepted l) (hr : Runs l) (hc : .word "scan-services" ∈ l) : Of scanServices l ∧ Only (args l) "scan-services" :=
  have h := line ha hr hc (q := scanServices) (by decide +kernel)
  ⟨h, h.only (by decide) hc (by decide +kernel)⟩

theorem line_sync (ha : Accepted l) (hr : Runs l) (hc : .word "sync-clocks" ∈ l) : Of syncClocks l ∧ Only (args l) "sync-clocks" :=
  have h := line ha hr hc (q := syncClocks) (by decide +kernel)
  ⟨h, h.only (by decide) hc (by decide +kernel)⟩

theorem line_eits (ha : Accepted l) (hr : Runs l) (hc : .word "collect-eits" ∈ l) : Of collectEits l ∧ Only (args l) "collect-eits" :=
  have h := line ha hr hc (q := collectEits) (by decide +kernel)
  ⟨h, h.only (by decide) hc (by decide +kernel)⟩

theorem line_eitpf (ha : Accepted l) (hr : Runs l) (hc : .word "collect-eitpf" ∈ l) : Of collectEitpf l ∧ Only (args l) "collect-eitpf" :=
  have h := line ha hr hc (q := collectEitpf) (by decide +kernel)
  ⟨h, h.only (by decide) hc (by decide +kernel)⟩

theorem line_logos (ha : Accepted l) (hr : Runs l) (hc : .word "collect-logos" ∈ l) : Of collectLogos l ∧ Only (args l) "collect-logos" :=
  have h := line ha hr hc (q := collectLogos) (by decide +kernel)
  ⟨h, h.only (by decide) hc (by decide +kernel)⟩

theorem line_service (ha : Accepted l) (hr : Runs l) (hc : .word "filter-service" ∈ l) : Of filterService l ∧ Only (args l) "filter-service" :=
  have h := line ha hr hc (q := filterService) (by decide +kernel)
  ⟨h, h.only (by decide) hc (by decide +kernel)⟩

theorem line_program (ha : Accepted l) (hr : Runs l) (hc : .word "filter-program" ∈ l) : Of filterProgram l ∧ Only (args l) "filter-program" :=
  have h := line ha hr hc (q := filterProgram) (by decide +kernel)
  ⟨h, h.only (by decide) hc (by decide +kernel)⟩

theorem line_metadata (ha : Accepted l) (hr : Runs l) (hc : .word "filter-program-metadata" ∈ l) : Of filterProgramMetadata l ∧ Only (args l) "filter-program-metadata" :=
  have h := line ha hr hc (q := filterProgramMetadata) (by decide +kernel)
  ⟨h, h.only (by decide) hc (by decide +kernel)⟩

theorem line_record (ha : Accepted l) (hr : Runs l) (hc : .word "record-service" ∈ l) : Of recordService l ∧ Only (args l) "record-service" :=
  have h := line ha hr hc (q := recordService) (by decide +kernel)
  ⟨h, h.only (by decide) hc (by decide +kernel)⟩

theorem line_airtime (ha : Accepted l) (hr : Runs l) (hc : .word "track-airtime" ∈ l) : Of trackAirtime l ∧ Only (args l) "track-airtime" :=
  have h := line ha hr hc (q := trackAirtime) (by decide +kernel)
  ⟨h, h.only (by decide) hc (by decide +kernel)⟩

theorem line_seek (ha : Accepted l) (hr : Runs l) (hc : .word "seek-start" ∈ l) : Of seekStart l ∧ Only (args l) "seek-start" :=
  have h := line ha hr hc (q := seekStart) (by decide +kernel)
  ⟨h, h.only (by decide) hc (by decide +kernel)⟩

theorem line_pes (ha : Accepted l) (hr : Runs l) (hc : .word "print-pes" ∈ l) : Of printPes l ∧ Only (args l) "print-pes" :=
  have h := line ha hr hc (q := printPes) (by decide +kernel)
  ⟨h, h.only (by decide) hc (by decide +kernel)⟩

/-- What is said is what docopt hands over. -/
theorem given_of_says {d : Reader} {cmd : Cmd} (ha : Accepted l) (hr : Runs l) (h : Says d l cmd) : Given d (args l) cmd := by
  cases cmd with
  | scanServices ss xs =>
    obtain ⟨h1, rfl, rfl⟩ := h
    exact ⟨(line_scan ha hr h1).2, args_values (by decide +kernel) l, args_values (by decide +kernel) l⟩
  | syncClocks ss xs =>
    obtain ⟨h1, rfl, rfl⟩ := h
    exact ⟨(line_sync ha hr h1).2, args_values (by decide +kernel) l, args_values (by decide +kernel) l⟩
  | collectEits ss xs limit st oa oo =>
    obtain ⟨h1, rfl, rfl, h2, h3, h4, h5⟩ := h
    obtain ⟨ho, hc⟩ := line_eits ha hr h1
    exact ⟨hc, args_values (by decide +kernel) l, args_values (by decide +kernel) l,
      ho.maybe (by decide +kernel) (by decide +kernel) h2, switch (by decide +kernel) h3, switch (by decide +kernel) h4,
      switch (by decide +kernel) h5, _, args_word (by decide +kernel) l⟩
  | collectEitpf ss st pr fo =>
    obtain ⟨h1, rfl, h3, h4, h5⟩ := h
    exact ⟨(line_eitpf ha hr h1).2, args_values (by decide +kernel) l,
      switch (by decide +kernel) h3, switch (by decide +kernel) h4, switch (by decide +kernel) h5⟩
  | collectLogos => exact (line_logos ha hr h).2
  | filterService sid =>
    obtain ⟨h1, v, rfl, h2⟩ := h
    obtain ⟨ho, hc⟩ := line_service ha hr h1
    exact ⟨hc, ho.one (by decide +kernel) (by decide +kernel) h2⟩
  | filterProgram o =>
    obtain ⟨h1, h2, h3, h4, h5, h6, h7, h8, h9, h10, h11, h12⟩ := h
    obtain ⟨ho, hc⟩ := line_program ha hr h1
    exact ⟨hc, ho.one (by decide +kernel) (by decide +kernel) h2, ho.one (by decide +kernel) (by decide +kernel) h3,
      ho.one (by decide +kernel) (by decide +kernel) h4, ho.one (by decide +kernel) (by decide +kernel) h5,
      ho.one (by decide +kernel) (by decide +kernel) h6, h7 ▸ args_values (by decide +kernel) l,
      h8 ▸ args_values (by decide +kernel) l, ho.maybe (by decide +kernel) (by decide +kernel) h9,
      ho.maybe (by decide +kernel) (by decide +kernel) h10, ho.maybe (by decide +kernel) (by decide +kernel) h11,
      switch (by decide +kernel) h12⟩
  | filterProgramMetadata sid =>
    obtain ⟨h1, h2⟩ := h
    obtain ⟨ho, hc⟩ := line_metadata ha hr h1
    exact ⟨hc, ho.maybe (by decide +kernel) (by decide +kernel) h2⟩
  | recordService sid chunk num pos =>
    obtain ⟨h1, h2, h3, h4, h5⟩ := h
    obtain ⟨ho, hc⟩ := line_record ha hr h1
    obtain ⟨f, hf⟩ := ho.value_yes (n := "--file") (by decide +kernel)
    exact ⟨hc, ho.one (by decide +kernel) (by decide +kernel) h2, ⟨f, ho.args_some (by decide +kernel) (by decide +kernel) hf⟩,
      ho.one (by decide +kernel) (by decide +kernel) h3, ho.one (by decide +kernel) (by decide +kernel) h4,
      ho.maybe (by decide +kernel) (by decide +kernel) h5⟩
  | trackAirtime sid eid =>
    obtain ⟨h1, h2, h3⟩ := h
    obtain ⟨ho, hc⟩ := line_airtime ha hr h1
    exact ⟨hc, ho.one (by decide +kernel) (by decide +kernel) h2, ho.one (by decide +kernel) (by decide +kernel) h3⟩
  | seekStart sid duration packets =>
    obtain ⟨h1, h2, h3, h4⟩ := h
    obtain ⟨ho, hc⟩ := line_seek ha hr h1
    exact ⟨hc, ho.one (by decide +kernel) (by decide +kernel) h2, ho.maybe (by decide +kernel) (by decide +kernel) h3,
      ho.maybe (by decide +kernel) (by decide +kernel) h4⟩
  | printPes => exact (line_pes ha hr h).2

/-- Whose values are read how. -/
theorem Of.number_one (h : Of p l) (hl : 1 ≤ Usage.least (is true n) p) (hr : ∀ s, .value n s ∈ l → (read s).isSome) :
    ∃ v, One read l n v := by
  obtain ⟨s, hs⟩ := h.value_yes hl
  obtain ⟨v, hv⟩ := Option.isSome_iff_exists.1 (hr s hs)
  exact ⟨v, s, hs, hv⟩

theorem number_maybe (hr : ∀ s, .value n s ∈ l → (read s).isSome) : ∃ o, AtMost read l n o := by
  by_cases h : ∃ s, .value n s ∈ l
  · obtain ⟨s, hs⟩ := h
    obtain ⟨v, hv⟩ := Option.isSome_iff_exists.1 (hr s hs)
    exact ⟨some v, s, hs, hv⟩
  · exact ⟨none, fun s hs => h ⟨s, hs⟩⟩

theorem on (l : List Leaf) (n : String) : ∃ b, On l n b := ⟨decide (Leaf.word n ∈ l), decide_eq_true_iff⟩

theorem Of.not_both {m : String} {a b : Bool} (h : Of p l) (hne : m ≠ n)
    (hk : Usage.most (fun t => is false n t || is false m t) p = some 1) (ha : On l n a) (hb : On l m b) :
    ¬ (a = true ∧ b = true) := by
  rintro ⟨h1, h2⟩
  have h1 := ha.1 h1
  have h2 := hb.1 h2
  have h3 := h.most hk
  obtain ⟨x, y, rfl⟩ := List.append_of_mem h1
  have h4 : Leaf.word m ∈ x ++ y := by
    rcases List.mem_append.1 h2 with h | h
    · exact List.mem_append_left _ h
    · rcases List.mem_cons.1 h with h | h
      · cases h; exact absurd rfl hne
      · exact List.mem_append_right _ h
  have h5 := mem_count (g := fun t => is false n t || is false m t) h4 (by simp [is, Leaf.tok])
  rw [List.countP_append] at h5
  rw [List.countP_append, List.countP_cons, if_pos (by simp [is, Leaf.tok])] at h3
  omega

/-- A command line with readable numbers says a command. -/
theorem says_of {d : Reader} (ha : Accepted l) (hr : Runs l) (hd : Readable d l) : ∃ cmd, Says d l cmd ∧ Legal cmd := by
  obtain ⟨p, hp, ho⟩ := ha
  have ho : Of p l := ho
  simp only [usage, List.mem_cons, List.not_mem_nil, or_false] at hp
  rcases hp with rfl | rfl | rfl | rfl | rfl | rfl | rfl | rfl | rfl | rfl | rfl | rfl | rfl | rfl
  · exact absurd (asked ho hr) (by decide +kernel)
  · exact absurd (asked ho hr) (by decide +kernel)
  · -- scan-services
    have hw := ho.word_yes (n := "scan-services") (by decide +kernel)
    exact ⟨.scanServices _ _, ⟨hw, rfl, rfl⟩, trivial⟩
  · -- sync-clocks
    have hw := ho.word_yes (n := "sync-clocks") (by decide +kernel)
    exact ⟨.syncClocks _ _, ⟨hw, rfl, rfl⟩, trivial⟩
  · -- collect-eits
    have hw := ho.word_yes (n := "collect-eits") (by decide +kernel)
    obtain ⟨v1, n1⟩ := number_maybe (l := l) (n := "--time-limit") (read := d.int64) fun s hs => (hd _ s hs).2.1 (by decide)
    obtain ⟨b1, o1⟩ := on l "--streaming"
    obtain ⟨b2, o2⟩ := on l "--only-actual"
    obtain ⟨b3, o3⟩ := on l "--only-others"
    exact ⟨.collectEits _ _ v1 b1 b2 b3, ⟨hw, rfl, rfl, n1, o1, o2, o3⟩, ho.not_both (by decide) (by decide +kernel) o2 o3⟩
  · -- collect-eitpf
    have hw := ho.word_yes (n := "collect-eitpf") (by decide +kernel)
    obtain ⟨b1, o1⟩ := on l "--streaming"
    obtain ⟨b2, o2⟩ := on l "--present"
    obtain ⟨b3, o3⟩ := on l "--following"
    exact ⟨.collectEitpf _ b1 b2 b3, ⟨hw, rfl, o1, o2, o3⟩, ho.not_both (by decide) (by decide +kernel) o2 o3⟩
  · -- collect-logos
    have hw := ho.word_yes (n := "collect-logos") (by decide +kernel)
    exact ⟨.collectLogos, hw, trivial⟩
  · -- filter-service
    have hw := ho.word_yes (n := "filter-service") (by decide +kernel)
    obtain ⟨v1, n1⟩ := ho.number_one (n := "--sid") (read := d.long) (by decide +kernel) fun s hs => (hd _ s hs).1 (by decide)
    exact ⟨.filterService (some v1), ⟨hw, v1, rfl, n1⟩, trivial⟩
  · -- filter-program
    have hw := ho.word_yes (n := "filter-program") (by decide +kernel)
    obtain ⟨v1, n1⟩ := ho.number_one (n := "--sid") (read := d.long) (by decide +kernel) fun s hs => (hd _ s hs).1 (by decide)
    obtain ⟨v2, n2⟩ := ho.number_one (n := "--eid") (read := d.long) (by decide +kernel) fun s hs => (hd _ s hs).1 (by decide)
    obtain ⟨v3, n3⟩ := ho.number_one (n := "--clock-pid") (read := d.long) (by decide +kernel) fun s hs => (hd _ s hs).1 (by decide)
    obtain ⟨v4, n4⟩ := ho.number_one (n := "--clock-pcr") (read := d.int64) (by decide +kernel) fun s hs => (hd _ s hs).2.1 (by decide)
    obtain ⟨v5, n5⟩ := ho.number_one (n := "--clock-time") (read := d.int64) (by decide +kernel) fun s hs => (hd _ s hs).2.1 (by decide)
    obtain ⟨v6, n6⟩ := number_maybe (l := l) (n := "--start-margin") (read := d.int64) fun s hs => (hd _ s hs).2.1 (by decide)
    obtain ⟨v7, n7⟩ := number_maybe (l := l) (n := "--end-margin") (read := d.int64) fun s hs => (hd _ s hs).2.1 (by decide)
    obtain ⟨v8, n8⟩ := number_maybe (l := l) (n := "--wait-until") (read := d.int64) fun s hs => (hd _ s hs).2.1 (by decide)
    obtain ⟨b1, o1⟩ := on l "--pre-streaming"
    exact ⟨.filterProgram
        { sid := v1, eid := v2, clockPid := v3, clockPcr := v4, clockTime := v5, audioTags := some (given "--audio-tags" l)
          videoTags := some (given "--video-tags" l), startMargin := v6, endMargin := v7, waitUntil := v8
          preStreaming := b1 },
      ⟨hw, n1, n2, n3, n4, n5, rfl, rfl, n6, n7, n8, o1⟩, trivial⟩
  · -- filter-program-metadata
    have hw := ho.word_yes (n := "filter-program-metadata") (by decide +kernel)
    obtain ⟨v1, n1⟩ := number_maybe (l := l) (n := "--sid") (read := d.long) fun s hs => (hd _ s hs).1 (by decide)
    exact ⟨.filterProgramMetadata v1, ⟨hw, n1⟩, trivial⟩
  · -- record-service
    have hw := ho.word_yes (n := "record-service") (by decide +kernel)
    obtain ⟨v1, n1⟩ := ho.number_one (n := "--sid") (read := d.long) (by decide +kernel) fun s hs => (hd _ s hs).1 (by decide)
    obtain ⟨v2, n2⟩ := ho.number_one (n := "--chunk-size") (read := d.long) (by decide +kernel) fun s hs => (hd _ s hs).1 (by decide)
    obtain ⟨v3, n3⟩ := ho.number_one (n := "--num-chunks") (read := d.long) (by decide +kernel) fun s hs => (hd _ s hs).1 (by decide)
    obtain ⟨v4, n4⟩ := number_maybe (l := l) (n := "--start-pos") (read := d.uint64) fun s hs => (hd _ s hs).2.2 (by decide)
    exact ⟨.recordService v1 v2 v3 v4, ⟨hw, n1, n2, n3, n4⟩, trivial⟩
  · -- track-airtime
    have hw := ho.word_yes (n := "track-airtime") (by decide +kernel)
    obtain ⟨v1, n1⟩ := ho.number_one (n := "--sid") (read := d.long) (by decide +kernel) fun s hs => (hd _ s hs).1 (by decide)
    obtain ⟨v2, n2⟩ := ho.number_one (n := "--eid") (read := d.long) (by decide +kernel) fun s hs => (hd _ s hs).1 (by decide)
    exact ⟨.trackAirtime v1 v2, ⟨hw, n1, n2⟩, trivial⟩
  · -- seek-start
    have hw := ho.word_yes (n := "seek-start") (by decide +kernel)
    obtain ⟨v1, n1⟩ := ho.number_one (n := "--sid") (read := d.long) (by decide +kernel) fun s hs => (hd _ s hs).1 (by decide)
    obtain ⟨v2, n2⟩ := number_maybe (l := l) (n := "--max-duration") (read := d.int64) fun s hs => (hd _ s hs).2.1 (by decide)
    obtain ⟨v3, n3⟩ := number_maybe (l := l) (n := "--max-packets") (read := d.long) fun s hs => (hd _ s hs).1 (by decide)
    exact ⟨.seekStart v1 v2 v3, ⟨hw, n1, n2, n3⟩, trivial⟩
  · -- print-pes
    have hw := ho.word_yes (n := "print-pes") (by decide +kernel)
    exact ⟨.printPes, hw, trivial⟩

/-- The command of a command line. -/
theorem only_of (ha : Accepted l) (hr : Runs l) : ∃ c, Only (args l) c := by
  obtain ⟨p, hp, ho⟩ := ha
  have ho : Of p l := ho
  simp only [usage, List.mem_cons, List.not_mem_nil, or_false] at hp
  rcases hp with rfl | rfl | rfl | rfl | rfl | rfl | rfl | rfl | rfl | rfl | rfl | rfl | rfl | rfl
  · exact absurd (asked ho hr) (by decide +kernel)
  · exact absurd (asked ho hr) (by decide +kernel)
  · exact ⟨"scan-services", ho.only (by decide) (ho.word_yes (by decide +kernel)) (by decide +kernel)⟩
  · exact ⟨"sync-clocks", ho.only (by decide) (ho.word_yes (by decide +kernel)) (by decide +kernel)⟩
  · exact ⟨"collect-eits", ho.only (by decide) (ho.word_yes (by decide +kernel)) (by decide +kernel)⟩
  · exact ⟨"collect-eitpf", ho.only (by decide) (ho.word_yes (by decide +kernel)) (by decide +kernel)⟩
  · exact ⟨"collect-logos", ho.only (by decide) (ho.word_yes (by decide +kernel)) (by decide +kernel)⟩
  · exact ⟨"filter-service", ho.only (by decide) (ho.word_yes (by decide +kernel)) (by decide +kernel)⟩
  · exact ⟨"filter-program", ho.only (by decide) (ho.word_yes (by decide +kernel)) (by decide +kernel)⟩
  · exact ⟨"filter-program-metadata", ho.only (by decide) (ho.word_yes (by decide +kernel)) (by decide +kernel)⟩
  · exact ⟨"record-service", ho.only (by decide) (ho.word_yes (by decide +kernel)) (by decide +kernel)⟩
  · exact ⟨"track-airtime", ho.only (by decide) (ho.word_yes (by decide +kernel)) (by decide +kernel)⟩
  · exact ⟨"seek-start", ho.only (by decide) (ho.word_yes (by decide +kernel)) (by decide +kernel)⟩
  · exact ⟨"print-pes", ho.only (by decide) (ho.word_yes (by decide +kernel)) (by decide +kernel)⟩

theorem word_of_only {c : String} (h : Only (args l) c) : .word c ∈ l := by
  have h1 := h.2 c h.1
  rw [args_word (names_word c h.1), decide_eq_true rfl] at h1
  simp only [Option.some.injEq, Value.bool.injEq] at h1
  exact of_decide_eq_true h1

/-- The value of the option, if there is one, is a number. -/
def Reads (read : List Char → Option α) (a : Args) (n : String) : Prop := ∃ o, MaybeNumber read a n o

/-- The option does not occur, or is read. -/
def Taken (p : Pat) (read : List Char → Option α) (a : Args) (n : String) : Prop :=
  most (is true n) p = some 0 ∨ (most (is true n) p = some 1 ∧ kind n = some .value ∧ Reads read a n)

theorem Of.taken {s : List Char} (h : Of p l) (ht : Taken p read (args l) n) (hs : .value n s ∈ l) : (read s).isSome := by
  rcases ht with h0 | ⟨h1, hk, o, ho⟩
  · exact absurd hs (h.value_no h0 s)
  · have ha := h.args_some hk h1 hs
    cases o with
    | none =>
      rw [show args l n = some .empty from ho] at ha
      cases ha
    | some v =>
      obtain ⟨s', h2, h3⟩ := ho
      rw [h2] at ha
      cases ha
      rw [h3]
      rfl

theorem Of.readable {d : Reader} (h : Of p l) (h1 : ∀ n ∈ longs, Taken p d.long (args l) n)
    (h2 : ∀ n ∈ ints, Taken p d.int64 (args l) n) (h3 : ∀ n ∈ unsigneds, Taken p d.uint64 (args l) n) : Readable d l :=
  fun n _ hs => ⟨fun hn => h.taken (h1 n hn) hs, fun hn => h.taken (h2 n hn) hs, fun hn => h.taken (h3 n hn) hs⟩

/-- If what docopt hands over can be read, all numbers are. -/
theorem readable_of {d : Reader} {cmd : Cmd} (ha : Accepted l) (hr : Runs l) (h : Given d (args l) cmd) : Readable d l := by
  have key : ∃ p, Of p l ∧ (∀ n ∈ longs, Taken p d.long (args l) n) ∧ (∀ n ∈ ints, Taken p d.int64 (args l) n) ∧
      ∀ n ∈ unsigneds, Taken p d.uint64 (args l) n := by
    simp only [longs, ints, unsigneds, List.forall_mem_cons]
    cases cmd with
    | scanServices ss xs =>
      obtain ⟨ho, h1, h2⟩ := h
      refine ⟨_, (line_scan ha hr (word_of_only ho)).1, ?_⟩
      refine ⟨⟨?_, ?_, ?_, ?_, ?_, ?_, by simp⟩, ⟨?_, ?_, ?_, ?_, ?_, ?_, ?_, by simp⟩, ?_, by simp⟩ <;>
        first | exact .inl (by decide +kernel) | exact .inr ⟨by decide +kernel, by decide +kernel, by assumption⟩
    | syncClocks ss xs =>
      obtain ⟨ho, h1, h2⟩ := h
      refine ⟨_, (line_sync ha hr (word_of_only ho)).1, ?_⟩
      refine ⟨⟨?_, ?_, ?_, ?_, ?_, ?_, by simp⟩, ⟨?_, ?_, ?_, ?_, ?_, ?_, ?_, by simp⟩, ?_, by simp⟩ <;>
        first | exact .inl (by decide +kernel) | exact .inr ⟨by decide +kernel, by decide +kernel, by assumption⟩
    | collectEits ss xs limit st oa oo =>
      obtain ⟨ho, _, _, h1, _⟩ := h
      refine ⟨_, (line_eits ha hr (word_of_only ho)).1, ?_⟩
      have r1 : Reads d.int64 (args l) "--time-limit" := ⟨_, h1⟩
      refine ⟨⟨?_, ?_, ?_, ?_, ?_, ?_, by simp⟩, ⟨?_, ?_, ?_, ?_, ?_, ?_, ?_, by simp⟩, ?_, by simp⟩ <;>
        first | exact .inl (by decide +kernel) | exact .inr ⟨by decide +kernel, by decide +kernel, by assumption⟩
    | collectEitpf ss st pr fo =>
      obtain ⟨ho, _⟩ := h
      refine ⟨_, (line_eitpf ha hr (word_of_only ho)).1, ?_⟩
      refine ⟨⟨?_, ?_, ?_, ?_, ?_, ?_, by simp⟩, ⟨?_, ?_, ?_, ?_, ?_, ?_, ?_, by simp⟩, ?_, by simp⟩ <;>
        first | exact .inl (by decide +kernel) | exact .inr ⟨by decide +kernel, by decide +kernel, by assumption⟩
    | collectLogos =>
      have ho := h
      refine ⟨_, (line_logos ha hr (word_of_only ho)).1, ?_⟩
      refine ⟨⟨?_, ?_, ?_, ?_, ?_, ?_, by simp⟩, ⟨?_, ?_, ?_, ?_, ?_, ?_, ?_, by simp⟩, ?_, by simp⟩ <;>
        first | exact .inl (by decide +kernel) | exact .inr ⟨by decide +kernel, by decide +kernel, by assumption⟩
    | filterService sid =>
      obtain ⟨ho, h1⟩ := h
      refine ⟨_, (line_service ha hr (word_of_only ho)).1, ?_⟩
      have r1 : Reads d.long (args l) "--sid" := ⟨_, h1⟩
      refine ⟨⟨?_, ?_, ?_, ?_, ?_, ?_, by simp⟩, ⟨?_, ?_, ?_, ?_, ?_, ?_, ?_, by simp⟩, ?_, by simp⟩ <;>
        first | exact .inl (by decide +kernel) | exact .inr ⟨by decide +kernel, by decide +kernel, by assumption⟩
    | filterProgram o =>
      obtain ⟨ho, h1, h2, h3, h4, h5, _, _, h6, h7, h8, _⟩ := h
      refine ⟨_, (line_program ha hr (word_of_only ho)).1, ?_⟩
      have r1 : Reads d.long (args l) "--sid" := ⟨some _, h1⟩
      have r2 : Reads d.long (args l) "--eid" := ⟨some _, h2⟩
      have r3 : Reads d.long (args l) "--clock-pid" := ⟨some _, h3⟩
      have r4 : Reads d.int64 (args l) "--clock-pcr" := ⟨some _, h4⟩
      have r5 : Reads d.int64 (args l) "--clock-time" := ⟨some _, h5⟩
      have r6 : Reads d.int64 (args l) "--start-margin" := ⟨_, h6⟩
      have r7 : Reads d.int64 (args l) "--end-margin" := ⟨_, h7⟩
      have r8 : Reads d.int64 (args l) "--wait-until" := ⟨_, h8⟩
      refine ⟨⟨?_, ?_, ?_, ?_, ?_, ?_, by simp⟩, ⟨?_, ?_, ?_, ?_, ?_, ?_, ?_, by simp⟩, ?_, by simp⟩ <;>
        first | exact .inl (by decide +kernel) | exact .inr ⟨by decide +kernel, by decide +kernel, by assumption⟩
    | filterProgramMetadata sid =>
      obtain ⟨ho, h1⟩ := h
      refine ⟨_, (line_metadata ha hr (word_of_only ho)).1, ?_⟩
      have r1 : Reads d.long (args l) "--sid" := ⟨_, h1⟩
      refine ⟨⟨?_, ?_, ?_, ?_, ?_, ?_, by simp⟩, ⟨?_, ?_, ?_, ?_, ?_, ?_, ?_, by simp⟩, ?_, by simp⟩ <;>
        first | exact .inl (by decide +kernel) | exact .inr ⟨by decide +kernel, by decide +kernel, by assumption⟩
    | recordService sid chunk num pos =>
      obtain ⟨ho, h1, _, h2, h3, h4⟩ := h
      refine ⟨_, (line_record ha hr (word_of_only ho)).1, ?_⟩
      have r1 : Reads d.long (args l) "--sid" := ⟨some _, h1⟩
      have r2 : Reads d.long (args l) "--chunk-size" := ⟨some _, h2⟩
      have r3 : Reads d.long (args l) "--num-chunks" := ⟨some _, h3⟩
      have r4 : Reads d.uint64 (args l) "--start-pos" := ⟨_, h4⟩
      refine ⟨⟨?_, ?_, ?_, ?_, ?_, ?_, by simp⟩, ⟨?_, ?_, ?_, ?_, ?_, ?_, ?_, by simp⟩, ?_, by simp⟩ <;>
        first | exact .inl (by decide +kernel) | exact .inr ⟨by decide +kernel, by decide +kernel, by assumption⟩
    | trackAirtime sid eid =>
      obtain ⟨ho, h1, h2⟩ := h
      refine ⟨_, (line_airtime ha hr (word_of_only ho)).1, ?_⟩
      have r1 : Reads d.long (args l) "--sid" := ⟨some _, h1⟩
      have r2 : Reads d.long (args l) "--eid" := ⟨some _, h2⟩
      refine ⟨⟨?_, ?_, ?_, ?_, ?_, ?_, by simp⟩, ⟨?_, ?_, ?_, ?_, ?_, ?_, ?_, by simp⟩, ?_, by simp⟩ <;>
        first | exact .inl (by decide +kernel) | exact .inr ⟨by decide +kernel, by decide +kernel, by assumption⟩
    | seekStart sid duration packets =>
      obtain ⟨ho, h1, h2, h3⟩ := h
      refine ⟨_, (line_seek ha hr (word_of_only ho)).1, ?_⟩
      have r1 : Reads d.long (args l) "--sid" := ⟨some _, h1⟩
      have r2 : Reads d.int64 (args l) "--max-duration" := ⟨_, h2⟩
      have r3 : Reads d.long (args l) "--max-packets" := ⟨_, h3⟩
      refine ⟨⟨?_, ?_, ?_, ?_, ?_, ?_, by simp⟩, ⟨?_, ?_, ?_, ?_, ?_, ?_, ?_, by simp⟩, ?_, by simp⟩ <;>
        first | exact .inl (by decide +kernel) | exact .inr ⟨by decide +kernel, by decide +kernel, by assumption⟩
    | printPes =>
      have ho := h
      refine ⟨_, (line_pes ha hr (word_of_only ho)).1, ?_⟩
      refine ⟨⟨?_, ?_, ?_, ?_, ?_, ?_, by simp⟩, ⟨?_, ?_, ?_, ?_, ?_, ?_, ?_, by simp⟩, ?_, by simp⟩ <;>
        first | exact .inl (by decide +kernel) | exact .inr ⟨by decide +kernel, by decide +kernel, by assumption⟩
  obtain ⟨p, ho, h1, h2, h3⟩ := key
  exact ho.readable h1 h2 h3

theorem supplied {w : World} (ha : Accepted l) (h : (∃ s, s ≠ [] ∧ .value "<file>" s ∈ l) ∨ w.opened = true) :
    Spec.Cli.Supplied (args l) w := by
  obtain ⟨p, hp, ho⟩ := ha
  have ho : Of p l := ho
  have hm : most (is true "<file>") p = some 0 ∨ most (is true "<file>") p = some 1 := by
    clear ho
    clear ho
    clear h
    revert p
    decide +kernel
  have hk : kind "<file>" = some .value := by decide +kernel
  have hs : ∀ s, .value "<file>" s ∈ l → args l "<file>" = some (.str s) := fun s hs =>
    hm.elim (fun h0 => absurd hs (ho.value_no h0 s)) fun h1 => ho.args_some hk h1 hs
  rcases h with ⟨s, h1, h2⟩ | h
  · exact .inl ⟨s, h1, hs s h2⟩
  · by_cases he : ∃ s, .value "<file>" s ∈ l
    · obtain ⟨s, h1⟩ := he
      by_cases e : s = []
      · exact .inr ⟨.inr (e ▸ hs s h1), h⟩
      · exact .inl ⟨s, e, hs s h1⟩
    · exact .inr ⟨.inl (args_none hk fun s h1 => he ⟨s, h1⟩), h⟩

theorem file_named (h : .value "--file" [] ∉ l) : args l "--file" ≠ some (.str []) := by
  unfold args
  rw [show kind "--file" = some .value by decide +kernel]
  dsimp only
  split
  · intro h'; cases h'
  · next v r e =>
    intro h'
    cases h'
    exact h (mem_valuesOf.1 (by rw [e]; exact List.mem_cons_self))

/-- A command line that asks for help names at most one command. -/
theorem help_of (ha : Accepted l) (hh : .word "-h" ∈ l ∨ .word "--help" ∈ l) : Of help l := by
  obtain ⟨p, hp, ho⟩ := ha
  have ho : Of p l := ho
  have hm : p = help ∨ (most (is false "-h") p = some 0 ∧ most (is false "--help") p = some 0) := by
    clear ho
    clear ho
    clear hh
    revert p
    decide +kernel
  rcases hm with rfl | ⟨h1, h2⟩
  · exact ho
  · rcases hh with h | h
    · exact absurd h (ho.word_no h1)
    · exact absurd h (ho.word_no h2)

theorem Of.not_two {m : String} (h : Of p l) (hne : m ≠ n)
    (hk : Usage.most (fun t => is false n t || is false m t) p = some 1) (h1 : .word n ∈ l) : .word m ∉ l :=
  fun h2 => h.not_both hne hk (a := true) (b := true) ⟨fun _ => h1, fun _ => rfl⟩ ⟨fun _ => h2, fun _ => rfl⟩ ⟨rfl, rfl⟩

end Mirakc.Usage
