import Verif.Proof.EitBits
/-
The progress classes of collect-eits: what their bitmaps mean.
-/
set_option linter.unusedSimpArgs false
namespace Mirakc.EitCollector
open Mirakc.Spec.EitCollector

/-! ### TableProgress -/

/-- The bitmaps have their sizes, and the flag is up to date. -/
structure Sized (p : TableProgress) : Prop where
  collected : p.collected.length = 32
  unused : p.unused.length = 32
  versions : p.versions.length = 256
  completed : p.completed = p.checkCompleted

theorem checkCompleted_iff {p : TableProgress} (h1 : p.collected.length = 32)
    (h2 : p.unused.length = 32) : p.checkCompleted = true ↔
      ∀ n < 256, bit p.collected n = true ∨ bit p.unused n = true := by
  unfold TableProgress.checkCompleted
  rw [List.all_eq_true]
  constructor
  · intro h n hn
    have hlt : n / 8 < (p.collected.zip p.unused).length := by simp [h1, h2]; omega
    have := h _ (List.getElem_mem hlt)
    rw [List.getElem_zip] at this
    simp only [beq_iff_eq] at this
    rw [eq_ff] at this
    have := this (n % 8) (by omega)
    rw [UInt8.toNat_or, Nat.testBit_or, Bool.or_eq_true] at this
    simp only [bit, List.getD_eq_getElem?_getD]
    rw [List.getElem?_eq_getElem (by omega), List.getElem?_eq_getElem (by omega)]
    exact this
  · intro h x hx
    obtain ⟨i, hi, rfl⟩ := List.getElem_of_mem hx
    have hi' : i < 32 := by simpa [h1, h2] using hi
    rw [List.getElem_zip]
    simp only [beq_iff_eq]
    rw [eq_ff]
    intro j hj
    have := h (8 * i + j) (by omega)
    rw [UInt8.toNat_or, Nat.testBit_or, Bool.or_eq_true]
    have e1 : (8 * i + j) / 8 = i := by omega
    have e2 : (8 * i + j) % 8 = j := by omega
    simp only [bit, e1, e2, List.getD_eq_getElem?_getD] at this
    rw [List.getElem?_eq_getElem (by omega), List.getElem?_eq_getElem (by omega)] at this
    exact this

theorem sized_init : Sized {} := by
  refine ⟨List.length_replicate, List.length_replicate, List.length_replicate, ?_⟩
  decide

theorem sized_reset {p : TableProgress} (h : Sized p) : Sized p.reset := by
  have hl : (p.reset).collected.length = 32 := by simp [TableProgress.reset, h.collected]
  have hu : (p.reset).unused.length = 32 := by simp [TableProgress.reset, h.unused]
  refine ⟨hl, hu, h.versions, ?_⟩
  have : ¬ (p.reset).checkCompleted = true := by
    rw [checkCompleted_iff hl hu]
    intro h
    have := h 0 (by omega)
    simp [TableProgress.reset, bit_zero] at this
  simp only [Bool.not_eq_true] at this
  rw [this]; rfl

theorem sized_unuse {p : TableProgress} (h : Sized p) : Sized p.unuse := by
  have hl : (p.unuse).collected.length = 32 := h.collected
  have hu : (p.unuse).unused.length = 32 := by simp [TableProgress.unuse, h.unused]
  refine ⟨hl, hu, h.versions, ?_⟩
  have : (p.unuse).checkCompleted = true := by
    rw [checkCompleted_iff hl hu]
    intro n hn
    right
    exact bit_full (by rw [h.unused]; omega)
  rw [this]; rfl

theorem sized_update {p : TableProgress} (h : Sized p) (e : EitSection) : Sized (p.update e) :=
  ⟨by simp [TableProgress.update, h.collected], by simp [TableProgress.update, h.unused],
    by simp [TableProgress.update, h.versions], rfl⟩

theorem sized_updateUnused {p : TableProgress} (h : Sized p) (t : Int) :
    Sized (p.updateUnused t) :=
  ⟨h.collected, by simp [TableProgress.updateUnused, h.unused], h.versions, rfl⟩

theorem update_collected {p : TableProgress} (h : Sized p) (e : EitSection) {n : Nat}
    (hn : n < 256) : bit (p.update e).collected n = (bit p.collected n || decide (number e = n)) := by
  have := bit_modify (l := p.collected) (seg := e.segmentIndex)
    (f := fun c => c ||| mask e.sectionIndex) (Q := fun j => decide (j = e.sectionIndex))
    (fun u j hj => or_mask_bit u (by rw [sectionIndex_eq]; exact index_lt e) hj) (n := n)
    (by rw [h.collected]; omega)
  show bit (p.collected.modify _ _) n = _
  rw [this, segmentIndex_eq, sectionIndex_eq]
  congr 1
  rw [← Bool.decide_and, decide_eq_decide]
  simp only [index]
  omega

theorem update_unused {p : TableProgress} (h : Sized p) (e : EitSection) {n : Nat}
    (hn : n < 256) : bit (p.update e).unused n = (bit p.unused n ||
      decide (lastSegment e < n / 8 ∨ (number e / 8 = n / 8 ∧ lastIndex e < n % 8))) := by
  have h1 := bit_fill (l := p.unused) (fun i => decide (e.lastSegmentIndex + 1 ≤ i)) (n := n)
    (by rw [h.unused]; omega)
  have := bit_modify (l := p.unused.mapIdx fun i u => if e.lastSegmentIndex + 1 ≤ i then 0xFF else u)
    (seg := e.segmentIndex)
    (f := fun u => orFrom u (e.lastSectionIndex + 1)) (Q := fun j => decide (e.lastSectionIndex + 1 ≤ j))
    (fun u j hj => orFrom_bit u hj) (n := n) (by rw [List.length_mapIdx, h.unused]; omega)
  show bit (List.modify _ _ _) n = _
  rw [this]
  simp only [decide_eq_true_eq] at h1
  rw [h1, segmentIndex_eq, lastSectionIndex_eq, lastSegmentIndex_eq]
  rw [← Bool.decide_and, Bool.or_comm (decide _) (bit _ _), Bool.or_assoc, ← Bool.decide_or]
  congr 1
  rw [decide_eq_decide]
  omega

theorem version_ne (v : Fin 32) : UInt8.ofNat v.val ≠ 0xFF := by
  revert v; decide

theorem version_inj {v w : Fin 32} (h : UInt8.ofNat v.val = UInt8.ofNat w.val) : v = w := by
  revert v w; decide

theorem update_versions {p : TableProgress} (h : Sized p) (e : EitSection) {i : Nat}
    (hi : i < 8) : (p.update e).versions.getD i 0xFF =
      if index e ≤ i ∧ i ≤ lastIndex e then UInt8.ofNat e.version.val else p.versions.getD i 0xFF := by
  show (List.mapIdx _ _).getD i 0xFF = _
  rw [getD_mapIdx (by rw [h.versions]; omega), sectionIndex_eq, lastSectionIndex_eq]
  simp only [Bool.and_eq_true, decide_eq_true_eq]

theorem hour_eq (t : Int) : TableProgress.hour t = hourOf t := by
  unfold TableProgress.hour hourOf
  congr 1
  omega

theorem updateUnused_unused {p : TableProgress} (h : Sized p) (t : Int) {n : Nat}
    (hn : n < 256) : bit (p.updateUnused t).unused n =
      (bit p.unused n || decide (n / 8 < hourOf t / 3)) := by
  have h1 := bit_fill (l := p.unused) (fun i => decide (i < TableProgress.hour t / 3)) (n := n)
    (by rw [h.unused]; omega)
  simp only [decide_eq_true_eq, hour_eq] at h1
  rw [Bool.or_comm, ← h1]
  simp only [TableProgress.updateUnused, hour_eq]

theorem checkCollected_iff {p : TableProgress} {e : EitSection} :
    p.checkCollected e = true ↔
      bit p.collected (number e) = true ∧ ∀ i, index e ≤ i → i < lastIndex e →
        p.versions.getD i 0xFF = UInt8.ofNat e.version.val := by
  unfold TableProgress.checkCollected
  rw [Bool.and_eq_true, and_mask (by rw [sectionIndex_eq]; exact index_lt e), List.all_eq_true,
    sectionIndex_eq, lastSectionIndex_eq, segmentIndex_eq, and_comm]
  refine and_congr Iff.rfl ⟨?_, ?_⟩
  · intro h i h1 h2
    have := h i (by rw [List.mem_range'_1]; omega)
    simp only [Bool.and_eq_true, bne_iff_ne, beq_iff_eq] at this
    exact this.2
  · intro h i hi
    rw [List.mem_range'_1] at hi
    have := h i hi.1 (by omega)
    simp only [Bool.and_eq_true, bne_iff_ne, beq_iff_eq]
    exact ⟨by rw [this]; exact version_ne _, this⟩

/-! ### Lists of sections -/

theorem sections_append (a b : List Ev) : sections (a ++ b) = sections a ++ sections b := by
  simp [sections]

theorem times_append (a b : List Ev) : times (a ++ b) = times a ++ times b := by
  simp [times]

theorem ofGroup_append (g : (UInt16 × UInt16 × UInt16) × Bool) (a b : List EitSection) :
    ofGroup g (a ++ b) = ofGroup g a ++ ofGroup g b := by
  simp [ofGroup]

theorem ofGroup_sec (e : EitSection) (l : List Ev) :
    ofGroup (group e) (sections (l ++ [.sec e])) = ofGroup (group e) (sections l) ++ [e] := by
  rw [sections_append, ofGroup_append]
  simp [sections, ofGroup]

theorem ofGroup_other {g : (UInt16 × UInt16 × UInt16) × Bool} {e : EitSection} (h : group e ≠ g)
    (l : List Ev) : ofGroup g (sections (l ++ [.sec e])) = ofGroup g (sections l) := by
  rw [sections_append, ofGroup_append]
  simp [sections, ofGroup, h]

theorem sections_time (l : List Ev) (t : Int) : sections (l ++ [.time t]) = sections l := by
  rw [sections_append]; simp [sections]

theorem trailing_snoc (k : Nat) (l : List EitSection) (e : EitSection) :
    trailing k (l ++ [e]) = if lastTable e = k then trailing k l ++ [e] else [] := by
  unfold trailing
  rw [List.reverse_append, List.reverse_singleton, List.singleton_append, List.takeWhile_cons]
  by_cases h : lastTable e = k <;> simp [h]

theorem trailing_nil {k : Nat} {l : List EitSection} (h : l.getLast?.map lastTable ≠ some k) :
    trailing k l = [] := by
  rcases List.eq_nil_or_concat l with rfl | ⟨l', e, rfl⟩
  · rfl
  · rw [List.concat_eq_append] at h ⊢
    rw [trailing_snoc, if_neg]
    intro he
    simp [he] at h

theorem trailing_sub {k : Nat} {l : List EitSection} : ∀ e ∈ trailing k l, e ∈ l ∧ lastTable e = k := by
  intro e he
  unfold trailing at he
  rw [List.mem_reverse] at he
  have h1 := (List.takeWhile_sublist _).subset he
  have h2 : decide (lastTable e = k) = true := List.all_eq_true.1 List.all_takeWhile e he
  exact ⟨List.mem_reverse.1 h1, by simpa using h2⟩

/-- Splits of a list with one element more. -/
theorem snoc_split {L a b : List Ev} {x : Ev} {t : Int} :
    L ++ [x] = a ++ .time t :: b ↔
      (b = [] ∧ a = L ∧ x = .time t) ∨ ∃ b', b = b' ++ [x] ∧ L = a ++ .time t :: b' := by
  constructor
  · intro h
    rcases List.eq_nil_or_concat b with rfl | ⟨b', y, rfl⟩
    · have := List.append_inj' h rfl
      simp only [List.cons.injEq, and_true] at this
      exact .inl ⟨rfl, this.1.symm, this.2⟩
    · rw [List.concat_eq_append] at h ⊢
      have h : L ++ [x] = (a ++ .time t :: b') ++ [y] := by simp [h]
      have := List.append_inj' h rfl
      simp only [List.cons.injEq, and_true] at this
      obtain ⟨h1, rfl⟩ := this
      exact .inr ⟨b', rfl, h1⟩
  · rintro (⟨rfl, rfl, rfl⟩ | ⟨b', rfl, rfl⟩) <;> simp

/-! ### TableGroupProgress -/

/-- A TOT, received while the group ended with table `m` as it does now, made the section
unneeded. -/
def Elapsed (l : List Ev) (g : (UInt16 × UInt16 × UInt16) × Bool) (m n : Nat) : Prop :=
  ∃ a t b, l = a ++ .time t :: b ∧ n / 8 < hourOf t / 3 ∧
    (ofGroup g (sections a)).getLast?.map lastTable = some m ∧
    ∀ e ∈ ofGroup g (sections b), lastTable e = m

theorem elapsed_time {l : List Ev} {g : (UInt16 × UInt16 × UInt16) × Bool} {m n : Nat} {t : Int}
    (h : (ofGroup g (sections l)).getLast?.map lastTable = some m) :
    Elapsed (l ++ [.time t]) g m n ↔ Elapsed l g m n ∨ n / 8 < hourOf t / 3 := by
  constructor
  · rintro ⟨a, t', b, h1, h2, h3, h4⟩
    rcases snoc_split.1 h1 with ⟨rfl, rfl, h5⟩ | ⟨b', rfl, rfl⟩
    · cases h5; exact .inr h2
    · rw [sections_time] at h4
      exact .inl ⟨a, t', b', rfl, h2, h3, h4⟩
  · rintro (⟨a, t', b, rfl, h2, h3, h4⟩ | h2)
    · exact ⟨a, t', b ++ [.time t], by simp, h2, h3, by rw [sections_time]; exact h4⟩
    · exact ⟨l, t, [], rfl, h2, h, by simp [sections, ofGroup]⟩

theorem elapsed_other {l : List Ev} {g : (UInt16 × UInt16 × UInt16) × Bool} {m n : Nat}
    {e : EitSection} (h : group e ≠ g) : Elapsed (l ++ [.sec e]) g m n ↔ Elapsed l g m n := by
  constructor
  · rintro ⟨a, t', b, h1, h2, h3, h4⟩
    rcases snoc_split.1 h1 with ⟨rfl, rfl, h5⟩ | ⟨b', rfl, rfl⟩
    · cases h5
    · rw [ofGroup_other h] at h4
      exact ⟨a, t', b', rfl, h2, h3, h4⟩
  · rintro ⟨a, t', b, rfl, h2, h3, h4⟩
    exact ⟨a, t', b ++ [.sec e], by simp, h2, h3, by rw [ofGroup_other h]; exact h4⟩

theorem elapsed_same {l : List Ev} {m n : Nat} {e : EitSection} :
    Elapsed (l ++ [.sec e]) (group e) m n ↔ Elapsed l (group e) m n ∧ lastTable e = m := by
  constructor
  · rintro ⟨a, t', b, h1, h2, h3, h4⟩
    rcases snoc_split.1 h1 with ⟨rfl, rfl, h5⟩ | ⟨b', rfl, rfl⟩
    · cases h5
    · rw [ofGroup_sec] at h4
      exact ⟨⟨a, t', b', rfl, h2, h3, fun x hx => h4 x (by simp [hx])⟩, h4 e (by simp)⟩
  · rintro ⟨⟨a, t', b, rfl, h2, h3, h4⟩, h5⟩
    refine ⟨a, t', b ++ [.sec e], by simp, h2, h3, ?_⟩
    rw [ofGroup_sec]
    intro x hx
    rcases List.mem_append.1 hx with hx | hx
    · exact h4 x hx
    · simp only [List.mem_singleton] at hx; rw [hx, h5]

theorem elapsed_last {l : List Ev} {g : (UInt16 × UInt16 × UInt16) × Bool} {m n : Nat}
    (h : Elapsed l g m n) : (ofGroup g (sections l)).getLast?.map lastTable = some m := by
  obtain ⟨a, t, b, rfl, _, h3, h4⟩ := h
  rw [sections_append, ofGroup_append]
  have : sections (.time t :: b) = sections b := by simp [sections]
  rw [this]
  rcases List.eq_nil_or_concat (ofGroup g (sections b)) with h | ⟨l', e, h⟩
  · rw [h, List.append_nil]; exact h3
  · rw [List.concat_eq_append] at h
    rw [h, ← List.append_assoc, List.getLast?_append]
    have := h4 e (by rw [h]; simp)
    simp [this]

/-- Why section `n` of table `k` is not needed. -/
def Unneeded (l : List Ev) (g : (UInt16 × UInt16 × UInt16) × Bool) (m k n : Nat) : Prop :=
  m < k ∨ (∃ e ∈ trailing m (ofGroup g (sections l)), tableNo e = k ∧
    (lastSegment e < n / 8 ∨ (number e / 8 = n / 8 ∧ lastIndex e < n % 8))) ∨
  (k = 0 ∧ Elapsed l g m n)

/-- What the state of a group means. -/
structure GroupInv (p : GroupProgress) (l : List Ev) (g : (UInt16 × UInt16 × UInt16) × Bool) :
    Prop where
  len : p.tables.length = 8
  sized : ∀ t ∈ p.tables, Sized t
  completed : p.completed = p.checkCompleted
  last : p.lastTableIndex = (ofGroup g (sections l)).getLast?.map lastTable
  version : ∀ k t, p.tables[k]? = some t → ∀ i < 8, t.versions.getD i 0xFF =
    match (covering k i (ofGroup g (sections l))).getLast? with
    | some e => UInt8.ofNat e.version.val
    | none => 0xFF
  collected : ∀ m, p.lastTableIndex = some m → ∀ k t, p.tables[k]? = some t → ∀ n < 256,
    (bit t.collected n = true ↔
      ∃ e ∈ trailing m (ofGroup g (sections l)), tableNo e = k ∧ number e = n)
  unused : ∀ m, p.lastTableIndex = some m → ∀ k t, p.tables[k]? = some t → ∀ n < 256,
    (bit t.unused n = true ↔ Unneeded l g m k n)

theorem group_init {l : List Ev} {g : (UInt16 × UInt16 × UInt16) × Bool}
    (h : ofGroup g (sections l) = []) : GroupInv {} l g := by
  refine ⟨List.length_replicate, ?_, by decide, by rw [h]; rfl, ?_, ?_, ?_⟩
  · intro t ht
    rw [List.eq_of_mem_replicate ht]; exact sized_init
  · intro k t hk i hi
    rw [List.eq_of_mem_replicate (List.mem_of_getElem? hk), h]
    have : ∀ i < 8, (List.replicate 256 (0xFF : UInt8)).getD i 0xFF = 0xFF := by decide
    exact this i hi
  · intro m hm; cases hm
  · intro m hm; cases hm

theorem group_other {p : GroupProgress} {l : List Ev} {g : (UInt16 × UInt16 × UInt16) × Bool}
    {e : EitSection} (hi : GroupInv p l g) (h : group e ≠ g) : GroupInv p (l ++ [.sec e]) g := by
  refine ⟨hi.len, hi.sized, hi.completed, ?_, ?_, ?_, ?_⟩
  · rw [ofGroup_other h]; exact hi.last
  · rw [ofGroup_other h]; exact hi.version
  · rw [ofGroup_other h]; exact hi.collected
  · intro m hm k t hk n hn
    rw [hi.unused m hm k t hk n hn]
    unfold Unneeded
    rw [elapsed_other h, ofGroup_other h]

theorem group_time {p : GroupProgress} {l : List Ev} {g : (UInt16 × UInt16 × UInt16) × Bool}
    (hi : GroupInv p l g) (t : Int) : GroupInv (p.updateUnused t) (l ++ [.time t]) g := by
  have hget : ∀ (k : Nat) q, (p.updateUnused t).tables[k]? = some q →
      ∃ q0, p.tables[k]? = some q0 ∧ q = if k = 0 then q0.updateUnused t else q0 := by
    intro k q hq
    simp only [GroupProgress.updateUnused, List.getElem?_modify] at hq
    cases h : p.tables[k]? with
    | none => rw [h] at hq; cases hq
    | some q0 =>
      rw [h] at hq
      refine ⟨q0, rfl, ?_⟩
      by_cases hk : k = 0
      · subst hk; simpa using hq.symm
      · simp only [hk, if_false, Ne.symm hk, Option.map_eq_map, Option.map_some, Option.some.injEq] at hq ⊢
        exact hq.symm
  have hsz : ∀ (k : Nat) q, p.tables[k]? = some q → Sized q :=
    fun k q h => hi.sized q (List.mem_of_getElem? h)
  refine ⟨by simp [GroupProgress.updateUnused, hi.len], ?_, rfl, ?_, ?_, ?_, ?_⟩
  · intro q hq
    obtain ⟨k, hk⟩ := List.getElem?_of_mem hq
    obtain ⟨q0, h0, rfl⟩ := hget k q hk
    split
    · exact sized_updateUnused (hsz _ _ h0) t
    · exact hsz _ _ h0
  · rw [sections_time]; exact hi.last
  · intro k q hq i hi'
    obtain ⟨q0, h0, rfl⟩ := hget k q hq
    rw [sections_time, ← hi.version k q0 h0 i hi']
    split <;> rfl
  · intro m hm k q hq n hn
    obtain ⟨q0, h0, rfl⟩ := hget k q hq
    rw [sections_time, ← hi.collected m hm k q0 h0 n hn]
    split <;> rfl
  · intro m hm k q hq n hn
    have hm : p.lastTableIndex = some m := hm
    obtain ⟨q0, h0, rfl⟩ := hget k q hq
    have h1 := hi.unused m hm k q0 h0 n hn
    unfold Unneeded at h1 ⊢
    rw [sections_time, elapsed_time (by rw [← hi.last]; exact hm)]
    split
    · next hk =>
      subst hk
      rw [updateUnused_unused (hsz _ _ h0) t hn, Bool.or_eq_true, h1]
      simp only [true_and, decide_eq_true_eq]
      grind
    · next hk =>
      rw [h1]
      simp [hk]

theorem group_update {p : GroupProgress} {l : List Ev} {e : EitSection}
    (hi : GroupInv p l (group e)) : GroupInv (p.update e) (l ++ [.sec e]) (group e) := by
  have hsz : ∀ (k : Nat) q, p.tables[k]? = some q → Sized q :=
    fun k q h => hi.sized q (List.mem_of_getElem? h)
  -- the tables before `update` of the table of the section
  let p1 := if p.checkConsistency e then p else p.clear e
  have hp1 : p.update e = { p1 with
      tables := p1.tables.modify e.tableIndex (·.update e)
      lastTableIndex := some e.lastTableIndex
      completed := (p1.tables.modify e.tableIndex (·.update e)).all (·.completed) } := rfl
  have hget1 : ∀ (k : Nat) q, p1.tables[k]? = some q → ∃ q0, p.tables[k]? = some q0 ∧
      q = if p.checkConsistency e then q0 else
        if lastTable e < k then q0.reset.unuse else q0.reset := by
    intro k q hq
    simp only [p1] at hq
    by_cases hc : p.checkConsistency e = true
    · simp only [hc, if_true] at hq ⊢
      exact ⟨q, hq, rfl⟩
    · simp only [hc, if_false, GroupProgress.clear, List.getElem?_mapIdx, List.getElem?_map,
        lastTableIndex_eq, Bool.false_eq_true] at hq ⊢
      cases h : p.tables[k]? with
      | none => rw [h] at hq; cases hq
      | some q0 =>
        rw [h] at hq
        refine ⟨q0, rfl, ?_⟩
        simp only [Option.map_some, Option.some.injEq] at hq
        exact hq.symm
  have hsz1 : ∀ (k : Nat) q, p1.tables[k]? = some q → Sized q := by
    intro k q hq
    obtain ⟨q0, h0, rfl⟩ := hget1 k q hq
    have := hsz _ _ h0
    split
    · exact this
    · split
      · exact sized_unuse (sized_reset this)
      · exact sized_reset this
  have hget : ∀ (k : Nat) q, (p.update e).tables[k]? = some q → ∃ q1, p1.tables[k]? = some q1 ∧
      q = if tableNo e = k then q1.update e else q1 := by
    intro k q hq
    rw [hp1] at hq
    simp only [List.getElem?_modify, tableIndex_eq] at hq
    cases h : p1.tables[k]? with
    | none => rw [h] at hq; cases hq
    | some q1 =>
      rw [h] at hq
      refine ⟨q1, rfl, ?_⟩
      by_cases hk : tableNo e = k
      · simp only [hk, if_true, Option.map_eq_map, Option.map_some, Option.some.injEq] at hq ⊢
        exact hq.symm
      · simp only [hk, if_false, Option.map_eq_map, Option.map_some, Option.some.injEq] at hq ⊢
        exact hq.symm
  have hlast : (p.update e).lastTableIndex = some (lastTable e) := by
    rw [hp1, lastTableIndex_eq]
  have hcons : p.checkConsistency e = true ↔
      (ofGroup (group e) (sections l)).getLast?.map lastTable = some (lastTable e) := by
    rw [← hi.last]
    simp only [GroupProgress.checkConsistency, lastTableIndex_eq, beq_iff_eq]
  refine ⟨?_, ?_, ?_, ?_, ?_, ?_, ?_⟩
  · rw [hp1]
    simp only [List.length_modify, p1]
    split
    · exact hi.len
    · simp [GroupProgress.clear, hi.len]
  · intro q hq
    obtain ⟨k, hk⟩ := List.getElem?_of_mem hq
    obtain ⟨q1, h1, rfl⟩ := hget k q hk
    split
    · exact sized_update (hsz1 _ _ h1) e
    · exact hsz1 _ _ h1
  · rw [hp1]; rfl
  · rw [hlast, ofGroup_sec]; simp
  · intro k q hq i hi'
    obtain ⟨q1, h1, rfl⟩ := hget k q hq
    obtain ⟨q0, h0, e0⟩ := hget1 k q1 h1
    have hv1 : q1.versions = q0.versions := by
      rw [e0]
      split
      · rfl
      · split <;> rfl
    have hv := hi.version k q0 h0 i hi'
    rw [ofGroup_sec]
    by_cases hk : tableNo e = k
    · rw [if_pos hk, update_versions (hsz1 _ _ h1) e hi', hv1, hv]
      unfold covering
      rw [List.filter_append]
      by_cases hc : index e ≤ i ∧ i ≤ lastIndex e
      · simp [hk, hc]
      · simp only [hc, and_false, List.filter_cons, decide_false, if_false, List.filter_nil,
          List.append_nil, Bool.false_eq_true]
    · rw [if_neg hk, hv1, hv]
      unfold covering
      rw [List.filter_append]
      simp [hk]
  · intro m hm k q hq n hn
    rw [hlast] at hm
    cases hm
    obtain ⟨q1, h1, rfl⟩ := hget k q hq
    obtain ⟨q0, h0, e0⟩ := hget1 k q1 h1
    rw [ofGroup_sec, trailing_snoc, if_pos rfl]
    have hb : bit q1.collected n = true ↔
        ∃ e' ∈ trailing (lastTable e) (ofGroup (group e) (sections l)), tableNo e' = k ∧ number e' = n := by
      by_cases hc : p.checkConsistency e = true
      · rw [if_pos hc] at e0
        rw [e0]
        refine hi.collected _ ?_ k q0 h0 n hn
        rw [hi.last]; exact hcons.1 hc
      · rw [if_neg hc] at e0
        rw [trailing_nil (fun h => hc (hcons.2 h))]
        have : bit q1.collected n = false := by
          rw [e0]
          split <;> exact bit_zero
        rw [this]
        simp
    by_cases hk : tableNo e = k
    · rw [if_pos hk, update_collected (hsz1 _ _ h1) e hn, Bool.or_eq_true, hb]
      simp only [decide_eq_true_eq, List.mem_append, List.mem_singleton]
      grind
    · rw [if_neg hk, hb]
      simp only [List.mem_append, List.mem_singleton]
      grind
  · intro m hm k q hq n hn
    rw [hlast] at hm
    cases hm
    obtain ⟨q1, h1, rfl⟩ := hget k q hq
    obtain ⟨q0, h0, e0⟩ := hget1 k q1 h1
    have hb : bit q1.unused n = true ↔ Unneeded l (group e) (lastTable e) k n := by
      by_cases hc : p.checkConsistency e = true
      · rw [if_pos hc] at e0
        rw [e0]
        refine hi.unused _ ?_ k q0 h0 n hn
        rw [hi.last]; exact hcons.1 hc
      · rw [if_neg hc] at e0
        unfold Unneeded
        rw [trailing_nil (fun h => hc (hcons.2 h))]
        have hne : ¬ Elapsed l (group e) (lastTable e) n := fun h => hc (hcons.2 (elapsed_last h))
        have : bit q1.unused n = decide (lastTable e < k) := by
          rw [e0]
          by_cases hlt : lastTable e < k
          · rw [if_pos hlt]
            simp only [hlt, decide_true]
            refine bit_full ?_
            simp only [TableProgress.reset, List.length_map, (hsz _ _ h0).unused]
            omega
          · rw [if_neg hlt]
            simp only [hlt, decide_false]
            exact bit_zero
        rw [this]
        simp [hne]
    unfold Unneeded at hb ⊢
    rw [ofGroup_sec, trailing_snoc, if_pos rfl, elapsed_same]
    by_cases hk : tableNo e = k
    · rw [if_pos hk, update_unused (hsz1 _ _ h1) e hn, Bool.or_eq_true, hb]
      simp only [decide_eq_true_eq, List.mem_append, List.mem_singleton, and_true]
      grind
    · rw [if_neg hk, hb]
      simp only [List.mem_append, List.mem_singleton, and_true]
      grind

theorem group_known {p : GroupProgress} {l : List Ev} {e : EitSection}
    (hi : GroupInv p l (group e)) : p.checkCollected e = true ↔ Known (sections l) e := by
  unfold GroupProgress.checkCollected
  have hlt : tableNo e < p.tables.length := by rw [hi.len]; exact tableNo_lt e
  have hq : p.tables[tableNo e]? = some p.tables[tableNo e] := List.getElem?_eq_getElem hlt
  have hg : p.tables.getD e.tableIndex {} = p.tables[tableNo e] := by
    rw [tableIndex_eq, List.getD_eq_getElem?_getD, hq]; rfl
  rw [hg, lastTableIndex_eq]
  have hver : ∀ i, i < 8 → (p.tables[tableNo e].versions.getD i 0xFF = UInt8.ofNat e.version.val ↔
      (covering (tableNo e) i (ofGroup (group e) (sections l))).getLast?.map (·.version) =
        some e.version) := by
    intro i hi'
    rw [hi.version _ _ hq i hi']
    split
    · next e' he =>
      rw [he]
      simp only [Option.map_some, Option.some.injEq]
      exact ⟨fun h => version_inj h, fun h => by rw [h]⟩
    · next he =>
      rw [he]
      simp only [Option.map_none, reduceCtorEq, iff_false]
      exact fun h => version_ne _ h.symm
  have hvs : (∀ i, index e ≤ i → i < lastIndex e →
        p.tables[tableNo e].versions.getD i 0xFF = UInt8.ofNat e.version.val) ↔
      ∀ i, index e ≤ i → i < lastIndex e →
        (covering (tableNo e) i (ofGroup (group e) (sections l))).getLast?.map (·.version) =
          some e.version := by
    have h8 := lastIndex_lt e
    exact ⟨fun h i h1 h2 => (hver i (by omega)).1 (h i h1 h2),
      fun h i h1 h2 => (hver i (by omega)).2 (h i h1 h2)⟩
  cases hl : p.lastTableIndex with
  | none =>
    rw [hi.last] at hl
    unfold Known
    rw [trailing_nil (by rw [hl]; simp)]
    simp
  | some m =>
    by_cases hm : m = lastTable e
    · subst hm
      simp only [bne_self_eq_false, Bool.false_eq_true, if_false]
      rw [checkCollected_iff, hi.collected _ hl _ _ hq _ (number_lt e), hvs]
      rfl
    · have hne : trailing (lastTable e) (ofGroup (group e) (sections l)) = [] := by
        apply trailing_nil
        rw [← hi.last, hl]
        simp [hm]
      unfold Known
      rw [hne]
      simp [hm]

theorem group_completed {p : GroupProgress} {l : List Ev} {g : (UInt16 × UInt16 × UInt16) × Bool}
    (hi : GroupInv p l g) : p.isCompleted = true ↔
      ∀ e, (ofGroup g (sections l)).getLast? = some e →
        ∀ k ≤ lastTable e, ∀ n < 256, Accounted l g (lastTable e) k n := by
  unfold GroupProgress.isCompleted
  cases hl : p.lastTableIndex with
  | none =>
    rw [hi.last] at hl
    simp only [Option.map_eq_none_iff] at hl
    simp [hl]
  | some m =>
    have hlast := hl
    rw [hi.last] at hlast
    rw [Option.map_eq_some_iff] at hlast
    obtain ⟨e0, he0, rfl⟩ := hlast
    show p.completed = true ↔ _
    rw [hi.completed]
    unfold GroupProgress.checkCompleted
    rw [List.all_eq_true]
    have key : ∀ k t, p.tables[k]? = some t → (t.completed = true ↔
        (k ≤ lastTable e0 → ∀ n < 256, Accounted l g (lastTable e0) k n)) := by
      intro k t hk
      have hs := hi.sized t (List.mem_of_getElem? hk)
      rw [hs.completed, checkCompleted_iff hs.collected hs.unused]
      constructor
      · intro h hle n hn
        have := h n hn
        rw [hi.collected _ hl k t hk n hn, hi.unused _ hl k t hk n hn] at this
        rcases this with ⟨e, h1, h2, h3⟩ | h | ⟨e, h1, h2, h3⟩ | ⟨h1, h2⟩
        · exact .inl ⟨e, h1, h2, .inl h3⟩
        · omega
        · exact .inl ⟨e, h1, h2, .inr h3⟩
        · exact .inr ⟨h1, h2⟩
      · intro h n hn
        rw [hi.collected _ hl k t hk n hn, hi.unused _ hl k t hk n hn]
        by_cases hle : k ≤ lastTable e0
        · rcases h hle n hn with ⟨e, h1, h2, h3 | h3⟩ | ⟨h1, h2⟩
          · exact .inl ⟨e, h1, h2, h3⟩
          · exact .inr (.inr (.inl ⟨e, h1, h2, h3⟩))
          · exact .inr (.inr (.inr ⟨h1, h2⟩))
        · exact .inr (.inl (by omega))
    constructor
    · intro h e he k hk
      rw [he0] at he
      cases he
      have hlt : k < p.tables.length := by
        have := lastTable_lt e0
        rw [hi.len]; omega
      exact (key k _ (List.getElem?_eq_getElem hlt)).1 (h _ (List.getElem_mem hlt)) hk
    · intro h t ht
      obtain ⟨k, hk⟩ := List.getElem?_of_mem ht
      exact (key k t hk).2 (h e0 he0 k)

end Mirakc.EitCollector
