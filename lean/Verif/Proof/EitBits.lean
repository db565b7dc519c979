import Verif.Spec.EitCollector
import Verif.Proof.Basic
/-
Lemmas about section headers and bitmaps.
-/
set_option linter.unusedSimpArgs false
namespace Mirakc.EitCollector
open Mirakc.Spec.EitCollector

/-! ### Header fields -/

theorem tableIndex_eq (e : EitSection) : e.tableIndex = tableNo e := by
  simp only [EitSection.tableIndex, tableNo]
  rw [UInt8.toNat_and]
  exact Nat.and_two_pow_sub_one_eq_mod _ 3

theorem lastTableIndex_eq (e : EitSection) : e.lastTableIndex = lastTable e := by
  simp only [EitSection.lastTableIndex, lastTable]
  rw [UInt8.toNat_and]
  exact Nat.and_two_pow_sub_one_eq_mod _ 3

theorem sectionIndex_eq (e : EitSection) : e.sectionIndex = index e := by
  simp only [EitSection.sectionIndex, index, number]
  rw [UInt8.toNat_and]
  exact Nat.and_two_pow_sub_one_eq_mod _ 3

theorem lastSectionIndex_eq (e : EitSection) : e.lastSectionIndex = lastIndex e := by
  simp only [EitSection.lastSectionIndex, lastIndex]
  rw [UInt8.toNat_and]
  exact Nat.and_two_pow_sub_one_eq_mod _ 3

theorem segmentIndex_eq (e : EitSection) : e.segmentIndex = number e / 8 := by
  simp only [EitSection.segmentIndex, number]
  rw [UInt8.toNat_shiftRight]
  exact Nat.shiftRight_eq_div_pow _ 3

theorem lastSegmentIndex_eq (e : EitSection) : e.lastSegmentIndex = lastSegment e := by
  simp only [EitSection.lastSegmentIndex, lastSegment]
  rw [UInt8.toNat_shiftRight]
  exact Nat.shiftRight_eq_div_pow _ 3

theorem isBasic_eq (e : EitSection) : e.isBasic = !extended e := by
  simp only [EitSection.isBasic, extended]
  have h : (e.tid &&& 0x0F).toNat = e.tid.toNat % 16 := by
    rw [UInt8.toNat_and]
    exact Nat.and_two_pow_sub_one_eq_mod _ 4
  have h2 : (e.tid &&& 0x0F < 8) ↔ e.tid.toNat % 16 < 8 := by
    rw [UInt8.lt_iff_toNat_lt, h]; rfl
  by_cases hx : e.tid.toNat % 16 < 8
  · simp [h2, hx, show ¬ 8 ≤ e.tid.toNat % 16 by omega]
  · simp [h2, hx, show 8 ≤ e.tid.toNat % 16 by omega]

theorem tableNo_lt (e : EitSection) : tableNo e < 8 := Nat.mod_lt _ (by omega)
theorem lastTable_lt (e : EitSection) : lastTable e < 8 := Nat.mod_lt _ (by omega)
theorem index_lt (e : EitSection) : index e < 8 := Nat.mod_lt _ (by omega)
theorem lastIndex_lt (e : EitSection) : lastIndex e < 8 := Nat.mod_lt _ (by omega)
theorem number_lt (e : EitSection) : number e < 256 := e.sectionNumber.toNat_lt
theorem lastSegment_lt (e : EitSection) : lastSegment e < 32 := by
  have := e.lastSectionNumber.toNat_lt
  simp only [lastSegment]; omega

theorem serviceTriple_toNat (e : EitSection) :
    e.serviceTriple.toNat = e.nid.toNat * 2 ^ 48 + e.tsid.toNat * 2 ^ 32 + e.sid.toNat * 2 ^ 16 := by
  have h1 := e.nid.toNat_lt
  have h2 := e.tsid.toNat_lt
  have h3 := e.sid.toNat_lt
  simp only [EitSection.serviceTriple, UInt64.toNat_or, UInt64.toNat_shiftLeft,
    UInt16.toNat_toUInt64, UInt32.toNat_toUInt64, UInt32.toNat_shiftLeft, UInt16.toNat_toUInt32]
  have e1 : UInt64.toNat 48 % 64 = 48 := by decide
  have e2 : UInt64.toNat 32 % 64 = 32 := by decide
  have e3 : UInt32.toNat 16 % 32 = 16 := by decide
  rw [e1, e2, e3]
  rw [Nat.mod_eq_of_lt (a := e.nid.toNat <<< 48) (by rw [Nat.shiftLeft_eq]; omega),
    Nat.mod_eq_of_lt (a := e.tsid.toNat <<< 32) (by rw [Nat.shiftLeft_eq]; omega),
    Nat.mod_eq_of_lt (a := e.sid.toNat <<< 16) (by rw [Nat.shiftLeft_eq]; omega)]
  rw [← Nat.shiftLeft_add_eq_or_of_lt (by rw [Nat.shiftLeft_eq]; omega)]
  have : e.nid.toNat <<< 48 + e.tsid.toNat <<< 32 = (e.nid.toNat * 2 ^ 16 + e.tsid.toNat) <<< 32 := by
    simp only [Nat.shiftLeft_eq]; omega
  rw [this, ← Nat.shiftLeft_add_eq_or_of_lt (by rw [Nat.shiftLeft_eq]; omega)]
  simp only [Nat.shiftLeft_eq]; omega

theorem serviceTriple_eq {e e' : EitSection} :
    e.serviceTriple = e'.serviceTriple ↔ service e = service e' := by
  constructor
  · intro h
    have h := congrArg UInt64.toNat h
    rw [serviceTriple_toNat, serviceTriple_toNat] at h
    have h1 := e.nid.toNat_lt
    have h2 := e.tsid.toNat_lt
    have h3 := e.sid.toNat_lt
    have h1' := e'.nid.toNat_lt
    have h2' := e'.tsid.toNat_lt
    have h3' := e'.sid.toNat_lt
    simp only [service, Prod.mk.injEq]
    refine ⟨UInt16.toNat_inj.1 ?_, UInt16.toNat_inj.1 ?_, UInt16.toNat_inj.1 ?_⟩ <;> omega
  · intro h
    simp only [service, Prod.mk.injEq] at h
    obtain ⟨h1, h2, h3⟩ := h
    simp only [EitSection.serviceTriple, h1, h2, h3]

theorem make_ok {x : Section} {e : EitSection} (h : EitSection.make x = .ok e) : Shows e x := by
  unfold EitSection.make at h
  split at h
  · next b0 b1 b2 b3 b4 b5 ev hp =>
    cases h
    have hu : ∀ a b : UInt8, (getUInt16 a b).toNat = 256 * a.toNat + b.toNat := by
      intro a b
      have ha := a.toNat_lt
      have hb := b.toNat_lt
      simp only [getUInt16, UInt16.toNat_or, UInt16.toNat_shiftLeft, UInt8.toNat_toUInt16]
      have e1 : UInt16.toNat 8 % 16 = 8 := by decide
      rw [e1, Nat.mod_eq_of_lt (by rw [Nat.shiftLeft_eq]; omega),
        ← Nat.shiftLeft_add_eq_or_of_lt (by omega), Nat.shiftLeft_eq]
      omega
    exact ⟨rfl, rfl, rfl, rfl, rfl, b0, b1, b2, b3, b4, b5, hp, hu _ _, hu _ _, rfl, rfl⟩
  · cases h

theorem make_total {x : Section} (h : 6 ≤ x.payload.length) : ∃ e, EitSection.make x = .ok e := by
  unfold EitSection.make
  split
  · exact ⟨_, rfl⟩
  · next hne =>
    exfalso
    match hp : x.payload with
    | b0 :: b1 :: b2 :: b3 :: b4 :: b5 :: ev => exact hne _ _ _ _ _ _ _ hp
    | [] | [_] | [_, _] | [_, _, _] | [_, _, _, _] | [_, _, _, _, _] => rw [hp] at h; simp at h

theorem shows_unique {x : Section} {e e' : EitSection} (h : Shows e x) (h' : Shows e' x) : e = e' := by
  obtain ⟨a1, a2, a3, a4, a5, b0, b1, b2, b3, b4, b5, a6, a7, a8, a9, a10⟩ := h
  obtain ⟨c1, c2, c3, c4, c5, d0, d1, d2, d3, d4, d5, c6, c7, c8, c9, c10⟩ := h'
  rw [a6] at c6
  simp only [List.cons.injEq] at c6
  obtain ⟨rfl, rfl, rfl, rfl, rfl, rfl, c6⟩ := c6
  have t1 : e.tsid = e'.tsid := UInt16.toNat_inj.1 (by omega)
  have t2 : e.nid = e'.nid := UInt16.toNat_inj.1 (by omega)
  cases e; cases e'
  simp_all

/-! ### Bitmaps -/

/-- Bit `n` of a bitmap of bytes. -/
def bit (l : List UInt8) (n : Nat) : Bool := (l.getD (n / 8) 0).toNat.testBit (n % 8)

theorem ff_bit {j : Nat} (h : j < 8) : (0xFF : UInt8).toNat.testBit j = true := by
  have : ∀ j < 8, (0xFF : UInt8).toNat.testBit j = true := by decide
  exact this j h

theorem mask_bit {i j : Nat} (hi : i < 8) (hj : j < 8) :
    (mask i).toNat.testBit j = decide (j = i) := by
  have : ∀ i < 8, ∀ j < 8, (mask i).toNat.testBit j = decide (j = i) := by decide
  exact this i hi j hj

theorem or_mask_bit (u : UInt8) {i j : Nat} (hi : i < 8) (hj : j < 8) :
    (u ||| mask i).toNat.testBit j = (u.toNat.testBit j || decide (j = i)) := by
  rw [UInt8.toNat_or, Nat.testBit_or, mask_bit hi hj]

theorem and_mask {u : UInt8} {i : Nat} (hi : i < 8) :
    ((u &&& mask i) != 0) = u.toNat.testBit i := by
  have : ∀ i < 8, ∀ u : Fin 256, (((UInt8.ofFin u) &&& mask i) != 0) = u.val.testBit i := by
    decide +kernel
  exact this i hi u.toFin

theorem eq_ff {u : UInt8} : u = 0xFF ↔ ∀ j < 8, u.toNat.testBit j = true := by
  have : ∀ u : Fin 256, UInt8.ofFin u = 0xFF ↔ ∀ j < 8, u.val.testBit j = true := by
    decide +kernel
  exact this u.toFin

theorem orFrom_bit (u : UInt8) {st j : Nat} (hj : j < 8) :
    (orFrom u st).toNat.testBit j = (u.toNat.testBit j || decide (st ≤ j)) := by
  have key : ∀ (l : List Nat) (u : UInt8), (∀ i ∈ l, i < 8) →
      (l.foldl (fun u i => u ||| mask i) u).toNat.testBit j =
        (u.toNat.testBit j || decide (j ∈ l)) := by
    intro l
    induction l with
    | nil => intro u _; simp
    | cons i l ih =>
      intro u h
      rw [List.foldl_cons, ih _ (fun x hx => h x (by simp [hx])), or_mask_bit _ (h i (by simp)) hj]
      simp [Bool.or_assoc, eq_comm]
  unfold orFrom
  rw [key _ _ (by intro i hi; rw [List.mem_range'_1] at hi; omega)]
  congr 1
  rw [decide_eq_decide, List.mem_range'_1]
  omega

theorem getD_mapIdx {l : List UInt8} {f : Nat → UInt8 → UInt8} {i : Nat} (h : i < l.length)
    (d : UInt8) : (l.mapIdx f).getD i d = f i (l.getD i d) := by
  simp [List.getD_eq_getElem?_getD, List.getElem?_mapIdx, h]

theorem bit_fill {l : List UInt8} (P : Nat → Bool) {n : Nat} (h : n / 8 < l.length) :
    bit (l.mapIdx fun i u => if P i then 0xFF else u) n = (P (n / 8) || bit l n) := by
  unfold bit
  rw [getD_mapIdx h]
  have := ff_bit (Nat.mod_lt n (by omega : 0 < 8))
  by_cases hp : P (n / 8) = true
  · rw [if_pos hp, this, hp]; rfl
  · simp [hp]

theorem bit_modify {l : List UInt8} {seg : Nat} {f : UInt8 → UInt8} {Q : Nat → Bool}
    (hf : ∀ u, ∀ j < 8, (f u).toNat.testBit j = (u.toNat.testBit j || Q j)) {n : Nat}
    (h : n / 8 < l.length) :
    bit (l.modify seg f) n = (bit l n || (decide (n / 8 = seg) && Q (n % 8))) := by
  unfold bit
  simp only [List.getD_eq_getElem?_getD, List.getElem?_modify, List.getElem?_eq_getElem h]
  by_cases hs : seg = n / 8
  · subst hs
    simp [hf _ _ (Nat.mod_lt n (by omega : 0 < 8))]
  · simp [hs, Ne.symm hs]

theorem bit_zero {l : List UInt8} {n : Nat} : bit (l.map fun _ => (0 : UInt8)) n = false := by
  unfold bit
  simp only [List.getD_eq_getElem?_getD, List.getElem?_map]
  cases l[n / 8]? <;> simp

theorem bit_full {l : List UInt8} {n : Nat} (h : n / 8 < l.length) :
    bit (l.map fun _ => (0xFF : UInt8)) n = true := by
  unfold bit
  simp only [List.getD_eq_getElem?_getD, List.getElem?_map, List.getElem?_eq_getElem h]
  exact ff_bit (Nat.mod_lt n (by omega))

end Mirakc.EitCollector
