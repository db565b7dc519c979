import Verif.Model.PacketSource
import Verif.Spec.Framing
/-
Refinement proof for `FileSource`: whatever the read schedule, it produces the
packets prescribed by `Spec.Frames`.
-/
namespace Mirakc.FileSource
open Mirakc.Spec

/-- The part of the stream not yet consumed by `s`. -/
def rest (s : St) : List UInt8 := s.data.drop s.pos ++ streamOf s.reads

/-- Invariant of `FileSource`. -/
structure Inv (s : St) : Prop where
  pos_le : s.pos ≤ s.data.length
  len_le : s.data.length ≤ bufferSize
  reads_le : ∀ c ∈ s.reads, c.length ≤ readChunkSize
  not_eof : s.eof = false

@[simp] theorem bind_ok {α β} (a : α) (f : α → Except Fault β) :
    (Except.ok a >>= f) = f a := rfl

@[simp] theorem bind_error {α β} (e : Fault) (f : α → Except Fault β) :
    ((Except.error e : Except Fault α) >>= f) = .error e := rfl

@[simp] theorem assertThat_true : assertThat true = .ok () := rfl

theorem streamOf_cons_of_ne {c cs} (h : c ≠ []) : streamOf (c :: cs) = c ++ streamOf cs := by
  cases c with
  | nil => exact absurd rfl h
  | cons a l => rfl

theorem readLoop_spec (min : Nat) (hmin : min ≤ maxResyncBytes) (reads : List (List UInt8)) :
    ∀ data : List UInt8, data.length < min → (∀ c ∈ reads, c.length ≤ readChunkSize) →
    if min ≤ (data ++ streamOf reads).length then
      ∃ data' reads', readLoop min data reads = .ok (true, data', false, reads') ∧
        data' ++ streamOf reads' = data ++ streamOf reads ∧ min ≤ data'.length ∧
        data'.length ≤ bufferSize ∧ (∀ c ∈ reads', c.length ≤ readChunkSize)
    else
      ∃ data' reads', readLoop min data reads = .ok (false, data', true, reads') := by
  induction reads with
  | nil =>
    intro data hlt _
    have hfree : readChunkSize ≤ bufferSize - data.length := by
      have hB : bufferSize = readChunkSize + 940 := rfl
      have hM : maxResyncBytes = 940 := rfl
      omega
    have : ¬ min ≤ (data ++ streamOf []).length := by simp [streamOf]; omega
    rw [if_neg this]
    exact ⟨data, [], by simp [readLoop, hfree]⟩
  | cons c cs ih =>
    intro data hlt hreads
    have hfree : readChunkSize ≤ bufferSize - data.length := by
      have hB : bufferSize = readChunkSize + 940 := rfl
      have hM : maxResyncBytes = 940 := rfl
      omega
    have hc : c.length ≤ readChunkSize := hreads c (by simp)
    have hcs : ∀ c ∈ cs, c.length ≤ readChunkSize := fun d hd => hreads d (by simp [hd])
    by_cases hce : c = []
    · subst hce
      have : ¬ min ≤ (data ++ streamOf ([] :: cs)).length := by simp [streamOf]; omega
      rw [if_neg this]
      exact ⟨data, cs, by simp [readLoop, hfree]⟩
    · have hst : streamOf (c :: cs) = c ++ streamOf cs := streamOf_cons_of_ne hce
      have hne : c.isEmpty = false := by cases c <;> simp_all
      rw [hst]
      by_cases hlt' : (data ++ c).length < min
      · have := ih (data ++ c) hlt' hcs
        have e : readLoop min data (c :: cs) = readLoop min (data ++ c) cs := by
          simp only [readLoop, hfree, decide_true, assertThat_true, bind_ok, hne, hlt', if_true]
          simp
        rw [e, ← List.append_assoc]
        exact this
      · have e : readLoop min data (c :: cs) = .ok (true, data ++ c, false, cs) := by
          simp only [readLoop, hfree, decide_true, assertThat_true, bind_ok, hne, hlt', if_false]
          simp
        have hge : min ≤ (data ++ (c ++ streamOf cs)).length := by
          simp at hlt' ⊢; omega
        rw [if_pos hge]
        refine ⟨data ++ c, cs, e, by simp, by omega, ?_, hcs⟩
        simp only [List.length_append, bufferSize]
        omega

theorem fillBuffer_spec (min : Nat) (hmin : min ≤ maxResyncBytes) (s : St) (hi : Inv s) :
    if min ≤ (rest s).length then
      ∃ s', fillBuffer min s = .ok (true, s') ∧ Inv s' ∧ rest s' = rest s ∧
        s'.pos + min ≤ s'.data.length
    else
      ∃ s', fillBuffer min s = .ok (false, s') := by
  obtain ⟨h1, h2, h3, h4⟩ := hi
  have hlen : (rest s).length = (s.data.length - s.pos) + (streamOf s.reads).length := by
    simp [rest]
  by_cases hav : min ≤ s.data.length - s.pos
  · have hge : min ≤ (rest s).length := by omega
    rw [if_pos hge]
    refine ⟨s, ?_, ⟨h1, h2, h3, h4⟩, rfl, by omega⟩
    simp [fillBuffer, hmin, h1, h2, h4, hav]
  · have hlt : (s.data.drop s.pos).length < min := by simp; omega
    have hr := readLoop_spec min hmin s.reads (s.data.drop s.pos) hlt h3
    by_cases hge : min ≤ (rest s).length
    · rw [if_pos hge]
      have hge' : min ≤ (s.data.drop s.pos ++ streamOf s.reads).length := hge
      rw [if_pos hge'] at hr
      obtain ⟨data', reads', e, e2, e3, e4, e5⟩ := hr
      refine ⟨{ data := data', pos := 0, eof := false, reads := reads' }, ?_, ⟨?_, ?_, ?_, ?_⟩, ?_, ?_⟩
      · simp [fillBuffer, hmin, h1, h2, h4, hav, e]
      · simp
      · exact e4
      · exact e5
      · rfl
      · simpa [rest] using e2
      · simpa using e3
    · rw [if_neg hge]
      have hge' : ¬ min ≤ (s.data.drop s.pos ++ streamOf s.reads).length := hge
      rw [if_neg hge'] at hr
      obtain ⟨data', reads', e⟩ := hr
      exact ⟨_, by simp [fillBuffer, hmin, h1, h2, h4, hav, e]; rfl⟩

theorem at?_ok {data : List UInt8} {i : Nat} (h : i < data.length) :
    at? data i = .ok data[i] := by
  simp [at?, List.getElem?_eq_getElem h]

theorem some_inj_beq {a b : UInt8} : (some a = some b) ↔ a = b := by simp

/-- `ValidateResync` checks exactly the three following sync bytes. -/
theorem validateResync_spec (data : List UInt8) (p : Nat) (h : p + 3 * 188 < data.length)
    (h0 : data[p]? = some 0x47) :
    ∃ b, validateResync data p = .ok b ∧ (b = true ↔ ResyncPoint data p) := by
  have l1 : p + 1 * pktSize < data.length := by simp only [pktSize]; omega
  have l2 : p + 2 * pktSize < data.length := by simp only [pktSize]; omega
  have l3 : p + 3 * pktSize < data.length := by simp only [pktSize]; omega
  have key : ResyncPoint data p ↔
      data[p + 1 * pktSize] = syncByte ∧ data[p + 2 * pktSize] = syncByte ∧
        data[p + 3 * pktSize] = syncByte := by
    constructor
    · intro hr
      have e1 := hr 1 (by omega)
      have e2 := hr 2 (by omega)
      have e3 := hr 3 (by omega)
      rw [Nat.mul_comm] at e1 e2 e3
      exact ⟨Option.some.inj ((List.getElem?_eq_getElem l1).symm.trans e1),
        Option.some.inj ((List.getElem?_eq_getElem l2).symm.trans e2),
        Option.some.inj ((List.getElem?_eq_getElem l3).symm.trans e3)⟩
    · rintro ⟨e1, e2, e3⟩ k hk
      have hk' : k = 0 ∨ k = 1 ∨ k = 2 ∨ k = 3 := by omega
      rw [Nat.mul_comm]
      rcases hk' with rfl | rfl | rfl | rfl
      · simpa using h0
      · exact (List.getElem?_eq_getElem l1).trans (congrArg some e1)
      · exact (List.getElem?_eq_getElem l2).trans (congrArg some e2)
      · exact (List.getElem?_eq_getElem l3).trans (congrArg some e3)
  rw [key]
  simp only [validateResync, at?_ok l1, at?_ok l2, at?_ok l3, bind_ok]
  by_cases c1 : data[p + 1 * pktSize] = syncByte
  · by_cases c2 : data[p + 2 * pktSize] = syncByte
    · refine ⟨decide (data[p + 3 * pktSize] = syncByte), by rw [if_pos c1, if_pos c2], ?_⟩
      rw [decide_eq_true_iff]
      exact ⟨fun h => ⟨c1, c2, h⟩, fun h => h.2.2⟩
    · refine ⟨false, by rw [if_pos c1, if_neg c2], ?_⟩
      exact ⟨(fun h => nomatch h), fun h => absurd h.2.1 c2⟩
  · refine ⟨false, by rw [if_neg c1], ?_⟩
    exact ⟨(fun h => nomatch h), fun h => absurd h.1 c1⟩

/-- The resync loop finds the first resync point among the next `n` offsets. -/
theorem resyncLoop_spec (data : List UInt8) (n : Nat) :
    ∀ p, p + n + 3 * 188 ≤ data.length →
    (∃ i, i < n ∧ ResyncPoint data (p + i) ∧ (∀ j < i, ¬ ResyncPoint data (p + j)) ∧
        resyncLoop data n p = .ok (true, p + i)) ∨
    ((∀ i < n, ¬ ResyncPoint data (p + i)) ∧ resyncLoop data n p = .ok (false, p + n)) := by
  induction n with
  | zero => intro p _; right; exact ⟨by simp, rfl⟩
  | succ n ih =>
    intro p hp
    have hlt : p < data.length := by omega
    have step : ¬ ResyncPoint data p →
        resyncLoop data (n + 1) p = resyncLoop data n (p + 1) →
        (∃ i, i < n + 1 ∧ ResyncPoint data (p + i) ∧ (∀ j < i, ¬ ResyncPoint data (p + j)) ∧
            resyncLoop data (n + 1) p = .ok (true, p + i)) ∨
        ((∀ i < n + 1, ¬ ResyncPoint data (p + i)) ∧
            resyncLoop data (n + 1) p = .ok (false, p + (n + 1))) := by
      intro hno e
      rcases ih (p + 1) (by omega) with ⟨i, hi, h1, h2, h3⟩ | ⟨h1, h2⟩
      · left
        refine ⟨i + 1, by omega, by rwa [← Nat.add_assoc, Nat.add_right_comm], ?_, ?_⟩
        · intro j hj
          cases j with
          | zero => simpa using hno
          | succ j => have := h2 j (by omega); rwa [← Nat.add_assoc, Nat.add_right_comm]
        · rw [e, h3, show p + 1 + i = p + (i + 1) by omega]
      · right
        refine ⟨?_, by rw [e, h2, show p + 1 + n = p + (n + 1) by omega]⟩
        intro i hi
        cases i with
        | zero => simpa using hno
        | succ j => have := h1 j (by omega); rwa [← Nat.add_assoc, Nat.add_right_comm]
    by_cases hb : data[p] = syncByte
    · have h0 : data[p]? = some 0x47 := (List.getElem?_eq_getElem hlt).trans (congrArg some hb)
      obtain ⟨b, hv, hiff⟩ := validateResync_spec data p (by omega) h0
      by_cases hbt : b = true
      · left
        refine ⟨0, by omega, by simpa using hiff.1 hbt, by simp, ?_⟩
        subst hbt
        simp [resyncLoop, at?_ok hlt, hb, hv]
      · have hbf : b = false := by simpa using hbt
        subst hbf
        apply step
        · intro hr; exact absurd (hiff.2 hr) (by simp)
        · simp [resyncLoop, at?_ok hlt, hb, hv]
    · apply step
      · intro hr
        have := hr 0 (by omega)
        rw [Nat.mul_zero, Nat.add_zero, List.getElem?_eq_getElem hlt] at this
        exact hb (Option.some.inj this)
      · simp [resyncLoop, at?_ok hlt, hb]

theorem resyncPoint_append (a b : List UInt8) (p : Nat) (h : p + 3 * 188 < a.length) :
    ResyncPoint (a ++ b) p ↔ ResyncPoint a p := by
  unfold ResyncPoint
  constructor <;> intro hr k hk <;> have := hr k hk
  · rwa [List.getElem?_append_left (by omega)] at this
  · rwa [List.getElem?_append_left (by omega)]

theorem resyncPoint_drop (a : List UInt8) (o p : Nat) :
    ResyncPoint (a.drop o) p ↔ ResyncPoint a (o + p) := by
  unfold ResyncPoint
  simp [List.getElem?_drop, Nat.add_assoc]

theorem copyPacket_spec (s : St) (hi : Inv s) (h : s.pos + 188 ≤ s.data.length)
    (hb : s.data[s.pos]? = some 0x47) :
    ∃ s', copyPacket s = .ok (some ((rest s).take 188), s') ∧ Inv s' ∧
      rest s' = (rest s).drop 188 := by
  have hl : 188 ≤ (s.data.drop s.pos).length := by simp; omega
  have hhead : ((s.data.drop s.pos).take pktSize).head? = some syncByte := by
    rw [List.head?_take, if_neg (by simp [pktSize]), List.head?_drop]; exact hb
  have htake : (rest s).take 188 = (s.data.drop s.pos).take pktSize := by
    simp only [rest, pktSize]; rw [List.take_append_of_le_length hl]
  refine ⟨{ s with pos := s.pos + pktSize }, ?_, ⟨?_, hi.len_le, hi.reads_le, hi.not_eof⟩, ?_⟩
  · rw [htake]
    have h' : s.pos + pktSize ≤ s.data.length := h
    simp [copyPacket, h', hhead]
  · exact h
  · simp only [rest, pktSize]
    rw [List.drop_append_of_le_length hl, List.drop_drop]

/-- One call of `GetNextPacket` follows the framing specification. -/
theorem getNextPacket_spec (bs : List UInt8) (o : Nat) (s : St) (hi : Inv s)
    (hr : rest s = bs.drop o) :
    (∃ s', getNextPacket s = .ok (none, s') ∧ Frames bs o []) ∨
    (∃ s' o', getNextPacket s = .ok (some (slice bs o'), s') ∧ Inv s' ∧
      rest s' = bs.drop (o' + 188) ∧ o ≤ o' ∧ o' + 188 ≤ bs.length ∧
      (∀ os, Frames bs (o' + 188) os → Frames bs o (o' :: os))) := by
  have hlen : (rest s).length = bs.length - o := by rw [hr]; simp
  have hf := fillBuffer_spec pktSize (by decide) s hi
  by_cases hge : pktSize ≤ (rest s).length
  · rw [if_pos hge] at hf
    obtain ⟨s1, e1, hi1, hr1, hl1⟩ := hf
    have hl1' : s1.pos + 188 ≤ s1.data.length := hl1
    have hle : o + 188 ≤ bs.length := by simp only [pktSize] at hge; omega
    have hlt1 : s1.pos < s1.data.length := by omega
    have hb1 : s1.data[s1.pos]? = bs[o]? := by
      have a : (rest s1)[0]? = s1.data[s1.pos]? := by
        rw [rest, List.getElem?_append_left (by simp; omega), List.getElem?_drop]; simp
      rw [← a, hr1, hr, List.getElem?_drop]; simp
    by_cases hb : bs[o]? = some 0x47
    · right
      obtain ⟨s2, e2, hi2, hr2⟩ := copyPacket_spec s1 hi1 hl1' (hb1.trans hb)
      have hbb : s1.data[s1.pos] = syncByte := by
        have := hb1.trans hb
        rw [List.getElem?_eq_getElem hlt1] at this
        exact Option.some.inj this
      refine ⟨s2, o, ?_, hi2, ?_, by omega, hle, ?_⟩
      · simp only [getNextPacket, e1, bind_ok, if_true, at?_ok hlt1, hbb, e2]
        rw [hr1, hr]; rfl
      · rw [hr2, hr1, hr, List.drop_drop]
      · intro os hos; exact .packet hle hb hos
    · have hbb : ¬ s1.data[s1.pos] = syncByte := by
        intro hc
        apply hb
        rw [← hb1, List.getElem?_eq_getElem hlt1, hc]; rfl
      have hf2 := fillBuffer_spec maxResyncBytes (by decide) s1 hi1
      have h940 : maxResyncBytes = 940 := rfl
      by_cases hge2 : maxResyncBytes ≤ (rest s1).length
      · rw [if_pos hge2] at hf2
        obtain ⟨s2, e2, hi2, hr2, hl2⟩ := hf2
        have hle2 : o + 940 ≤ bs.length := by rw [hr1, hr] at hge2; simp at hge2; omega
        have hl2' : s2.pos + maxDropBytes + 3 * 188 ≤ s2.data.length := by
          rw [h940] at hl2; simp only [maxDropBytes, pktSize]; omega
        have hpt : ∀ i, i < 376 → (ResyncPoint s2.data (s2.pos + i) ↔ ResyncPoint bs (o + i)) := by
          intro i hi'
          have l : i + 3 * 188 < (s2.data.drop s2.pos).length := by
            simp; rw [h940] at hl2; omega
          rw [← resyncPoint_drop, ← resyncPoint_append _ (streamOf s2.reads) _ l,
            ← resyncPoint_drop bs]
          have : s2.data.drop s2.pos ++ streamOf s2.reads = bs.drop o := by
            rw [← hr, ← hr1, ← hr2]; rfl
          rw [this]
        rcases resyncLoop_spec s2.data maxDropBytes s2.pos hl2' with
          ⟨i, hilt, hpi, hno, e3⟩ | ⟨hno, e3⟩
        · right
          have hilt' : i < 376 := hilt
          have hi3 : Inv { s2 with pos := s2.pos + i } :=
            ⟨by show s2.pos + i ≤ s2.data.length; rw [h940] at hl2; omega, hi2.len_le, hi2.reads_le, hi2.not_eof⟩
          have hl3 : s2.pos + i + 188 ≤ s2.data.length := by rw [h940] at hl2; omega
          have hb3 : s2.data[s2.pos + i]? = some 0x47 := by
            have := hpi 0 (by omega); simpa using this
          have hr3 : rest { s2 with pos := s2.pos + i } = bs.drop (o + i) := by
            have : (rest s2).drop i = bs.drop (o + i) := by
              rw [hr2, hr1, hr, List.drop_drop]
            rw [← this]
            simp only [rest]
            rw [List.drop_append_of_le_length (by simp; rw [h940] at hl2; omega), List.drop_drop]
          obtain ⟨s4, e4, hi4, hr4⟩ := copyPacket_spec { s2 with pos := s2.pos + i } hi3 hl3 hb3
          have hlt3 : s2.pos + i < s2.data.length := by omega
          have hbb3 : s2.data[s2.pos + i] = syncByte := by
            rw [List.getElem?_eq_getElem hlt3] at hb3
            exact Option.some.inj hb3
          refine ⟨s4, o + i, ?_, hi4, ?_, by omega, by omega, ?_⟩
          · simp only [getNextPacket, resync, e1, e2, e3, bind_ok, if_true, at?_ok hlt1, hbb, if_false,
              at?_ok hlt3, hbb3, decide_true, assertThat_true, e4]
            rw [hr3]; rfl
          · rw [hr4, hr3, List.drop_drop]
          · intro os hos
            exact .skip i hle2 hb hilt' ((hpt i hilt').1 hpi)
              (fun j hj hc => hno j hj ((hpt j (by omega)).2 hc)) hos
        · left
          refine ⟨{ s2 with pos := s2.pos + maxDropBytes }, ?_, ?_⟩
          · simp only [getNextPacket, resync, e1, e2, e3, bind_ok, if_true, at?_ok hlt1, hbb, if_false]
            simp
          · exact .lost hle2 hb (fun i hi' hc => hno i hi' ((hpt i hi').2 hc))
      · rw [if_neg hge2] at hf2
        obtain ⟨s2, e2⟩ := hf2
        left
        refine ⟨s2, ?_, ?_⟩
        · simp only [getNextPacket, resync, e1, e2, bind_ok, if_true, at?_ok hlt1, hbb, if_false]
          simp
        · refine .short hle hb ?_
          rw [hr1, hr] at hge2; simp [h940] at hge2; omega
  · rw [if_neg hge] at hf
    obtain ⟨s1, e1⟩ := hf
    left
    refine ⟨s1, ?_, .done ?_⟩
    · simp [getNextPacket, e1]
    · simp only [pktSize] at hge; omega

theorem inv_init (reads : List (List UInt8)) (h : ∀ c ∈ reads, c.length ≤ 16384) :
    Inv (init reads) := ⟨by simp [init], by simp [init], h, rfl⟩

/-- The framing specification determines the packets. -/
theorem Frames.unique {bs o a b} (ha : Frames bs o a) (hb : Frames bs o b) : a = b := by
  induction ha generalizing b with
  | done h => cases hb <;> first | rfl | omega
  | packet h1 h2 _ ih =>
    cases hb with
    | done => omega
    | packet _ _ h => rw [ih h]
    | short _ h => exact absurd h2 h
    | lost _ h => exact absurd h2 h
    | skip _ _ h => exact absurd h2 h
  | short h1 h2 h3 =>
    cases hb with
    | done => rfl
    | packet _ h => exact absurd h h2
    | short => rfl
    | lost => rfl
    | skip => omega
  | lost h1 h2 h3 =>
    cases hb with
    | done => rfl
    | packet _ h => exact absurd h h2
    | short => rfl
    | lost => rfl
    | skip i _ _ hi h => exact absurd h (h3 i hi)
  | skip i h1 h2 h3 h4 h5 _ ih =>
    cases hb with
    | done => omega
    | packet _ h => exact absurd h h2
    | short => omega
    | lost _ _ h => exact absurd h4 (h i h3)
    | skip j _ _ hj hj4 hj5 h =>
      have : i = j := by
        rcases Nat.lt_trichotomy i j with hlt | heq | hgt
        · exact absurd h4 (hj5 i hlt)
        · exact heq
        · exact absurd hj4 (h5 j hgt)
      subst this
      rw [ih h]

end Mirakc.FileSource
