import Verif.Proof.ExtendedEvent
/-
C114: the items of extended event descriptors.
-/
namespace Mirakc.Props
open Mirakc.Spec.ExtendedEvent Mirakc.ExtendedEvent

/-- C114: items whose texts are cut into any pieces, spread over any number of descriptors, between
which there are others, are listed completely, in order and each exactly once.  Texts before the
first description are put before the text of the first item. -/
theorem C114_items (ds : List ExtDesc) (lead : List (List UInt8)) (ps is : List Item)
    (hd : Entries ds (lead.map (([], ·)) ++ ps)) (ht : Told is ps) :
    items ds = .ok (match (generalizing := false) is with
      | [] => []
      | i :: is => (i.1, lead.flatten ++ i.2) :: is) := by
  unfold items
  simp only [run_entries hd, ok_bind, List.foldl_append, push_texts]
  congr 1
  cases ht with
  | nil => simp [flush]
  | @cons i is ps qs hb hq =>
    obtain ⟨hn, t, ts, rfl, h2⟩ := hb
    rw [List.foldl_append, List.foldl_cons, push_texts, flush_told hq _ (.inr (by simp [push, hn]))]
    simp [push, flush, hn, h2]

/-- C114: every list of entries tells some items, after some texts without description. -/
theorem C114_any (ps : List Item) : ∃ (lead : List (List UInt8)) (qs is : List Item),
    ps = lead.map (([], ·)) ++ qs ∧ Told is qs := by
  induction ps with
  | nil => exact ⟨[], [], [], rfl, .nil⟩
  | cons p ps ih =>
    obtain ⟨lead, qs, is, rfl, ht⟩ := ih
    by_cases h : p.1 = []
    · refine ⟨p.2 :: lead, qs, is, ?_, ht⟩
      rw [List.map_cons, List.cons_append, ← h]
    · exact ⟨[], p :: (lead.map (([], ·)) ++ qs), (p.1, p.2 ++ lead.flatten) :: is, rfl,
        .cons (ps := p :: lead.map (([], ·))) ⟨h, p.2, lead, rfl, rfl⟩ ht⟩

/-- C114: the claim that no byte outside of the descriptors is read. -/
def C114_claim : Prop := ∀ ds : List ExtDesc, ∃ l, items ds = .ok l

/-- C114: it is false.  A descriptor of five bytes that announces entries is enough. -/
theorem C114_claim_false : ¬ C114_claim := by
  intro h
  obtain ⟨l, hl⟩ := h [{ payload := [0, 0x6a, 0x70, 0x6e, 2] }]
  have : items [{ payload := [0, 0x6a, 0x70, 0x6e, 2] }] = .error .oob := by rfl
  rw [this] at hl
  cases hl

/-- C114 (partial): true if each extended event descriptor has the bytes it announces, whatever
they are.  Missing: descriptors that do not. -/
theorem C114_safe_partial (ds : List ExtDesc) (h : ∀ d ∈ ds, Ignored d ∨ Complete d) :
    ∃ l, items ds = .ok l := by
  have : ∀ s, ∃ s', run ds s = .ok s' := by
    induction ds with
    | nil => exact fun s => ⟨s, rfl⟩
    | cons d ds ih =>
      intro s
      obtain ⟨s1, h1⟩ := step_safe (h d (by simp)) s
      obtain ⟨s2, h2⟩ := ih (fun d hd => h d (by simp [hd])) s1
      exact ⟨s2, by simp only [run, h1, ok_bind, h2]⟩
  obtain ⟨s, hs⟩ := this {}
  exact ⟨(flush s).items, by simp only [items, hs, ok_bind]⟩

/-- C114: behind such descriptors, one that lacks two bytes or more of what it announces always
makes the function read outside of it, whatever the bytes there are. -/
theorem C114_outside (ds es : List ExtDesc) (d : ExtDesc) (h : ∀ d ∈ ds, Ignored d ∨ Complete d)
    (hd : ¬ Ignored d) (hm : d.payload.length + 2 ≤ 5 + (d.payload.getD 4 0).toNat) :
    items (ds ++ d :: es) = .error .oob := by
  have key : ∀ s, run (ds ++ d :: es) s = .error .oob := by
    induction ds with
    | nil =>
      intro s
      have h1 : step s d = .error .oob := by
        simp only [Ignored, not_or, Decidable.not_not] at hd
        obtain ⟨a, b, c⟩ := hd
        unfold step
        rw [if_neg (by simpa using a), if_neg (by simp [b]), if_neg c]
        exact loop_oob _ _ _ s (Nat.le_refl _) (by rw [List.length_drop]; omega)
      simp only [List.nil_append, run, h1]
      rfl
    | cons e ds ih =>
      intro s
      have ih := ih (fun x hx => h x (by simp [hx]))
      obtain ⟨s1, h1⟩ := step_safe (h e (by simp)) s
      simp only [List.cons_append, run, h1, ok_bind, ih]
  simp only [items, key]
  rfl

/-- C114: exactly what happens for any descriptors.  If they have entries the items are the ones told by
them; otherwise the function reads outside of a descriptor. -/
theorem C114_exact (ds : List ExtDesc) :
    (∃ (lead : List (List UInt8)) (ps is : List Item), Entries ds (lead.map (([], ·)) ++ ps) ∧ Told is ps ∧
      items ds = .ok (match (generalizing := false) is with
        | [] => []
        | i :: is => (i.1, lead.flatten ++ i.2) :: is)) ∨
    ((¬ ∃ ps, Entries ds ps) ∧ items ds = .error .oob) := by
  have key : ∀ s, (∃ ps, Entries ds ps) ∨ run ds s = .error .oob := by
    induction ds with
    | nil => exact fun _ => .inl ⟨_, .nil⟩
    | cons d ds ih =>
      intro s
      rcases step_cases d with h | ⟨ps, h⟩ | h
      · rcases ih s with ⟨qs, hq⟩ | hq
        · exact .inl ⟨qs, .skip h hq⟩
        · exact .inr (by simp only [run, step_ignored h, ok_bind, hq])
      · rcases ih (ps.foldl push s) with ⟨qs, hq⟩ | hq
        · exact .inl ⟨_, .more h hq⟩
        · exact .inr (by simp only [run, step_carries h, ok_bind, hq])
      · right
        simp only [run, h]
        rfl
  by_cases he : ∃ ps, Entries ds ps
  · obtain ⟨ps, hp⟩ := he
    obtain ⟨lead, qs, is, rfl, ht⟩ := C114_any ps
    exact .inl ⟨lead, qs, is, hp, ht, C114_items ds lead qs is hp ht⟩
  · refine .inr ⟨he, ?_⟩
    simp only [items, (key {}).resolve_left he]
    rfl

/-- C114: the document has the decoded descriptions and texts of the items, in order. -/
theorem C114_document (decode : List UInt8 → List UInt8) (ds : List ExtDesc) (is : List Item)
    (h : items ds = .ok is) :
    json decode ds = .ok (Documents.extendedJson (is.map fun i => (decode i.1, decode i.2))) := by
  simp only [json, h, ok_bind]

namespace C114ex
/-- A text in three pieces over two descriptors, and a second item; a descriptor of another kind
between them. -/
def d1 : ExtDesc := { payload := [0x01, 0x6a, 0x70, 0x6e, 10] ++ [2, 65, 66, 1, 97, 0, 3, 98, 99, 100] ++ [0] }
def d2 : ExtDesc := { tag := 0x4D, payload := [0x6a, 0x70, 0x6e, 0, 0, 9] }
def d3 : ExtDesc := { payload := [0x11, 0x6a, 0x70, 0x6e, 7] ++ [0, 1, 101, 1, 67, 1, 102] ++ [0] }
def is : List Item := [([65, 66], [97, 98, 99, 100, 101]), ([67], [102])]
theorem entries : Entries [d1, d2, d3] [([65, 66], [97]), ([], [98, 99, 100]), ([], [101]), ([67], [102])] :=
  .more (ps := [([65, 66], [97]), ([], [98, 99, 100])])
    ⟨rfl, rfl, [0x01, 0x6a, 0x70, 0x6e], 10, rfl,
      .inl ⟨[2, 65, 66, 1, 97, 0, 3, 98, 99, 100], [0], rfl, rfl, read_code [([65, 66], [97]), ([], [98, 99, 100])] (by decide)⟩⟩
    (.skip (.inr (.inl (by decide)))
      (.more (ps := [([], [101]), ([67], [102])]) (qs := [])
        ⟨rfl, rfl, [0x11, 0x6a, 0x70, 0x6e], 7, rfl,
        .inl ⟨[0, 1, 101, 1, 67, 1, 102], [0], rfl, rfl, read_code [([], [101]), ([67], [102])] (by decide)⟩⟩ .nil))
theorem told : Told is [([65, 66], [97]), ([], [98, 99, 100]), ([], [101]), ([67], [102])] :=
  .cons (ps := [([65, 66], [97]), ([], [98, 99, 100]), ([], [101])])
    ⟨by decide, [97], [[98, 99, 100], [101]], rfl, rfl⟩
    (.cons (ps := [([67], [102])]) (qs := []) ⟨by decide, [102], [], rfl, rfl⟩ .nil)
end C114ex

/-- A non-trivial case of C114_items. -/
example : items [C114ex.d1, C114ex.d2, C114ex.d3] = .ok C114ex.is :=
  C114_items _ [] _ _ C114ex.entries C114ex.told

/-- The text before the first description. -/
example : items [C114ex.d3] = .ok [([67], [101, 102])] :=
  C114_items [C114ex.d3] [[101]] [([67], [102])] [([67], [102])]
    (.more (ps := [([], [101]), ([67], [102])]) (qs := [])
      ⟨rfl, rfl, [0x11, 0x6a, 0x70, 0x6e], 7, rfl,
        .inl ⟨[0, 1, 101, 1, 67, 1, 102], [0], rfl, rfl, read_code [([], [101]), ([67], [102])] (by decide)⟩⟩ .nil)
    (.cons (ps := [([67], [102])]) (qs := []) ⟨by decide, [102], [], rfl, rfl⟩ .nil)

/-- A cut text, and a descriptor that lacks one byte: the entry before it counts, and it is not read; if
the entry itself lacks the byte the function reads outside. -/
example : items [{ payload := [0, 0, 0, 0, 4, 1, 65, 200, 97] }, { payload := [0, 0, 0, 0, 5, 0, 2, 98, 99] }] =
      .ok [([65], [97, 98, 99])] ∧
    (¬ ∃ ps, Entries [{ payload := [0, 0, 0, 0, 5, 0, 3, 98, 99] }] ps) := by
  constructor
  · exact C114_items _ [] [([65], [97]), ([], [98, 99])] [([65], [97, 98, 99])]
      (.more (ps := [([65], [97])]) (qs := [([], [98, 99])])
        ⟨rfl, rfl, [0, 0, 0, 0], 4, rfl, .inl ⟨[1, 65, 200, 97], [], rfl, rfl,
          .text (b := 1) (c := 200) (d := [65]) (t := [97]) rfl (by decide)⟩⟩
        (.more (ps := [([], [98, 99])]) (qs := [])
          ⟨rfl, rfl, [0, 0, 0, 0], 5, rfl, .inr ⟨rfl, rfl⟩⟩ .nil))
      (.cons (ps := [([65], [97]), ([], [98, 99])]) (qs := []) ⟨by decide, [97], [[98, 99]], rfl, rfl⟩ .nil)
  · rcases C114_exact [{ payload := [0, 0, 0, 0, 5, 0, 3, 98, 99] }] with ⟨_, _, _, _, _, h⟩ | h
    · have : items [{ payload := [0, 0, 0, 0, 5, 0, 3, 98, 99] }] = .error .oob := by rfl
      rw [this] at h
      cases h
    · exact h.1

/-- Entries that contradict their total length are no harm, a total length that contradicts the
descriptor is. -/
example : (∃ l, items [{ payload := [0, 0, 0, 0, 4, 1, 65, 200, 97] }] = .ok l) ∧
    items [C114ex.d1, { payload := [0, 0, 0, 0, 200, 1, 65, 1, 97] }, C114ex.d3] = .error .oob := by
  refine ⟨C114_safe_partial _ (fun d hd => .inr ?_), C114_outside [C114ex.d1] [C114ex.d3] _ (fun d hd => .inr ?_) ?_ ?_⟩
  · simp only [List.mem_singleton] at hd
    subst hd
    unfold Complete
    decide
  · simp only [List.mem_singleton] at hd
    subst hd
    unfold Complete
    decide
  · unfold Ignored
    decide
  · decide

end Mirakc.Props
