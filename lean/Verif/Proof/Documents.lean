import Verif.Spec.Documents
import Verif.Proof.Json
import Verif.Proof.Main
/-
The documents are as described.
-/
namespace Mirakc.Documents
open Mirakc.Spec.Documents Mirakc.Main
open Mirakc.Spec.EventsJson (Pairwise₂)

theorem pairwise_map {α β : Type} {R : α → β → Prop} {f : α → β} :
    ∀ l : List α, (∀ x ∈ l, R x (f x)) → Pairwise₂ R l (l.map f) := by
  intro l
  induction l with
  | nil => intro _; exact .nil
  | cons a l ih =>
    intro h
    exact .cons (h a List.mem_cons_self) (ih fun x hx => h x (List.mem_cons_of_mem _ hx))

theorem groupEvent_is (type : Nat) (e : GroupEvent) : IsGroupEvent type e (groupEventJson type e) := by
  unfold groupEventJson IsGroupEvent
  split
  · exact ⟨rfl, rfl, rfl, rfl⟩
  · exact ⟨rfl, rfl, rfl, rfl⟩

theorem descriptor_is {x : Descriptor} {j : Json} (h : descriptorJson x = some j) : IsDescriptor x j := by
  cases x with
  | shortEvent name text =>
    cases h
    cases name <;> cases text <;> exact ⟨rfl, rfl, rfl⟩
  | component a b c e text =>
    cases h
    cases text <;> exact ⟨rfl, rfl, rfl, rfl, rfl, rfl⟩
  | content l =>
    cases h
    exact ⟨rfl, _, rfl, pairwise_map l fun _ _ => rfl⟩
  | audio a =>
    obtain ⟨a1, a2, a3, a4, a5, a6, a7, a8, a9, a10, a11⟩ := a
    cases h
    cases a5 <;> cases a11 <;> exact ⟨rfl, rfl, rfl, rfl, rfl, rfl, rfl, rfl, rfl, rfl, rfl, rfl⟩
  | series s =>
    obtain ⟨a1, a2, a3, a4, a5, a6, a7⟩ := s
    cases h
    cases a4 with
    | none => cases a7 <;> exact ⟨rfl, rfl, rfl, rfl, rfl, rfl, rfl, rfl⟩
    | some t =>
      have ht : 0 ≤ t → t < 2 ^ 64 → t % 2 ^ 64 = t := by intro h1 h2; omega
      cases a7 <;> refine ⟨rfl, rfl, rfl, rfl, fun h1 h2 => ?_, rfl, rfl, rfl⟩
      · show some (Json.num (t % 2 ^ 64)) = some (.num t)
        rw [ht h1 h2]
      · show some (Json.num (t % 2 ^ 64)) = some (.num t)
        rw [ht h1 h2]
  | group type events =>
    cases h
    exact ⟨rfl, rfl, _, rfl, pairwise_map events fun e _ => groupEvent_is type e⟩
  | other => cases h

theorem descriptor_shown (x : Descriptor) : (∃ j, descriptorJson x = some j ∧ isShown x = true) ∨
    (descriptorJson x = none ∧ isShown x = false) := by
  cases x
  case other => exact .inr ⟨rfl, rfl⟩
  all_goals exact .inl ⟨_, rfl, rfl⟩

theorem descs_are (l : List (Bool × Descriptor)) :
    Pairwise₂ IsDescriptor ((l.filter fun (v, x) => v && isShown x).map (·.2))
      (l.filterMap fun (v, x) => if v then descriptorJson x else none) := by
  induction l with
  | nil => exact .nil
  | cons a l ih =>
    obtain ⟨v, x⟩ := a
    rcases descriptor_shown x with ⟨j, h1, h2⟩ | ⟨h1, h2⟩
    · cases v with
      | false => simpa using ih
      | true =>
        simp only [List.filter_cons, h2, Bool.and_self, if_true, List.map_cons, List.filterMap_cons, h1]
        exact .cons (descriptor_is h1) ih
    · cases v <;> simpa [h1, h2] using ih

theorem list_are (l : List (Bool × Option Descriptor)) :
    Pairwise₂ IsDescriptor ((l.filter (·.1)).filterMap fun (_, x) => x.filter isShown) (listJson l) := by
  induction l with
  | nil => exact .nil
  | cons a l ih =>
    obtain ⟨v, x⟩ := a
    unfold listJson at ih ⊢
    cases v with
    | false => simpa using ih
    | true =>
      cases x with
      | none => simpa using ih
      | some x =>
        rcases descriptor_shown x with ⟨j, h1, h2⟩ | ⟨h1, h2⟩
        · simp only [List.filter_cons, if_true, List.filterMap_cons, Option.filter, h2, Option.bind, h1]
          exact .cons (descriptor_is h1) ih
        · simpa [Option.filter, h1, h2] using ih

theorem extended_is (l : List (List UInt8 × List UInt8)) : IsExtended l (extendedJson l) :=
  ⟨rfl, _, rfl, pairwise_map l fun _ _ => rfl⟩

theorem block_are (b : Block) : AreDescriptors b (blockJson b) :=
  ⟨_, _, rfl, descs_are b.descs, pairwise_map _ fun l _ => extended_is l⟩

theorem event_is (d : Decoders) (e : JsonEvent) : IsEvent d e (eventJson d e) := by
  refine ⟨rfl, ?_, ?_, rfl, _, rfl, block_are _⟩
  · show IsTime _ e.startTime _
    unfold eventJson
    cases e.startTime <;> rfl
  · show IsTime _ e.duration _
    unfold eventJson
    cases e.duration <;> rfl

theorem tableEvent_is (d : Decoders) (e : ProgramMetadataFilter.EventJson) :
    IsTableEvent d e (tsEventJson d e) :=
  ⟨rfl, rfl, rfl, rfl, _, rfl, list_are _⟩

theorem makeEvent_eq (e : Event) : ProgramMetadataFilter.makeEvent e =
    ⟨e.eventId, e.startTime - 32400000, 1000 * e.duration, e.rest⟩ := by
  unfold ProgramMetadataFilter.makeEvent
  rw [Int.mul_comm]
  rfl

theorem message_is (d : Decoders) (m : ServiceRecorder.Msg) : IsMessage d (messageJson d m) m := by
  cases m with
  | start => exact ⟨rfl, rfl⟩
  | stop reset => exact ⟨rfl, _, rfl, rfl⟩
  | chunk t p => exact ⟨rfl, _, _, rfl, rfl, rfl, rfl⟩
  | eventStart eit ev t p =>
    refine ⟨rfl, _, _, _, rfl, rfl, rfl, rfl, rfl, ?_, rfl, rfl, rfl⟩
    rw [← makeEvent_eq]
    exact tableEvent_is d _
  | eventUpdate eit ev t p =>
    refine ⟨rfl, _, _, _, rfl, rfl, rfl, rfl, rfl, ?_, rfl, rfl, rfl⟩
    rw [← makeEvent_eq]
    exact tableEvent_is d _
  | eventEnd eit ev t p =>
    refine ⟨rfl, _, _, _, rfl, rfl, rfl, rfl, rfl, ?_, rfl, rfl, rfl⟩
    rw [← makeEvent_eq]
    exact tableEvent_is d _

theorem describes {d : Decoders} {x : Doc} {j : Json} (h : docJson d x = some j) : Describes d x j := by
  cases x with
  | services l =>
    cases h
    refine ⟨_, rfl, pairwise_map l fun s _ => ?_⟩
    obtain ⟨a1, a2, a3, a4, a5, a6, a7⟩ := s
    cases a7 <;> exact ⟨rfl, rfl, rfl, rfl, rfl, rfl, rfl⟩
  | clocks l =>
    cases h
    exact ⟨_, rfl, pairwise_map l fun s _ => ⟨rfl, rfl, rfl, _, rfl, rfl, rfl, rfl⟩⟩
  | eit e =>
    cases h
    exact ⟨rfl, rfl, rfl, rfl, rfl, rfl, rfl, rfl, _, rfl, pairwise_map _ fun e _ => event_is d e⟩
  | logo l =>
    obtain ⟨a1, a2, a3, a4, a5, a6⟩ := l
    cases h
    cases a6 with
    | none => exact ⟨rfl, rfl, rfl, rfl, rfl, rfl⟩
    | some svs => exact ⟨rfl, rfl, rfl, rfl, rfl, _, rfl, pairwise_map _ fun _ _ => ⟨rfl, rfl, rfl⟩⟩
  | metadata m =>
    cases h
    exact ⟨rfl, rfl, rfl, _, rfl, pairwise_map _ fun e _ => tableEvent_is d e⟩
  | message m => cases h; exact message_is d m
  | airtime a => cases h; exact ⟨rfl, rfl, rfl, rfl, rfl, rfl⟩
  | line l => cases h

/-! ### Names of members -/

/-- Names given one by one are different. -/
local macro "names" : tactic => `(tactic| (
  simp only [List.map_cons, List.map_nil, List.cons_append, List.nil_append, List.append_nil, member,
    optional, Option.toList, if_true, if_false, Bool.false_eq_true]; decide))

/-- The values given one by one have different names inside. -/
local macro "values" : tactic => `(tactic| (
  simp [DistinctMembers, Distinct, member, optional, nat]))

theorem distinctItems_iff (l : List Json) : DistinctItems l ↔ ∀ x ∈ l, Distinct x := by
  induction l with
  | nil => simp [DistinctItems]
  | cons x l ih => simp [DistinctItems, ih]

theorem distinct_arr {l : List Json} (h : ∀ x ∈ l, Distinct x) : Distinct (.arr l) := by
  rw [Distinct, distinctItems_iff]; exact h

theorem distinctMembers_append (l r : List (List UInt8 × Json)) :
    DistinctMembers (l ++ r) ↔ DistinctMembers l ∧ DistinctMembers r := by
  induction l with
  | nil => simp [DistinctMembers]
  | cons x l ih => obtain ⟨k, x⟩ := x; simp [DistinctMembers, ih, and_assoc]

theorem distinct_descriptor {x : Descriptor} {j : Json} (h : descriptorJson x = some j) : Distinct j := by
  cases x with
  | shortEvent name text =>
    cases h
    cases name <;> cases text <;> exact ⟨by names, by values⟩
  | component a b c e text =>
    cases h
    cases text <;> exact ⟨by names, by values⟩
  | content l =>
    cases h
    refine ⟨by names, trivial, distinct_arr fun x hx => ?_, trivial⟩
    obtain ⟨y, _, rfl⟩ := List.mem_map.1 hx
    exact ⟨trivial, trivial, trivial, trivial, trivial⟩
  | audio a =>
    obtain ⟨a1, a2, a3, a4, a5, a6, a7, a8, a9, a10, a11⟩ := a
    cases h
    cases a5 <;> cases a11 <;> exact ⟨by names, by values⟩
  | series s =>
    obtain ⟨a1, a2, a3, a4, a5, a6, a7⟩ := s
    cases h
    cases a4 <;> cases a7 <;> exact ⟨by names, by values⟩
  | group type events =>
    cases h
    refine ⟨by names, trivial, trivial, distinct_arr fun x hx => ?_, trivial⟩
    obtain ⟨y, _, rfl⟩ := List.mem_map.1 hx
    unfold groupEventJson
    split <;> exact ⟨by names, by values⟩
  | other => cases h

theorem distinct_block (b : Block) : Distinct (.arr (blockJson b)) := by
  refine distinct_arr fun x hx => ?_
  rcases List.mem_append.1 hx with hx | hx
  · obtain ⟨⟨v, y⟩, _, hy⟩ := List.mem_filterMap.1 hx
    cases v with
    | false => cases hy
    | true => exact distinct_descriptor hy
  · obtain ⟨y, _, rfl⟩ := List.mem_map.1 hx
    refine ⟨by names, trivial, distinct_arr fun x hx => ?_, trivial⟩
    obtain ⟨y, _, rfl⟩ := List.mem_map.1 hx
    exact ⟨trivial, trivial, trivial⟩

theorem distinct_list (l : List (Bool × Option Descriptor)) : Distinct (.arr (listJson l)) := by
  refine distinct_arr fun x hx => ?_
  obtain ⟨⟨v, y⟩, _, hy⟩ := List.mem_filterMap.1 hx
  cases v with
  | false => cases hy
  | true =>
    cases y with
    | none => cases hy
    | some y => exact distinct_descriptor hy

theorem distinct_numOrNull (t : Option Int) : Distinct (numOrNull t) := by
  cases t <;> trivial

theorem distinct_event (d : Decoders) (e : JsonEvent) : Distinct (eventJson d e) :=
  ⟨by names, trivial, distinct_numOrNull _, distinct_numOrNull _, trivial, distinct_block _, trivial⟩

theorem distinct_tableEvent (d : Decoders) (e : ProgramMetadataFilter.EventJson) :
    Distinct (tsEventJson d e) :=
  ⟨by names, trivial, trivial, trivial, trivial, distinct_list _, trivial⟩

theorem distinct_record (t : Int) (p : Nat) : Distinct (recordJson t p) :=
  ⟨by names, trivial, trivial, trivial⟩

theorem distinct_message (d : Decoders) (m : ServiceRecorder.Msg) : Distinct (messageJson d m) := by
  cases m with
  | start => exact ⟨by names, trivial, trivial⟩
  | stop reset => exact ⟨by names, trivial, ⟨by names, trivial, trivial⟩, trivial⟩
  | chunk t p => exact ⟨by names, trivial, ⟨by names, distinct_record _ _, trivial⟩, trivial⟩
  | eventStart eit ev t p =>
    exact ⟨by names, trivial, ⟨by names, trivial, trivial, trivial, distinct_tableEvent d _,
      distinct_record _ _, trivial⟩, trivial⟩
  | eventUpdate eit ev t p =>
    exact ⟨by names, trivial, ⟨by names, trivial, trivial, trivial, distinct_tableEvent d _,
      distinct_record _ _, trivial⟩, trivial⟩
  | eventEnd eit ev t p =>
    exact ⟨by names, trivial, ⟨by names, trivial, trivial, trivial, distinct_tableEvent d _,
      distinct_record _ _, trivial⟩, trivial⟩

theorem distinct_doc {d : Decoders} {x : Doc} {j : Json} (h : docJson d x = some j) : Distinct j := by
  cases x with
  | services l =>
    cases h
    refine distinct_arr fun x hx => ?_
    obtain ⟨s, _, rfl⟩ := List.mem_map.1 hx
    obtain ⟨a1, a2, a3, a4, a5, a6, a7⟩ := s
    cases a7 <;> exact ⟨by names, by values⟩
  | clocks l =>
    cases h
    refine distinct_arr fun x hx => ?_
    obtain ⟨s, _, rfl⟩ := List.mem_map.1 hx
    exact ⟨by names, trivial, trivial, trivial, ⟨by names, trivial, trivial, trivial, trivial⟩, trivial⟩
  | eit e =>
    cases h
    refine ⟨by names, trivial, trivial, trivial, trivial, trivial, trivial, trivial, trivial,
      distinct_arr fun x hx => ?_, trivial⟩
    obtain ⟨s, _, rfl⟩ := List.mem_map.1 hx
    exact distinct_event d s
  | logo l =>
    obtain ⟨a1, a2, a3, a4, a5, a6⟩ := l
    cases h
    cases a6 with
    | none => exact ⟨by names, trivial, trivial, trivial, trivial, trivial, trivial⟩
    | some svs =>
      refine ⟨by names, trivial, trivial, trivial, trivial, trivial, distinct_arr fun x hx => ?_, trivial⟩
      obtain ⟨s, _, rfl⟩ := List.mem_map.1 hx
      exact ⟨by names, trivial, trivial, trivial, trivial⟩
  | metadata m =>
    cases h
    refine ⟨by names, trivial, trivial, trivial, distinct_arr fun x hx => ?_, trivial⟩
    obtain ⟨s, _, rfl⟩ := List.mem_map.1 hx
    exact distinct_tableEvent d s
  | message m => cases h; exact distinct_message d m
  | airtime a =>
    cases h
    exact ⟨by names, trivial, trivial, trivial, trivial, trivial, trivial, trivial⟩
  | line l => cases h

/-! ### Standard output -/

/-- Not a line of print-pes. -/
def isJson : Doc → Bool
  | .line _ => false
  | _ => true

theorem docJson_isSome (d : Decoders) {x : Doc} (h : isJson x = true) : ∃ j, docJson d x = some j := by
  cases x
  case line => cases h
  all_goals exact ⟨_, rfl⟩

/-- The documents of a list, read back. -/
theorem docs_read (d : Decoders) : ∀ l : List Doc, (∀ x ∈ l, isJson x = true) →
    ∃ js, l.filterMap (docJson d) = js ∧ Pairwise₂ (Describes d) l js ∧ ∀ j ∈ js, Distinct j := by
  intro l
  induction l with
  | nil => intro _; exact ⟨[], rfl, .nil, by simp⟩
  | cons x l ih =>
    intro h
    obtain ⟨j, hj⟩ := docJson_isSome d (h x List.mem_cons_self)
    obtain ⟨js, h1, h2, h3⟩ := ih fun y hy => h y (List.mem_cons_of_mem _ hy)
    refine ⟨j :: js, by simp [hj, h1], .cons (describes hj) h2, fun k hk => ?_⟩
    rcases List.mem_cons.1 hk with rfl | hk
    · exact distinct_doc hj
    · exact h3 k hk

/-- Packets or documents. -/
theorem main_apart {w : World} {cmd : Cmd} {e : Ended} (hc : cmd ≠ .printPes)
    (h : main w cmd = .ok e) :
    (passes cmd = true → e.docs = []) ∧
    (passes cmd = false → e.bytes = [] ∧ ∀ x ∈ e.docs, isJson x = true) := by
  have hmap : ∀ {α : Type} {f : α → Doc} {l : List α}, (∀ a, isJson (f a) = true) →
      ∀ x ∈ l.map f, isJson x = true := by
    intro α f l hf x hx
    obtain ⟨a, _, rfl⟩ := List.mem_map.1 hx
    exact hf a
  cases cmd with
  | scanServices a b =>
    simp only [main, scanServices, bind_ok_iff] at h
    obtain ⟨_, _, _, _, _, _, h⟩ := h
    cases h
    exact ⟨(by intro h; cases h), fun _ => ⟨rfl, hmap fun _ => rfl⟩⟩
  | syncClocks a b =>
    simp only [main, syncClocks, bind_ok_iff] at h
    obtain ⟨_, _, _, _, _, _, h⟩ := h
    cases h
    exact ⟨(by intro h; cases h), fun _ => ⟨rfl, hmap fun _ => rfl⟩⟩
  | collectEits a b c d f g =>
    simp only [main, collectEits, bind_ok_iff] at h
    obtain ⟨_, _, _, _, _, _, h⟩ := h
    cases h
    refine ⟨(by intro h; cases h), fun _ => ⟨rfl, fun x hx => ?_⟩⟩
    obtain ⟨y, _, hy⟩ := List.mem_filterMap.1 hx
    obtain ⟨j, _, rfl⟩ := Option.map_eq_some_iff.1 hy
    rfl
  | collectEitpf a b c d =>
    simp only [main, collectEitpf, bind_ok_iff] at h
    obtain ⟨_, _, _, _, h⟩ := h
    cases h
    refine ⟨(by intro h; cases h), fun _ => ⟨rfl, fun x hx => ?_⟩⟩
    obtain ⟨y, _, hy⟩ := List.mem_filterMap.1 hx
    obtain ⟨j, _, rfl⟩ := Option.map_eq_some_iff.1 hy
    rfl
  | collectLogos =>
    simp only [main, collectLogos, bind_ok_iff] at h
    obtain ⟨_, _, h⟩ := h
    cases h
    exact ⟨(by intro h; cases h), fun _ => ⟨rfl, hmap fun _ => rfl⟩⟩
  | filterService a =>
    simp only [main, filterService, bind_ok_iff] at h
    obtain ⟨_, _, h⟩ := h
    cases h
    exact ⟨fun _ => rfl, (by intro h; cases h)⟩
  | filterProgram a =>
    simp only [main, filterProgram, bind_ok_iff] at h
    obtain ⟨_, _, _, _, h⟩ := h
    cases h
    exact ⟨fun _ => rfl, (by intro h; cases h)⟩
  | filterProgramMetadata a =>
    simp only [main, filterProgramMetadata, bind_ok_iff] at h
    obtain ⟨_, _, h⟩ := h
    cases h
    exact ⟨(by intro h; cases h), fun _ => ⟨rfl, hmap fun _ => rfl⟩⟩
  | recordService a b c d =>
    simp only [main, recordService, bind_ok_iff] at h
    obtain ⟨_, _, _, _, _, _, h⟩ := h
    cases h
    refine ⟨(by intro h; cases h), fun _ => ⟨rfl, fun x hx => ?_⟩⟩
    obtain ⟨y, _, hy⟩ := List.mem_filterMap.1 hx
    cases y with
    | msg m => cases hy; rfl
    | op o => cases hy
  | trackAirtime a b =>
    simp only [main, trackAirtime, bind_ok_iff] at h
    obtain ⟨_, _, h⟩ := h
    cases h
    exact ⟨(by intro h; cases h), fun _ => ⟨rfl, hmap fun _ => rfl⟩⟩
  | seekStart a b c =>
    simp only [main, Main.seekStart, bind_ok_iff] at h
    obtain ⟨_, _, _, _, h⟩ := h
    cases h
    exact ⟨fun _ => rfl, (by intro h; cases h)⟩
  | printPes => exact absurd rfl hc

end Mirakc.Documents
