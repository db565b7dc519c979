import Verif.Proof.EitpfCollector
import Verif.Proof.StopsAt
import Verif.Spec.EitAborts
/-
When collect-eits and collect-eitpf terminate abnormally.
-/
set_option linter.unusedSimpArgs false
namespace Mirakc
open Mirakc.Spec
open Mirakc.EitCollector (DemuxCall)

/-- Handling calls one by one, each of which writes what is due, or fails. -/
theorem wrote_exact {σ : Type} {Due : List EitSection → Section → EitSection → Prop}
    {handle : σ → SectionEvent → Except Fault (σ × Option EitSection)}
    {all : List SectionEvent → σ → Except Fault (σ × List DemuxCall)}
    (hnil : ∀ s, all [] s = .ok (s, []))
    (hcons : ∀ ev evs s, all (ev :: evs) s =
      (do let (s, out) ← handle s ev; let (s, calls) ← all evs s; .ok (s, ⟨ev, out⟩ :: calls)))
    (Inv : σ → List EitSection → Prop)
    (huniq : ∀ l x e e', Due l x e → Due l x e' → e = e')
    (hstep : ∀ s l ev, Inv s l →
      ((∀ x, ev = .sect x → ∀ e, ¬ Due l x e) ∧ ∃ s', handle s ev = .ok (s', none) ∧ Inv s' l) ∨
      (∃ x e, ev = .sect x ∧ Due l x e ∧
        ((Spec.EventsJson.WellFormed (x.payload.drop 6) ∧ ∃ s', handle s ev = .ok (s', some e) ∧ Inv s' (l ++ [e])) ∨
         (¬ Spec.EventsJson.WellFormed (x.payload.drop 6) ∧ ∃ f, handle s ev = .error f)))) :
    ∀ evs s l, Inv s l →
      ((∃ f, all evs s = .error f) ∧ Unwritable Due l evs ∧ ∀ l', ¬ Wrote Due l evs l') ∨
      (∃ s' cs l', all evs s = .ok (s', cs) ∧ Wrote Due l evs l' ∧ (∀ l2, Wrote Due l evs l2 → l2 = l') ∧
        ¬ Unwritable Due l evs ∧ Inv s' l' ∧ l' = l ++ cs.filterMap (·.out)) := by
  intro evs
  induction evs with
  | nil =>
    intro s l hi
    refine .inr ⟨s, [], l, hnil s, .nil l, ?_, ?_, hi, by simp⟩
    · intro l2 h; cases h; rfl
    · rintro ⟨pre, x, post, _, _, h, _⟩; simp at h
  | cons ev evs ih =>
    intro s l hi
    rw [hcons]
    rcases hstep s l ev hi with ⟨h1, s', h2, h3⟩ | ⟨x, e, rfl, h1, ⟨h2, s', h3, h4⟩ | ⟨h2, f, h3⟩⟩
    · rw [h2]
      simp only [ok_bind]
      have hw : ∀ l', Wrote Due l (ev :: evs) l' ↔ Wrote Due l evs l' := by
        intro l'
        constructor
        · intro h
          cases h with
          | skip _ h => exact h
          | write h _ _ => exact absurd h (h1 _ rfl _)
        · exact .skip h1
      have hu : Unwritable Due l (ev :: evs) ↔ Unwritable Due l evs := by
        constructor
        · rintro ⟨pre, x, post, l', e, k1, k2, k3, k4⟩
          cases pre with
          | nil =>
            simp only [List.nil_append, List.cons.injEq] at k1
            cases k2
            exact absurd k3 (h1 _ k1.1 _)
          | cons p pre =>
            simp only [List.cons_append, List.cons.injEq] at k1
            obtain ⟨rfl, rfl⟩ := k1
            refine ⟨pre, x, post, l', e, rfl, ?_, k3, k4⟩
            cases k2 with
            | skip _ h => exact h
            | write h _ _ => exact absurd h (h1 _ rfl _)
        · rintro ⟨pre, x, post, l', e, rfl, k2, k3, k4⟩
          exact ⟨ev :: pre, x, post, l', e, rfl, .skip h1 k2, k3, k4⟩
      simp only [hw, hu]
      rcases ih s' l h3 with ⟨⟨f, k1⟩, k2, k3⟩ | ⟨s2, cs, l', k1, k2, k3, k4, k5, k6⟩
      · exact .inl ⟨⟨f, by rw [k1]; rfl⟩, k2, k3⟩
      · exact .inr ⟨s2, _, l', by rw [k1]; rfl, k2, k3, k4, k5, by rw [k6]; simp⟩
    · rw [h3]
      simp only [ok_bind]
      have hw : ∀ l', Wrote Due l (.sect x :: evs) l' ↔ Wrote Due (l ++ [e]) evs l' := by
        intro l'
        constructor
        · intro h
          cases h with
          | skip h _ => exact absurd h1 (h _ rfl _)
          | write h _ k => rw [huniq _ _ _ _ h1 h]; exact k
        · exact .write h1 h2
      have hu : Unwritable Due l (.sect x :: evs) ↔ Unwritable Due (l ++ [e]) evs := by
        constructor
        · rintro ⟨pre, y, post, l', e', k1, k2, k3, k4⟩
          cases pre with
          | nil =>
            simp only [List.nil_append, List.cons.injEq, SectionEvent.sect.injEq] at k1
            rw [← k1.1] at k4
            exact absurd h2 k4
          | cons p pre =>
            simp only [List.cons_append, List.cons.injEq] at k1
            obtain ⟨rfl, rfl⟩ := k1
            refine ⟨pre, y, post, l', e', rfl, ?_, k3, k4⟩
            cases k2 with
            | skip h _ => exact absurd h1 (h _ rfl _)
            | write h _ k => rw [huniq _ _ _ _ h1 h]; exact k
        · rintro ⟨pre, y, post, l', e', rfl, k2, k3, k4⟩
          exact ⟨.sect x :: pre, y, post, l', e', rfl, .write h1 h2 k2, k3, k4⟩
      simp only [hw, hu]
      rcases ih s' (l ++ [e]) h4 with ⟨⟨f, k1⟩, k2, k3⟩ | ⟨s2, cs, l', k1, k2, k3, k4, k5, k6⟩
      · exact .inl ⟨⟨f, by rw [k1]; rfl⟩, k2, k3⟩
      · exact .inr ⟨s2, _, l', by rw [k1]; rfl, k2, k3, k4, k5, by rw [k6]; simp⟩
    · rw [h3]
      refine .inl ⟨⟨f, rfl⟩, ⟨[], x, evs, l, e, rfl, .nil l, h1, h2⟩, ?_⟩
      intro l' h
      cases h with
      | skip h _ => exact absurd h1 (h _ rfl _)
      | write h k _ => exact absurd k h2

theorem wrote_append {Due : List EitSection → Section → EitSection → Prop} {l l1 l2 : List EitSection}
    {a b : List SectionEvent} (h : Wrote Due l a l1) (h' : Wrote Due l1 b l2) : Wrote Due l (a ++ b) l2 := by
  induction h with
  | nil l => exact h'
  | skip h1 _ ih => exact .skip h1 (ih h')
  | write h1 h2 _ ih => exact .write h1 h2 (ih h')

theorem wrote_unique {Due : List EitSection → Section → EitSection → Prop}
    (huniq : ∀ l x e e', Due l x e → Due l x e' → e = e') {l l1 l2 : List EitSection} {a : List SectionEvent}
    (h : Wrote Due l a l1) (h' : Wrote Due l a l2) : l2 = l1 := by
  induction h with
  | nil l => cases h'; rfl
  | skip h1 _ ih =>
    cases h' with
    | skip _ h' => exact ih h'
    | write h2 _ _ => exact absurd h2 (h1 _ rfl _)
  | write h1 h2 _ ih =>
    cases h' with
    | skip h3 _ => exact absurd h1 (h3 _ rfl _)
    | write h3 _ h' => rw [huniq _ _ _ _ h3 h1] at h'; exact ih h'

theorem handedOver_eq (pids : PidSet) (i : SectionInput) : handedOver pids i = delivered pids i := by
  unfold handedOver delivered
  split
  · next h =>
    apply List.filter_congr
    intro ev _
    simp only [List.contains_eq_mem, h, decide_true, Bool.and_true]
    rfl
  · next h =>
    rw [List.filter_eq_nil_iff]
    intro ev _
    simp [h]

namespace EitCollector
open Mirakc.Spec.EitCollector

theorem sections_of_calls (cs : List DemuxCall) : sections (log cs) = cs.filterMap (·.out) := by
  induction cs with
  | nil => rfl
  | cons c cs ih =>
    rw [log_cons, sections_append, ih, List.filterMap_cons]
    unfold evOf
    cases hc : c.out with
    | some e => simp [sections]
    | none =>
      simp only
      split
      · split
        · split
          · simp [sections]
          · simp [sections]
        · simp [sections]
      · simp [sections]

theorem due_unique {o : Opt} {l : List EitSection} {x : Section} {e e' : EitSection} (h : Due o l x e)
    (h' : Due o l x e') : e = e' := shows_unique h.2.1 h'.2.1

theorem handleEvent_exact {o : Opt} {s : St} {l : List EitSection} (ev : SectionEvent)
    (hi : ∃ l0, sections l0 = l ∧ Inv s l0) :
    ((∀ x, ev = .sect x → ∀ e, ¬ Due o l x e) ∧ ∃ s', handleEvent o s ev = .ok (s', none) ∧
      ∃ l0, sections l0 = l ∧ Inv s' l0) ∨
    (∃ x e, ev = .sect x ∧ Due o l x e ∧
      ((Spec.EventsJson.WellFormed (x.payload.drop 6) ∧ ∃ s', handleEvent o s ev = .ok (s', some e) ∧
          ∃ l0, sections l0 = l ++ [e] ∧ Inv s' l0) ∨
       (¬ Spec.EventsJson.WellFormed (x.payload.drop 6) ∧ ∃ f, handleEvent o s ev = .error f))) := by
  obtain ⟨l0, rfl, hi⟩ := hi
  have good : ∀ s' out, handleEvent o s ev = .ok (s', out) →
      ((∀ x, ev = .sect x → ∀ e, ¬ Due o (sections l0) x e) ∧ ∃ s', handleEvent o s ev = .ok (s', none) ∧
        ∃ l1, sections l1 = sections l0 ∧ Inv s' l1) ∨
      (∃ x e, ev = .sect x ∧ Due o (sections l0) x e ∧ ∃ s', handleEvent o s ev = .ok (s', some e) ∧
          ∃ l1, sections l1 = sections l0 ++ [e] ∧ Inv s' l1) := by
    intro s' out h
    obtain ⟨k1, k2⟩ := handleEvent_spec hi h
    have hsec : sections (l0 ++ (evOf ⟨ev, out⟩).toList) = sections l0 ++ out.toList := by
      have := sections_of_calls [⟨ev, out⟩]
      rw [log_cons] at this
      simp only [log, List.filterMap_nil, List.append_nil] at this
      rw [sections_append, this]
      cases out <;> rfl
    have hcall : out = none ∨ ∃ e, out = some e := by
      cases out
      · exact .inl rfl
      · exact .inr ⟨_, rfl⟩
    cases ev with
    | table t =>
      have : out = none := k1
      subst this
      refine .inl ⟨?_, s', h, _, by rw [hsec]; simp, k2⟩
      intro x h
      cases h
    | sect x =>
      by_cases hq : Requested o x
      · obtain ⟨e, hsh, r1, r2⟩ := k1.2 hq
        by_cases hk : Known (sections l0) e
        · have : out = none := r1 hk
          subst this
          refine .inl ⟨?_, s', h, _, by rw [hsec]; simp, k2⟩
          intro y hy e' hd
          cases hy
          rw [shows_unique hd.2.1 hsh] at hd
          exact hd.2.2 hk
        · have : out = some e := r2 hk
          subst this
          exact .inr ⟨x, e, rfl, ⟨hq, hsh, hk⟩, s', h, _, by rw [hsec]; simp, k2⟩
      · have : out = none := k1.1 hq
        subst this
        refine .inl ⟨?_, s', h, _, by rw [hsec]; simp, k2⟩
        intro y hy e' hd
        cases hy
        exact hq hd.1
  cases hh : handleEvent o s ev with
  | ok r =>
    rcases good r.1 r.2 hh with h | ⟨x, e, rfl, h2, h3⟩
    · rw [hh] at h; exact .inl h
    · rw [hh] at h3
      refine .inr ⟨x, e, rfl, h2, .inl ⟨?_, h3⟩⟩
      by_cases hw : Spec.EventsJson.WellFormed (x.payload.drop 6)
      · exact hw
      · exfalso
        obtain ⟨s', h4, _⟩ := h3
        cases h4
        obtain ⟨hq, hsh, hk⟩ := h2
        obtain ⟨q1, q2, q3, q4, q5, q6⟩ := requested_iff.1 hq
        obtain ⟨e', he⟩ := make_total (x := x) (by simpa [EitSection.payloadFixedSize] using q4)
        cases shows_unique hsh (make_ok he)
        have hsid : e.sid = x.ext := hsh.1
        rw [← hsid] at q5 q6
        simp only [handleEvent, handleSection, q1, Bool.not_true, Bool.false_eq_true, if_false] at hh
        rw [if_neg q2, if_neg (by simp [q3]), if_neg q4, he] at hh
        simp only [ok_bind] at hh
        rw [if_neg q5, if_neg q6] at hh
        rw [if_neg (fun h => hk ((services_known hi.services e).1 h))] at hh
        rcases makeJsonEit_total (fun _ => none) e with ⟨k, _⟩ | ⟨_, k⟩
        · rw [shows_events hsh] at k; exact hw k
        · rw [k] at hh; cases hh
  | error f =>
    cases ev with
    | table t => simp [handleEvent] at hh
    | sect x =>
      have hq : ∃ e, Due o (sections l0) x e ∧ ¬ Spec.EventsJson.WellFormed (x.payload.drop 6) := by
        by_cases hq : Requested o x
        · obtain ⟨q1, q2, q3, q4, q5, q6⟩ := requested_iff.1 hq
          obtain ⟨e, he⟩ := make_total (x := x) (by simpa [EitSection.payloadFixedSize] using q4)
          have hsh := make_ok he
          have hsid : e.sid = x.ext := hsh.1
          rw [← hsid] at q5 q6
          refine ⟨e, ⟨hq, hsh, ?_⟩, ?_⟩
          · intro hk
            simp only [handleEvent, handleSection, q1, Bool.not_true, Bool.false_eq_true, if_false] at hh
            rw [if_neg q2, if_neg (by simp [q3]), if_neg q4, he] at hh
            simp only [ok_bind] at hh
            rw [if_neg q5, if_neg q6, if_pos ((services_known hi.services e).2 hk)] at hh
            cases hh
          · intro hw
            obtain ⟨s', out, k⟩ := handleEvent_total (o := o) (ev := .sect x) (by
              intro y hy _
              cases hy
              exact hw) s
            rw [hh] at k
            cases k
        · exfalso
          obtain ⟨s', out, k⟩ := handleEvent_total (o := o) (ev := .sect x) (by
              intro y hy hq'
              cases hy
              exact absurd hq' hq) s
          rw [hh] at k
          cases k
      obtain ⟨e, h1, h2⟩ := hq
      exact .inr ⟨x, e, rfl, h1, .inr ⟨h2, f, rfl⟩⟩

theorem handleEvents_exact {o : Opt} (evs : List SectionEvent) (s : St) (l : List EitSection)
    (hi : ∃ l0, sections l0 = l ∧ Inv s l0) :
    ((∃ f, handleEvents o evs s = .error f) ∧ Unwritable (Due o) l evs ∧ ∀ l', ¬ Wrote (Due o) l evs l') ∨
      (∃ s' cs l', handleEvents o evs s = .ok (s', cs) ∧ Wrote (Due o) l evs l' ∧
        (∀ l2, Wrote (Due o) l evs l2 → l2 = l') ∧ ¬ Unwritable (Due o) l evs ∧
        (∃ l0, sections l0 = l' ∧ Inv s' l0) ∧ l' = l ++ cs.filterMap (·.out)) :=
  wrote_exact (Due := Due o) (handle := handleEvent o) (all := handleEvents o) (fun _ => rfl) (fun _ _ _ => rfl)
    (fun s l => ∃ l0, sections l0 = l ∧ Inv s l0) (fun _ _ _ _ h h' => due_unique (o := o) h h')
    (fun _ _ ev hi => handleEvent_exact ev hi) evs s l hi

theorem delivered_eq (i : SectionInput) : delivered [0x12, 0x14] i = handedOver watched i := by
  rw [handedOver_eq]
  unfold delivered watched
  have : i.packet.pid ∈ [0x12, 0x14] ↔ i.packet.pid ∈ [pidTot, pidEit] := by
    simp only [pidTot, pidEit, List.mem_cons, List.not_mem_nil, or_false]
    exact Or.comm
  simp only [this]

/-- What is written in the course of a run. -/
theorem reach_wrote {o : Opt} {items : List (Line SectionInput (List DemuxCall))} {s : St}
    (h : Reach (step o) {} items s) :
    Wrote (Due o) [] (items.flatMap fun it => delivered [0x12, 0x14] it.input) (sections (log (calls items))) := by
  induction h with
  | nil => exact .nil _
  | @snoc items s i s' cs more h1 h2 h3 ih =>
    rw [List.flatMap_append]
    refine wrote_append ih ?_
    have hc : calls (items ++ [⟨i, cs, more⟩]) = calls items ++ cs := by simp [calls]
    rw [hc]
    clear hc
    simp only [List.flatMap_cons, List.flatMap_nil, List.append_nil]
    rw [delivered_eq]
    unfold step at h3
    obtain ⟨⟨s1, cs1⟩, k1, k2⟩ := bind_eq_ok h3
    cases k2
    rcases handleEvents_exact (o := o) (handedOver watched i) s _ ⟨_, rfl, reach_inv h1⟩ with
      ⟨⟨f, q1⟩, _⟩ | ⟨s2, cs2, l', q1, q2, _, _, _, q3⟩
    · rw [q1] at k1; cases k1
    · rw [q1] at k1
      cases k1
      rw [sections_of_calls (_ ++ _), List.filterMap_append, ← sections_of_calls (calls items), ← q3]
      exact q2

theorem aborts {o : Opt} {is : List SectionInput} : Aborts (sink o) { st := {} } is ↔
    StopsAt (sink o) {} (fun items i => Unwritable (Due o) (sections (log (calls items)))
      (delivered [0x12, 0x14] i)) is := by
  refine aborts_iff _ (fun s => ⟨s, rfl⟩) (fun items s h1 h2 i => ?_) is
  rw [delivered_eq]
  unfold step
  rcases handleEvents_exact (o := o) (handedOver watched i) s _ ⟨_, rfl, reach_inv h1⟩ with
    ⟨⟨f, k1⟩, k2, _⟩ | ⟨s', cs, l', k1, k2, k3, k4, _⟩
  · rw [k1]
    exact iff_of_true ⟨f, rfl⟩ k2
  · rw [k1]
    refine iff_of_false ?_ k4
    rintro ⟨f, h⟩
    cases h

end EitCollector

/-! ### Lists without repetition -/

theorem nodup_eraseDups {α : Type} [BEq α] [LawfulBEq α] : ∀ (n : Nat) (l : List α), l.length ≤ n → l.eraseDups.Nodup := by
  intro n
  induction n with
  | zero =>
    intro l hl
    rw [List.length_eq_zero_iff.1 (by omega : l.length = 0)]
    simp
  | succ n ih =>
    intro l hl
    cases l with
    | nil => simp
    | cons a l =>
      rw [List.eraseDups_cons, List.nodup_cons]
      constructor
      · rw [List.mem_eraseDups, List.mem_filter]
        simp
      · refine ih _ (Nat.le_trans (List.length_filter_le _ _) ?_)
        simpa using hl

theorem length_of_mem_iff {α : Type} [BEq α] [LawfulBEq α] {a b : List α} (ha : a.Nodup) (hb : b.Nodup)
    (h : ∀ x, x ∈ a ↔ x ∈ b) : a.length = b.length := by
  have h1 := (subset_of_length ha (fun x hx => (h x).1 hx)).1
  have h2 := (subset_of_length hb (fun x hx => (h x).2 hx)).1
  omega

namespace EitpfCollector
open Mirakc.Spec.EitpfCollector
open Mirakc.EitCollector (make_ok make_total shows_unique serviceTriple_eq serviceTriple_toNat shows_events)
open Mirakc.Spec.EitCollector (Shows service calls)

theorem sidsSize_eq (l : SidSet) : sidsSize l = l.eraseDups.length :=
  length_of_mem_iff (nodup_distinct l) (nodup_eraseDups _ _ (Nat.le_refl _))
    (fun x => by rw [mem_distinct, List.mem_eraseDups])

theorem lastVersion_eq (n : Nat) (g : UInt16 × UInt16 × UInt16) (cs : List DemuxCall) :
    lastVersion n g (written cs) = (lastWritten n g cs).map (·.version) := rfl

theorem mem_services {n : Nat} {l : List EitSection} {g : UInt16 × UInt16 × UInt16} :
    g ∈ services n l ↔ ∃ e ∈ l, e.sectionNumber.toNat = n ∧ service e = g := by
  unfold services
  rw [List.mem_eraseDups, List.mem_map]
  simp only [List.mem_filter, decide_eq_true_eq, and_assoc]

theorem mem_services_iff {n : Nat} {l : List EitSection} {g : UInt16 × UInt16 × UInt16} :
    g ∈ services n l ↔ ∃ v, lastVersion n g l = some v := by
  rw [mem_services]
  unfold lastVersion
  cases h : (l.filter fun e => decide (e.sectionNumber.toNat = n ∧ service e = g)).getLast? with
  | none =>
    have := List.getLast?_eq_none_iff.1 h
    rw [List.filter_eq_nil_iff] at this
    simp only [decide_eq_true_eq] at this
    refine iff_of_false ?_ (by simp)
    rintro ⟨e, h1, h2⟩
    exact this e h1 h2
  | some e =>
    have hm := List.mem_filter.1 (List.mem_of_getLast? h)
    exact iff_of_true ⟨e, hm.1, of_decide_eq_true hm.2⟩ ⟨_, rfl⟩

/-- The service of a key. -/
def serviceOf (k : UInt64) : UInt16 × UInt16 × UInt16 :=
  (UInt16.ofNat (k.toNat / 2 ^ 48), UInt16.ofNat (k.toNat / 2 ^ 32), UInt16.ofNat (k.toNat / 2 ^ 16))

theorem serviceOf_triple (e : EitSection) : serviceOf e.serviceTriple = service e := by
  have h1 := e.sid.toNat_lt
  have h2 := e.tsid.toNat_lt
  have h3 := e.nid.toNat_lt
  unfold serviceOf service
  rw [serviceTriple_toNat]
  refine Prod.ext (UInt16.toNat_inj.1 ?_) (Prod.ext (UInt16.toNat_inj.1 ?_) (UInt16.toNat_inj.1 ?_)) <;>
  · simp only [UInt16.toNat_ofNat']
    omega

theorem before_iff (e e' : EitSection) : Before (service e) (service e') ↔ e.serviceTriple < e'.serviceTriple := by
  have h1 := e.sid.toNat_lt
  have h2 := e.tsid.toNat_lt
  have h3 := e.nid.toNat_lt
  have h1' := e'.sid.toNat_lt
  have h2' := e'.tsid.toNat_lt
  have h3' := e'.nid.toNat_lt
  rw [UInt64.lt_iff_toNat_lt, serviceTriple_toNat, serviceTriple_toNat]
  unfold Before service
  simp only [UInt16.lt_iff_toNat_lt, ← UInt16.toNat_inj]
  omega

theorem length_services {n : Nat} {vs : Versions} {cs : List DemuxCall} (hi : VInv n vs cs) :
    vs.length = (services n (written cs)).length := by
  have hnod : (vs.map (fun p => serviceOf p.1)).Nodup := by
    refine List.pairwise_map.2 (hi.sorted.imp_of_mem ?_)
    rintro ⟨k, v⟩ ⟨k', v'⟩ h1 h2 hlt he
    obtain ⟨e, q1, q2, rfl⟩ := hi.keys k v h1
    obtain ⟨e', r1, r2, rfl⟩ := hi.keys k' v' h2
    simp only [serviceOf_triple] at he
    have := serviceTriple_eq.2 he
    simp only [this] at hlt
    exact absurd hlt (UInt64.lt_irrefl _)
  rw [← List.length_map (as := vs) (fun p => serviceOf p.1)]
  refine length_of_mem_iff hnod (nodup_eraseDups _ _ (Nat.le_refl _)) (fun g => ?_)
  show _ ↔ g ∈ services n (written cs)
  constructor
  · intro h
    obtain ⟨⟨k, v⟩, h1, rfl⟩ := List.mem_map.1 h
    obtain ⟨e, q1, q2, rfl⟩ := hi.keys k v h1
    exact mem_services.2 ⟨e, q1, q2, (serviceOf_triple e).symm⟩
  · intro h
    obtain ⟨v, hv⟩ := mem_services_iff.1 h
    obtain ⟨e, q1, q2, rfl⟩ := mem_services.1 h
    rw [lastVersion_eq, ← hi.versions e] at hv
    exact List.mem_map.2 ⟨_, (lookup_iff hi.sorted).1 hv, serviceOf_triple e⟩

/-- The loop of `Done`, exactly. -/
theorem sameVersions_exact (f : Versions) : ∀ p : Versions, Sorted p →
    ((∃ e, sameVersions f p = .error e) ↔
      ∃ k v, (k, v) ∈ p ∧ f.lookup k = none ∧ ∀ k' v', (k', v') ∈ p → k' < k → f.lookup k' = some v') ∧
    (sameVersions f p = .ok true ↔ ∀ k v, (k, v) ∈ p → f.lookup k = some v) := by
  intro p
  induction p with
  | nil =>
    intro _
    refine ⟨iff_of_false ?_ ?_, iff_of_true rfl (by simp)⟩
    · rintro ⟨_, h⟩; cases h
    · rintro ⟨_, _, h, _⟩; cases h
  | cons x p ih =>
    obtain ⟨k, v⟩ := x
    intro hs
    obtain ⟨s1, s2⟩ := List.pairwise_cons.1 hs
    obtain ⟨i1, i2⟩ := ih s2
    unfold sameVersions
    cases hl : f.lookup k with
    | none =>
      refine ⟨iff_of_true ⟨_, rfl⟩ ⟨k, v, by simp, hl, ?_⟩, iff_of_false (by simp) ?_⟩
      · intro k' v' hm hlt
        exfalso
        rcases List.mem_cons.1 hm with hm | hm
        · cases hm; exact UInt64.lt_irrefl _ hlt
        · exact UInt64.lt_irrefl _ (UInt64.lt_trans hlt (s1 _ hm))
      · intro h
        have := h k v (by simp)
        rw [hl] at this
        cases this
    | some v' =>
      dsimp only
      by_cases he : v' = v
      · subst he
        rw [if_neg (by simp)]
        refine ⟨i1.trans ?_, i2.trans ?_⟩
        · constructor
          · rintro ⟨k1, v1, h1, h2, h3⟩
            refine ⟨k1, v1, List.mem_cons_of_mem _ h1, h2, fun k2 v2 hm hlt => ?_⟩
            rcases List.mem_cons.1 hm with hm | hm
            · cases hm; exact hl
            · exact h3 k2 v2 hm hlt
          · rintro ⟨k1, v1, h1, h2, h3⟩
            rcases List.mem_cons.1 h1 with h1 | h1
            · cases h1; rw [hl] at h2; cases h2
            · exact ⟨k1, v1, h1, h2, fun k2 v2 hm hlt => h3 k2 v2 (List.mem_cons_of_mem _ hm) hlt⟩
        · constructor
          · intro hh k1 v1 hm
            rcases List.mem_cons.1 hm with hm | hm
            · cases hm; exact hl
            · exact hh k1 v1 hm
          · exact fun hh k1 v1 hm => hh k1 v1 (List.mem_cons_of_mem _ hm)
      · rw [if_pos (by simpa using he)]
        refine ⟨iff_of_false ?_ ?_, iff_of_false (by simp) ?_⟩
        · rintro ⟨_, h⟩; cases h
        · rintro ⟨k1, v1, h1, h2, h3⟩
          rcases List.mem_cons.1 h1 with h1 | h1
          · cases h1; rw [hl] at h2; cases h2
          · have := h3 k v (by simp) (s1 _ h1)
            rw [hl] at this
            exact he (Option.some.inj this)
        · intro h
          have := h k v (by simp)
          rw [hl] at this
          exact he (Option.some.inj this)

/-- `Done`, exactly, for arbitrary services. -/
theorem done_exact {o : Opt} {s : St} {cs : List DemuxCall} (hi : Inv o s cs) :
    ((∃ f, done o s = .error f) ↔ Clash o (written cs)) ∧ (done o s = .ok true ↔ Ended o (written cs)) := by
  unfold done Clash Ended
  cases hst : o.streaming with
  | true => simp
  | false =>
    simp only [Bool.false_eq_true, if_false, true_and]
    have e1 : o.present = true → s.present.length = (services 0 (written cs)).length := fun h => length_services (hi.present h)
    have e2 : o.following = true → s.following.length = (services 1 (written cs)).length :=
      fun h => length_services (hi.following h)
    rw [sidsSize_eq]
    by_cases hp : o.present = true ∧ s.present.length ≠ o.sids.eraseDups.length
    · rw [if_pos (by simp [hp.1, hp.2])]
      have hn : ¬ Enough o (written cs) := fun h => hp.2 ((e1 hp.1).trans (h.1 hp.1))
      refine ⟨iff_of_false (by rintro ⟨_, h⟩; cases h) (fun h => hn h.2.2.1), iff_of_false (by simp) (fun h => hn h.1)⟩
    · rw [if_neg (by simpa using hp)]
      by_cases hf : o.following = true ∧ s.following.length ≠ o.sids.eraseDups.length
      · rw [if_pos (by simp [hf.1, hf.2])]
        have hn : ¬ Enough o (written cs) := fun h => hf.2 ((e2 hf.1).trans (h.2 hf.1))
        refine ⟨iff_of_false (by rintro ⟨_, h⟩; cases h) (fun h => hn h.2.2.1), iff_of_false (by simp) (fun h => hn h.1)⟩
      · rw [if_neg (by simpa using hf)]
        have hen : Enough o (written cs) := by
          refine ⟨fun h => ?_, fun h => ?_⟩
          · rw [← e1 h]
            exact Decidable.byContradiction fun hh => hp ⟨h, hh⟩
          · rw [← e2 h]
            exact Decidable.byContradiction fun hh => hf ⟨h, hh⟩
        by_cases hb : o.present = true ∧ o.following = true
        · rw [if_pos (by simp [hb.1, hb.2])]
          have vp := hi.present hb.1
          have vf := hi.following hb.2
          obtain ⟨x1, x2⟩ := sameVersions_exact s.following s.present vp.sorted
          have look1 : ∀ e, s.following.lookup e.serviceTriple = lastVersion 1 (service e) (written cs) := vf.versions
          have look0 : ∀ e, s.present.lookup e.serviceTriple = lastVersion 0 (service e) (written cs) := vp.versions
          have same : ∀ e v, (e.serviceTriple, v) ∈ s.present →
              (s.following.lookup e.serviceTriple = some v ↔ SameVersion (written cs) (service e)) := by
            intro e v hm
            unfold SameVersion
            rw [← look1, ← look0, (lookup_iff vp.sorted).2 hm]
            exact eq_comm
          have there : ∀ e, (∃ v, (e.serviceTriple, v) ∈ s.present) ↔ service e ∈ services 0 (written cs) := by
            intro e
            rw [mem_services_iff, ← look0]
            simp only [lookup_iff vp.sorted]
          constructor
          · refine x1.trans ?_
            constructor
            · rintro ⟨k, v, h1, h2, h3⟩
              obtain ⟨e, q1, q2, rfl⟩ := vp.keys k v h1
              refine ⟨hb.1, hb.2, hen, service e, (there e).1 ⟨v, h1⟩, ?_, ?_⟩
              · rw [mem_services_iff, ← look1, h2]; simp
              · intro g' hg' hlt
                obtain ⟨e', r1, r2, rfl⟩ := mem_services.1 hg'
                obtain ⟨v', hv'⟩ := (there e').2 hg'
                exact (same e' v' hv').1 (h3 _ _ hv' ((before_iff _ _).1 hlt))
            · rintro ⟨_, _, _, g, h1, h2, h3⟩
              obtain ⟨e, r1, r2, rfl⟩ := mem_services.1 h1
              obtain ⟨v, hv⟩ := (there e).2 h1
              refine ⟨_, v, hv, ?_, ?_⟩
              · rw [mem_services_iff, ← look1] at h2
                cases hl : s.following.lookup e.serviceTriple with
                | none => rfl
                | some v => exact absurd ⟨v, hl⟩ h2
              · intro k' v' hm hlt
                obtain ⟨e', q1, q2, rfl⟩ := vp.keys k' v' hm
                exact (same e' v' hm).2 (h3 _ ((there e').1 ⟨v', hm⟩) ((before_iff _ _).2 hlt))
          · refine x2.trans ?_
            constructor
            · intro h
              refine ⟨hen, fun _ _ g hg => ?_⟩
              obtain ⟨e, r1, r2, rfl⟩ := mem_services.1 hg
              obtain ⟨v, hv⟩ := (there e).2 hg
              exact (same e v hv).1 (h _ _ hv)
            · rintro ⟨_, h⟩ k v hm
              obtain ⟨e, q1, q2, rfl⟩ := vp.keys k v hm
              exact (same e v hm).2 (h hb.1 hb.2 _ ((there e).1 ⟨v, hm⟩))
        · rw [if_neg (by simpa using hb)]
          refine ⟨iff_of_false (by rintro ⟨_, h⟩; cases h) (fun h => hb ⟨h.1, h.2.1⟩),
            iff_of_true rfl ⟨hen, fun h h' => absurd ⟨h, h'⟩ hb⟩⟩

theorem due_unique {o : Opt} {l : List EitSection} {x : Section} {e e' : EitSection} (h : Due o l x e)
    (h' : Due o l x e') : e = e' := shows_unique h.2.1 h'.2.1

theorem written_snoc (cs : List DemuxCall) (ev : SectionEvent) (out : Option EitSection) :
    written (cs ++ [⟨ev, out⟩]) = written cs ++ out.toList := by
  rw [written_append]
  cases out <;> rfl

/-- A section to be written has a readable event loop, or handling it fails. -/
theorem handleEvent_due {o : Opt} {s : St} {cs : List DemuxCall} (hi : Inv o s cs) {x : Section} {e : EitSection}
    (hd : Due o (written cs) x e) : (∃ r, handleEvent o s (.sect x) = .ok r) ↔
      Spec.EventsJson.WellFormed (x.payload.drop 6) := by
  obtain ⟨⟨ha, hw⟩, hsh, hv⟩ := hd
  obtain ⟨e', hsh', hh⟩ := handleSection_acceptable ha s
  cases shows_unique hsh hsh'
  simp only [handleEvent, hh]
  have hnum : e.sectionNumber = x.number := hsh.2.2.2.1
  rw [lastVersion_eq] at hv
  have key : ∀ g : EitSection → St × Option EitSection, (∃ r, (do
      let _ ← makeJsonEit (fun _ => none) e
      Except.ok (ε := Fault) (g e)) = .ok r) ↔ Spec.EventsJson.WellFormed (x.payload.drop 6) := by
    intro g
    rw [← shows_events hsh]
    rcases makeJsonEit_total (fun _ => none) e with ⟨h1, j, h2⟩ | ⟨h1, h2⟩
    · exact iff_of_true ⟨_, by rw [h2]; rfl⟩ h1
    · refine iff_of_false ?_ h1
      rintro ⟨r, h⟩
      rw [h2] at h
      cases h
  rcases hw with ⟨h0, hp⟩ | ⟨h1, hp⟩
  · have he : e.sectionNumber = 0 := UInt8.toNat_inj.1 (by rw [hnum, h0]; rfl)
    rw [if_pos (by simp [he])]
    rw [if_neg (fun hc => hv (by rw [h0]; exact (isCollected_iff (hi.present hp) e).1 hc)), if_pos hp]
    exact key fun e => ({ s with present := s.present.set e.serviceTriple e.version }, some e)
  · have he : e.sectionNumber = 1 := UInt8.toNat_inj.1 (by rw [hnum, h1]; rfl)
    rw [if_neg (by simp [he]), if_pos (by simp [he])]
    rw [if_neg (fun hc => hv (by rw [h1]; exact (isCollected_iff (hi.following hp) e).1 hc)), if_pos hp]
    exact key fun e => ({ s with following := s.following.set e.serviceTriple e.version }, some e)

/-- Handling a section that is not to be written does not fail. -/
theorem handleEvent_skip {o : Opt} {s : St} {cs : List DemuxCall} (hi : Inv o s cs) {ev : SectionEvent}
    (hd : ∀ x, ev = .sect x → ∀ e, ¬ Due o (written cs) x e) : ∃ r, handleEvent o s ev = .ok r := by
  cases ev with
  | table t => exact ⟨_, rfl⟩
  | sect x =>
    simp only [handleEvent]
    by_cases ha : Acceptable o x
    · obtain ⟨e, hsh, hh⟩ := handleSection_acceptable ha s
      have hnum : e.sectionNumber = x.number := hsh.2.2.2.1
      have hq := hd x rfl e
      rw [hh]
      split
      · next h0 =>
        simp only [beq_iff_eq] at h0
        split
        · exact ⟨_, rfl⟩
        · next hc =>
          split
          · next hp =>
            have hn : x.number.toNat = 0 := by rw [← hnum, h0]; rfl
            refine absurd ⟨⟨ha, .inl ⟨hn, hp⟩⟩, hsh, ?_⟩ hq
            rw [hn, lastVersion_eq]
            exact fun h => hc ((isCollected_iff (hi.present hp) e).2 h)
          · exact ⟨_, rfl⟩
      · split
        · next h1 =>
          simp only [beq_iff_eq] at h1
          split
          · exact ⟨_, rfl⟩
          · next hc =>
            split
            · next hp =>
              have hn : x.number.toNat = 1 := by rw [← hnum, h1]; rfl
              refine absurd ⟨⟨ha, .inr ⟨hn, hp⟩⟩, hsh, ?_⟩ hq
              rw [hn, lastVersion_eq]
              exact fun h => hc ((isCollected_iff (hi.following hp) e).2 h)
            · exact ⟨_, rfl⟩
        · exact ⟨_, rfl⟩
    · exact ⟨_, handleSection_other ha s⟩

theorem handleEvent_exact {o : Opt} {s : St} {l : List EitSection} (ev : SectionEvent)
    (hi : ∃ cs, written cs = l ∧ Inv o s cs) :
    ((∀ x, ev = .sect x → ∀ e, ¬ Due o l x e) ∧ ∃ s', handleEvent o s ev = .ok (s', none) ∧
      ∃ cs, written cs = l ∧ Inv o s' cs) ∨
    (∃ x e, ev = .sect x ∧ Due o l x e ∧
      ((Spec.EventsJson.WellFormed (x.payload.drop 6) ∧ ∃ s', handleEvent o s ev = .ok (s', some e) ∧
          ∃ cs, written cs = l ++ [e] ∧ Inv o s' cs) ∨
       (¬ Spec.EventsJson.WellFormed (x.payload.drop 6) ∧ ∃ f, handleEvent o s ev = .error f))) := by
  obtain ⟨cs, rfl, hi⟩ := hi
  by_cases hd : ∃ x e, ev = .sect x ∧ Due o (written cs) x e
  · obtain ⟨x, e, rfl, hd⟩ := hd
    refine .inr ⟨x, e, rfl, hd, ?_⟩
    have hdue := handleEvent_due hi hd
    cases hh : handleEvent o s (.sect x) with
    | error f =>
      rw [hh] at hdue
      refine .inr ⟨fun h => ?_, f, rfl⟩
      obtain ⟨_, h⟩ := hdue.2 h
      cases h
    | ok r =>
      obtain ⟨s', out⟩ := r
      rw [hh] at hdue
      obtain ⟨k1, k2⟩ := handleEvent_spec hi hh
      obtain ⟨e', q1, _, q3⟩ := k1.2 hd.1
      cases shows_unique q1 hd.2.1
      have : out = some e := q3 hd.2.2
      subst this
      exact .inl ⟨hdue.1 ⟨_, rfl⟩, s', rfl, _, written_snoc .., k2⟩
  · have hd' : ∀ x, ev = .sect x → ∀ e, ¬ Due o (written cs) x e := fun x h e k => hd ⟨x, e, h, k⟩
    refine .inl ⟨hd', ?_⟩
    obtain ⟨⟨s', out⟩, hh⟩ := handleEvent_skip hi hd'
    obtain ⟨k1, k2⟩ := handleEvent_spec hi hh
    have hout : out = none := by
      cases ev with
      | table t => exact k1
      | sect x =>
        by_cases hq : Requested o x
        · obtain ⟨e, q1, q2, _⟩ := k1.2 hq
          exact q2 (Decidable.byContradiction fun h => hd' x rfl e ⟨hq, q1, h⟩)
        · exact k1.1 hq
    subst hout
    exact ⟨s', hh, _, by rw [written_snoc]; simp, k2⟩

theorem handleEvents_exact {o : Opt} (evs : List SectionEvent) (s : St) (l : List EitSection)
    (hi : ∃ cs, written cs = l ∧ Inv o s cs) :
    ((∃ f, handleEvents o evs s = .error f) ∧ Unwritable (Due o) l evs ∧ ∀ l', ¬ Wrote (Due o) l evs l') ∨
      (∃ s' cs l', handleEvents o evs s = .ok (s', cs) ∧ Wrote (Due o) l evs l' ∧
        (∀ l2, Wrote (Due o) l evs l2 → l2 = l') ∧ ¬ Unwritable (Due o) l evs ∧
        (∃ cs, written cs = l' ∧ Inv o s' cs) ∧ l' = l ++ cs.filterMap (·.out)) :=
  wrote_exact (Due := Due o) (handle := handleEvent o) (all := handleEvents o) (fun _ => rfl) (fun _ _ _ => rfl)
    (fun s l => ∃ cs, written cs = l ∧ Inv o s cs) (fun _ _ _ _ h h' => due_unique (o := o) h h')
    (fun _ _ ev hi => handleEvent_exact ev hi) evs s l hi

/-- What is written in the course of a run. -/
theorem reach_wrote {o : Opt} {items : List (Line SectionInput (List DemuxCall))} {s : St}
    (h : Reach (step o) {} items s) :
    Wrote (Due o) [] (items.flatMap fun it => delivered [0x12] it.input) (written (calls items)) := by
  induction h with
  | nil => exact .nil _
  | @snoc items s i s' cs more h1 h2 h3 ih =>
    rw [List.flatMap_append]
    refine wrote_append ih ?_
    have hc : calls (items ++ [⟨i, cs, more⟩]) = calls items ++ cs := by simp [calls]
    rw [hc]
    clear hc
    simp only [List.flatMap_cons, List.flatMap_nil, List.append_nil]
    rw [show delivered [0x12] i = handedOver watched i from (handedOver_eq _ i).symm]
    unfold step at h3
    obtain ⟨⟨s1, cs1⟩, k1, k2⟩ := bind_eq_ok h3
    obtain ⟨_, _, k2⟩ := bind_eq_ok k2
    cases k2
    rcases handleEvents_exact (o := o) (handedOver watched i) s _ ⟨_, rfl, reach_inv h1⟩ with
      ⟨⟨f, q1⟩, _⟩ | ⟨s2, cs2, l', q1, q2, _, _, _, q3⟩
    · rw [q1] at k1; cases k1
    · rw [q1] at k1
      cases k1
      rw [written_append]
      exact q3 ▸ q2

/-- When collecting ends. -/
theorem reach_ended {o : Opt} {items : List (Line SectionInput (List DemuxCall))} {s : St}
    (h : Reach (step o) {} items s) {a b : List (Line SectionInput (List DemuxCall))}
    {it : Line SectionInput (List DemuxCall)} (e : items = a ++ it :: b) :
    (it.more = false ↔ Ended o (written (calls (a ++ [it])))) ∧ ¬ Clash o (written (calls (a ++ [it]))) := by
  obtain ⟨s1, s2, h1, _, h3, h4⟩ := h.split a it b e
  obtain ⟨d1, d2⟩ := done_exact (reach_inv h4)
  obtain ⟨_, _, _, k4⟩ := step_spec (reach_inv h1) h3
  rw [k4] at d1 d2
  refine ⟨?_, ?_⟩
  · rw [← d2]; simp
  · rw [← d1]
    rintro ⟨f, h⟩
    cases h

theorem aborts {o : Opt} {is : List SectionInput} : Aborts (sink o) { st := {} } is ↔
    StopsAt (sink o) {} (fun items i => Uncollectable o (written (calls items)) i) is := by
  refine aborts_iff _ (fun s => ⟨s, rfl⟩) (fun items s h1 h2 i => ?_) is
  unfold Uncollectable
  rw [show delivered [0x12] i = handedOver watched i from (handedOver_eq _ i).symm]
  unfold step
  rcases handleEvents_exact (o := o) (handedOver watched i) s _ ⟨_, rfl, reach_inv h1⟩ with
    ⟨⟨f, k1⟩, k2, _⟩ | ⟨s', cs, l', k1, k2, k3, k4, ⟨cs', rfl, k5⟩, _⟩
  · rw [k1]
    exact iff_of_true ⟨f, rfl⟩ (.inl k2)
  · rw [k1]
    simp only [ok_bind]
    have hc : (Unwritable (Due o) (written (calls items)) (handedOver watched i) ∨
        ∃ l', Wrote (Due o) (written (calls items)) (handedOver watched i) l' ∧ Clash o l') ↔ Clash o (written cs') := by
      constructor
      · rintro (h | ⟨l', h, h'⟩)
        · exact absurd h k4
        · rw [← k3 l' h]; exact h'
      · exact fun h => .inr ⟨_, k2, h⟩
    rw [hc, ← (done_exact k5).1]
    cases done o s' with
    | error f => exact iff_of_true ⟨f, rfl⟩ ⟨f, rfl⟩
    | ok d => exact iff_of_false (by rintro ⟨_, h⟩; cases h) (by rintro ⟨_, h⟩; cases h)

end EitpfCollector

end Mirakc
