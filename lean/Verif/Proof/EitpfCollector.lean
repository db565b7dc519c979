import Verif.Proof.EitCollector
import Verif.Proof.OMap
import Verif.Spec.EitpfCollector
/-
The state of collect-eitpf as a function of the history.
-/
set_option linter.unusedSimpArgs false
namespace Mirakc.EitpfCollector
open Mirakc.Spec Mirakc.Spec.EitpfCollector
open Mirakc.EitCollector (DemuxCall make_ok make_total shows_unique serviceTriple_eq serviceTriple_toNat
  shows_origin service_toNat shows_events)
open Mirakc.Spec.EitCollector (Shows service origin calls)

/-! ### Lists without repetition -/

theorem mem_distinct {s : SidSet} {x : UInt16} : x ∈ distinct s ↔ x ∈ s := by
  induction s with
  | nil => rfl
  | cons a l ih =>
    unfold distinct
    split
    · next h =>
      rw [ih]
      have : a ∈ l := by simpa using h
      constructor
      · exact fun h => List.mem_cons_of_mem _ h
      · intro h
        rcases List.mem_cons.1 h with rfl | h
        · exact this
        · exact h
    · rw [List.mem_cons, ih, List.mem_cons]

theorem nodup_distinct (s : SidSet) : (distinct s).Nodup := by
  induction s with
  | nil => exact List.nodup_nil
  | cons a l ih =>
    unfold distinct
    split
    · exact ih
    · next h =>
      refine List.nodup_cons.2 ⟨?_, ih⟩
      rw [mem_distinct]
      simpa using h

/-! ### Maps of versions -/

/-- In the order of the keys. -/
def Sorted (l : Versions) : Prop := l.Pairwise fun a b => a.1 < b.1

theorem lookup_set (l : Versions) (k k' : UInt64) (v : Fin 32) :
    (l.set k v).lookup k' = if k' = k then some v else l.lookup k' := by
  induction l with
  | nil =>
    unfold Versions.set
    rw [List.lookup_cons]
    by_cases h : k' = k
    · simp [h]
    · rw [show (k' == k) = false by simpa using h, if_neg h]
  | cons x l ih =>
    obtain ⟨k1, v1⟩ := x
    unfold Versions.set
    split
    · rw [List.lookup_cons]
      by_cases h : k' = k
      · simp [h]
      · rw [show (k' == k) = false by simpa using h, if_neg h]
    · split
      · next h1 h2 =>
        simp only [beq_iff_eq] at h2
        subst h2
        rw [List.lookup_cons, List.lookup_cons]
        by_cases h : k' = k
        · simp [h]
        · rw [show (k' == k) = false by simpa using h, if_neg h]
      · next h1 h2 =>
        simp only [beq_iff_eq] at h2
        rw [List.lookup_cons, List.lookup_cons, ih]
        by_cases h : k' = k1
        · have hne : k' ≠ k := fun e => h2 (e ▸ h)
          simp [h, show k1 ≠ k from fun e => h2 e.symm]
        · rw [show (k' == k1) = false by simpa using h]

theorem mem_set {l : Versions} {k : UInt64} {v : Fin 32} {x : UInt64 × Fin 32} (h : x ∈ l.set k v) :
    x = (k, v) ∨ x ∈ l := by
  induction l with
  | nil => simpa [Versions.set] using h
  | cons y l ih =>
    obtain ⟨k1, v1⟩ := y
    unfold Versions.set at h
    split at h
    · rcases List.mem_cons.1 h with h | h
      · exact .inl h
      · exact .inr h
    · split at h
      · rcases List.mem_cons.1 h with h | h
        · exact .inl h
        · exact .inr (List.mem_cons_of_mem _ h)
      · rcases List.mem_cons.1 h with h | h
        · exact .inr (by simp [h])
        · rcases ih h with h | h
          · exact .inl h
          · exact .inr (List.mem_cons_of_mem _ h)

theorem sorted_set {l : Versions} (hs : Sorted l) (k : UInt64) (v : Fin 32) : Sorted (l.set k v) := by
  induction l with
  | nil => exact List.pairwise_singleton _ _
  | cons y l ih =>
    obtain ⟨k1, v1⟩ := y
    obtain ⟨h1, h2⟩ := List.pairwise_cons.1 hs
    unfold Versions.set
    split
    · next hk =>
      refine List.pairwise_cons.2 ⟨?_, hs⟩
      intro x hx
      rcases List.mem_cons.1 hx with rfl | hx
      · exact hk
      · exact UInt64.lt_trans hk (h1 x hx)
    · split
      · next _ hk =>
        simp only [beq_iff_eq] at hk
        subst hk
        exact List.pairwise_cons.2 ⟨h1, h2⟩
      · next hk1 hk2 =>
        refine List.pairwise_cons.2 ⟨?_, ih h2⟩
        intro x hx
        rcases mem_set hx with rfl | hx
        · simp only [beq_iff_eq] at hk2
          have e1 := UInt64.not_lt.1 hk1
          exact UInt64.lt_of_le_of_ne e1 (fun e => hk2 e.symm)
        · exact h1 x hx

theorem lookup_iff {l : Versions} (hd : Sorted l) {k : UInt64} {v : Fin 32} :
    l.lookup k = some v ↔ (k, v) ∈ l := by
  induction l with
  | nil => simp
  | cons x l ih =>
    obtain ⟨k', v'⟩ := x
    obtain ⟨h1, h2⟩ := List.pairwise_cons.1 hd
    rw [List.lookup_cons]
    by_cases hk : k = k'
    · subst hk
      simp only [beq_self_eq_true, Option.some.injEq, List.mem_cons, Prod.mk.injEq, true_and]
      constructor
      · exact fun h => .inl h.symm
      · rintro (h | h)
        · exact h.symm
        · exact absurd (h1 _ h) (UInt64.lt_irrefl _)
    · rw [show (k == k') = false by simpa using hk]
      simp only [ih h2, List.mem_cons, Prod.mk.injEq, hk, false_and, false_or]

/-! ### One kind of sections -/

/-- What the map of the versions of section `n` means, if the options ask for it. -/
structure VInv (n : Nat) (vs : Versions) (cs : List DemuxCall) : Prop where
  sorted : Sorted vs
  keys : ∀ k v, (k, v) ∈ vs → ∃ e ∈ written cs, e.sectionNumber.toNat = n ∧ e.serviceTriple = k
  versions : ∀ e, vs.lookup e.serviceTriple = (lastWritten n (service e) cs).map (·.version)

theorem written_append (a b : List DemuxCall) : written (a ++ b) = written a ++ written b := by
  simp [written]

theorem lastWritten_none {n : Nat} {g : UInt16 × UInt16 × UInt16} {cs : List DemuxCall} {c : DemuxCall}
    (h : c.out = none) : lastWritten n g (cs ++ [c]) = lastWritten n g cs := by
  unfold lastWritten
  rw [written_append, show written [c] = [] by simp [written, h], List.append_nil]

theorem lastWritten_some {n : Nat} {g : UInt16 × UInt16 × UInt16} {cs : List DemuxCall} {c : DemuxCall}
    {e : EitSection} (h : c.out = some e) : lastWritten n g (cs ++ [c]) =
      if e.sectionNumber.toNat = n ∧ service e = g then some e else lastWritten n g cs := by
  unfold lastWritten
  rw [written_append, show written [c] = [e] by simp [written, h], List.filter_append]
  split
  · next hc => simp [hc]
  · next hc => simp only [List.filter_cons, hc, decide_false, Bool.false_eq_true, if_false, List.filter_nil, List.append_nil]

theorem vinv_init (n : Nat) : VInv n [] [] :=
  ⟨List.Pairwise.nil, by simp, fun e => by simp [lastWritten, written]⟩

theorem vinv_none {n : Nat} {vs : Versions} {cs : List DemuxCall} (hi : VInv n vs cs) {c : DemuxCall}
    (h : c.out = none) : VInv n vs (cs ++ [c]) := by
  have hw : written (cs ++ [c]) = written cs := by
    rw [written_append, show written [c] = [] by simp [written, h], List.append_nil]
  exact ⟨hi.sorted, fun k v hm => by rw [hw]; exact hi.keys k v hm,
    fun e => by rw [lastWritten_none h]; exact hi.versions e⟩

theorem vinv_other {n : Nat} {vs : Versions} {cs : List DemuxCall} (hi : VInv n vs cs) {c : DemuxCall}
    {e : EitSection} (h : c.out = some e) (hn : e.sectionNumber.toNat ≠ n) : VInv n vs (cs ++ [c]) := by
  have hw : written (cs ++ [c]) = written cs ++ [e] := by
    rw [written_append, show written [c] = [e] by simp [written, h]]
  refine ⟨hi.sorted, fun k v hm => ?_, fun e' => ?_⟩
  · obtain ⟨e', h1, h2⟩ := hi.keys k v hm
    exact ⟨e', by rw [hw]; simp [h1], h2⟩
  · rw [lastWritten_some h, if_neg (fun hh => hn hh.1)]
    exact hi.versions e'

theorem vinv_set {n : Nat} {vs : Versions} {cs : List DemuxCall} (hi : VInv n vs cs) {c : DemuxCall}
    {e : EitSection} (h : c.out = some e) (hn : e.sectionNumber.toNat = n) :
    VInv n (vs.set e.serviceTriple e.version) (cs ++ [c]) := by
  have hw : written (cs ++ [c]) = written cs ++ [e] := by
    rw [written_append, show written [c] = [e] by simp [written, h]]
  refine ⟨sorted_set hi.sorted _ _, fun k v hm => ?_, fun e' => ?_⟩
  · rcases mem_set hm with hm | hm
    · cases hm
      exact ⟨e, by rw [hw]; simp, hn, rfl⟩
    · obtain ⟨e', h1, h2⟩ := hi.keys k v hm
      exact ⟨e', by rw [hw]; simp [h1], h2⟩
  · rw [lookup_set, lastWritten_some h]
    by_cases hs : service e = service e'
    · rw [if_pos (serviceTriple_eq.2 hs.symm), if_pos ⟨hn, hs⟩]
      rfl
    · rw [if_neg (fun hh => hs (serviceTriple_eq.1 hh).symm), if_neg (fun hh => hs hh.2)]
      exact hi.versions e'

theorem isCollected_iff {n : Nat} {vs : Versions} {cs : List DemuxCall} (hi : VInv n vs cs)
    (e : EitSection) : isCollected e vs = true ↔
      (lastWritten n (service e) cs).map (·.version) = some e.version := by
  unfold isCollected
  rw [← hi.versions e]
  cases vs.lookup e.serviceTriple with
  | none => simp
  | some v => simp

/-! ### The state -/

/-- What the state means. -/
structure Inv (o : Opt) (s : St) (cs : List DemuxCall) : Prop where
  present : o.present = true → VInv 0 s.present cs
  following : o.following = true → VInv 1 s.following cs

theorem inv_init (o : Opt) : Inv o {} [] := ⟨fun _ => vinv_init 0, fun _ => vinv_init 1⟩

/-- What a call does. -/
def CallOk (o : Opt) (a : List DemuxCall) (c : DemuxCall) : Prop :=
  match c.event with
  | .table _ => c.out = none
  | .sect x => (¬ Requested o x → c.out = none) ∧
      (Requested o x → ∃ e, Shows e x ∧
        ((lastWritten x.number.toNat (service e) a).map (·.version) = some e.version → c.out = none) ∧
        ((lastWritten x.number.toNat (service e) a).map (·.version) ≠ some e.version → c.out = some e))

theorem acceptable_iff {o : Opt} {x : Section} : Acceptable o x ↔
    x.valid = true ∧ x.tid = 0x4E ∧ ¬ x.payload.length < EitSection.payloadFixedSize ∧
      x.next = false ∧ ¬ (!o.sids.isEmpty && !o.sids.contains x.ext) = true := by
  have h1 : x.tid = 0x4E ↔ x.tid.toNat = 0x4E :=
    ⟨fun h => by rw [h]; rfl, fun h => UInt8.toNat_inj.1 (by rw [h]; rfl)⟩
  have h2 : (¬ (!o.sids.isEmpty && !o.sids.contains x.ext) = true) ↔ (o.sids = [] ∨ x.ext ∈ o.sids) := by
    cases o.sids with
    | nil => simp
    | cons a l => simp; grind
  unfold Acceptable
  rw [h1, h2]
  simp only [EitSection.payloadFixedSize]
  constructor
  · rintro ⟨a, b, c, d, e⟩; exact ⟨a, c, by omega, b, e⟩
  · rintro ⟨a, b, c, d, e⟩; exact ⟨a, d, b, by omega, e⟩

/-- `handleSection` of an acceptable section. -/
theorem handleSection_acceptable {o : Opt} {x : Section} (h : Acceptable o x) (s : St) :
    ∃ e, Shows e x ∧ handleSection o s x =
      (if e.sectionNumber == 0 then
        if isCollected e s.present then .ok (s, none)
        else if o.present then do
          let _ ← makeJsonEit (fun _ => none) e
          .ok ({ s with present := s.present.set e.serviceTriple e.version }, some e)
        else .ok ({ s with present := s.present.set e.serviceTriple e.version }, none)
      else if e.sectionNumber == 1 then
        if isCollected e s.following then .ok (s, none)
        else if o.following then do
          let _ ← makeJsonEit (fun _ => none) e
          .ok ({ s with following := s.following.set e.serviceTriple e.version }, some e)
        else .ok ({ s with following := s.following.set e.serviceTriple e.version }, none)
      else .ok (s, none)) := by
  obtain ⟨r1, r2, r3, r4, r5⟩ := acceptable_iff.1 h
  obtain ⟨e, he⟩ := make_total (x := x) (by simpa [EitSection.payloadFixedSize] using r3)
  have hsh := make_ok he
  have hsid : e.sid = x.ext := hsh.1
  refine ⟨e, hsh, ?_⟩
  rw [← hsid] at r5
  unfold handleSection
  rw [if_neg (by simp [r1]), if_neg (by simp [r2]), if_neg r3, if_neg (by simp [r4]), he, ok_bind,
    if_neg r5]

/-- `handleSection` of another section. -/
theorem handleSection_other {o : Opt} {x : Section} (h : ¬ Acceptable o x) (s : St) :
    handleSection o s x = .ok (s, none) := by
  have h' := fun hh => h (acceptable_iff.2 hh)
  unfold handleSection
  split
  · rfl
  · next r1 =>
    split
    · rfl
    · next r2 =>
      split
      · rfl
      · next r3 =>
        split
        · rfl
        · next r4 =>
          obtain ⟨e, he⟩ := make_total (x := x) (by simpa [EitSection.payloadFixedSize] using r3)
          have hsid : e.sid = x.ext := (make_ok he).1
          rw [he, ok_bind, hsid]
          split
          · rfl
          · next r5 =>
            exact absurd ⟨by simpa using r1, by simpa using r2, r3, by simpa using r4, r5⟩ h'

theorem handleEvent_spec {o : Opt} {s s' : St} {ev : SectionEvent} {out : Option EitSection}
    {cs : List DemuxCall} (hi : Inv o s cs) (h : handleEvent o s ev = .ok (s', out)) :
    CallOk o cs ⟨ev, out⟩ ∧ Inv o s' (cs ++ [⟨ev, out⟩]) := by
  have hnone : ∀ ev, Inv o s (cs ++ [⟨ev, none⟩]) := fun ev =>
    ⟨fun hp => vinv_none (hi.present hp) rfl, fun hf => vinv_none (hi.following hf) rfl⟩
  cases ev with
  | table t =>
    simp only [handleEvent, Except.ok.injEq, Prod.mk.injEq] at h
    obtain ⟨rfl, rfl⟩ := h
    exact ⟨rfl, hnone _⟩
  | sect x =>
    simp only [handleEvent] at h
    by_cases ha : Acceptable o x
    · obtain ⟨e, hsh, hh⟩ := handleSection_acceptable ha s
      rw [hh] at h
      have hnum : e.sectionNumber = x.number := hsh.2.2.2.1
      by_cases h0 : e.sectionNumber = 0
      · have hn0 : x.number.toNat = 0 := by rw [← hnum, h0]; rfl
        rw [if_pos (by simp [h0])] at h
        by_cases hp : o.present = true
        · have hreq : Requested o x := ⟨ha, .inl ⟨hn0, hp⟩⟩
          have hcol := isCollected_iff (hi.present hp) e
          by_cases hc : isCollected e s.present = true
          · rw [if_pos hc] at h
            cases h
            refine ⟨⟨fun hn => absurd hreq hn, fun _ => ⟨e, hsh, fun _ => rfl, fun hn => ?_⟩⟩, hnone _⟩
            rw [hn0] at hn
            exact absurd (hcol.1 hc) hn
          · rw [if_neg hc, if_pos hp] at h
            obtain ⟨_, _, h⟩ := bind_eq_ok h
            cases h
            refine ⟨⟨fun hn => absurd hreq hn, fun _ => ⟨e, hsh, fun hn => ?_, fun _ => rfl⟩⟩, ?_⟩
            · rw [hn0] at hn
              exact absurd (hcol.2 hn) hc
            · exact ⟨fun _ => vinv_set (hi.present hp) rfl (by rw [h0]; rfl),
                fun hf => vinv_other (hi.following hf) rfl (by rw [h0]; decide)⟩
        · have hreq : ¬ Requested o x := by
            rintro ⟨_, h | h⟩
            · exact hp h.2
            · omega
          have hout : out = none ∧ s'.following = s.following := by
            split at h
            · cases h; exact ⟨rfl, rfl⟩
            · first
                | (rw [if_neg hp] at h; cases h; exact ⟨rfl, rfl⟩)
                | (cases h; exact ⟨rfl, rfl⟩)
          obtain ⟨rfl, hf⟩ := hout
          refine ⟨⟨fun _ => rfl, fun h => absurd h hreq⟩, fun h => absurd h hp, fun h => ?_⟩
          rw [hf]
          exact (hnone _).following h
      · rw [if_neg (by simp [h0])] at h
        by_cases h1 : e.sectionNumber = 1
        · have hn1 : x.number.toNat = 1 := by rw [← hnum, h1]; rfl
          rw [if_pos (by simp [h1])] at h
          by_cases hp : o.following = true
          · have hreq : Requested o x := ⟨ha, .inr ⟨hn1, hp⟩⟩
            have hcol := isCollected_iff (hi.following hp) e
            by_cases hc : isCollected e s.following = true
            · rw [if_pos hc] at h
              cases h
              refine ⟨⟨fun hn => absurd hreq hn, fun _ => ⟨e, hsh, fun _ => rfl, fun hn => ?_⟩⟩, hnone _⟩
              rw [hn1] at hn
              exact absurd (hcol.1 hc) hn
            · rw [if_neg hc, if_pos hp] at h
              obtain ⟨_, _, h⟩ := bind_eq_ok h
              cases h
              refine ⟨⟨fun hn => absurd hreq hn, fun _ => ⟨e, hsh, fun hn => ?_, fun _ => rfl⟩⟩, ?_⟩
              · rw [hn1] at hn
                exact absurd (hcol.2 hn) hc
              · exact ⟨fun hf => vinv_other (hi.present hf) rfl (by rw [h1]; decide),
                  fun _ => vinv_set (hi.following hp) rfl (by rw [h1]; rfl)⟩
          · have hreq : ¬ Requested o x := by
              rintro ⟨_, h | h⟩
              · omega
              · exact hp h.2
            have hout : out = none ∧ s'.present = s.present := by
              split at h
              · cases h; exact ⟨rfl, rfl⟩
              · first
                | (rw [if_neg hp] at h; cases h; exact ⟨rfl, rfl⟩)
                | (cases h; exact ⟨rfl, rfl⟩)
            obtain ⟨rfl, hf⟩ := hout
            refine ⟨⟨fun _ => rfl, fun h => absurd h hreq⟩, fun h => ?_, fun h => absurd h hp⟩
            rw [hf]
            exact (hnone _).present h
        · rw [if_neg (by simp [h1])] at h
          cases h
          refine ⟨⟨fun _ => rfl, fun hreq => ?_⟩, hnone _⟩
          rcases hreq.2 with h | h
          · exact absurd (UInt8.toNat_inj.1 (by rw [hnum, h.1]; rfl)) h0
          · exact absurd (UInt8.toNat_inj.1 (by rw [hnum, h.1]; rfl)) h1
    · rw [handleSection_other ha] at h
      cases h
      exact ⟨⟨fun _ => rfl, fun h => absurd h.1 ha⟩, hnone _⟩

theorem handleEvents_spec {o : Opt} {evs : List SectionEvent} {s s' : St} {cs l : List DemuxCall}
    (hi : Inv o s l) (h : handleEvents o evs s = .ok (s', cs)) :
    Inv o s' (l ++ cs) ∧ cs.map (·.event) = evs ∧
      ∀ a c b, cs = a ++ c :: b → CallOk o (l ++ a) c := by
  induction evs generalizing s cs l with
  | nil =>
    simp only [handleEvents, Except.ok.injEq, Prod.mk.injEq] at h
    obtain ⟨rfl, rfl⟩ := h
    exact ⟨by simpa using hi, rfl, by simp⟩
  | cons ev evs ih =>
    unfold handleEvents at h
    obtain ⟨⟨s1, out⟩, h1, h⟩ := bind_eq_ok h
    obtain ⟨⟨s2, cs1⟩, h2, h⟩ := bind_eq_ok h
    cases h
    obtain ⟨k1, k2⟩ := handleEvent_spec hi h1
    obtain ⟨j1, j2, j3⟩ := ih k2 h2
    refine ⟨by simpa using j1, by simp [j2], ?_⟩
    intro a c b e
    cases a with
    | nil =>
      simp only [List.nil_append, List.cons.injEq] at e
      rw [← e.1]
      simpa using k1
    | cons a0 a =>
      simp only [List.cons_append, List.cons.injEq] at e
      obtain ⟨rfl, e⟩ := e
      simpa using j3 a c b e

/-! ### Histories -/

theorem step_spec {o : Opt} {s s' : St} {i : SectionInput} {cs : List DemuxCall} {more : Bool}
    {l : List DemuxCall} (hi : Inv o s l) (h : step o s i = .ok (s', cs, more)) :
    Inv o s' (l ++ cs) ∧ cs.map (·.event) = handedOver watched i ∧
      (∀ a c b, cs = a ++ c :: b → CallOk o (l ++ a) c) ∧ done o s' = .ok (!more) := by
  unfold step at h
  obtain ⟨⟨s1, cs1⟩, h1, h2⟩ := bind_eq_ok h
  obtain ⟨d, h3, h4⟩ := bind_eq_ok h2
  clear h h2
  simp only [Except.ok.injEq, Prod.mk.injEq] at h4
  obtain ⟨rfl, rfl, rfl⟩ := h4
  obtain ⟨k1, k2, k3⟩ := handleEvents_spec hi h1
  exact ⟨k1, k2, k3, by simpa using h3⟩

theorem calls_append (a b : List (Line SectionInput (List DemuxCall))) :
    calls (a ++ b) = calls a ++ calls b := by
  simp [calls]

theorem reach_inv {o : Opt} {items : List (Line SectionInput (List DemuxCall))} {s : St}
    (h : Reach (step o) {} items s) : Inv o s (calls items) := by
  induction h with
  | nil => simpa [calls] using inv_init o
  | @snoc items s i s' cs more h1 h2 h3 ih =>
    obtain ⟨k1, _⟩ := step_spec ih h3
    rw [calls_append]
    simpa [calls] using k1

theorem reach_calls {o : Opt} {items : List (Line SectionInput (List DemuxCall))} {s : St}
    (h : Reach (step o) {} items s) :
    ∀ a c b, calls items = a ++ c :: b → CallOk o a c := by
  induction h with
  | nil => intro a c b e; simp [calls] at e
  | @snoc items s i s' cs more h1 h2 h3 ih =>
    obtain ⟨_, _, k3, _⟩ := step_spec (reach_inv h1) h3
    intro a c b e
    rw [calls_append] at e
    have e : calls items ++ cs = a ++ c :: b := by simpa [calls] using e
    rcases List.append_eq_append_iff.1 e with ⟨r, e1, e2⟩ | ⟨r, e1, e2⟩
    · have := k3 r c b e2
      rw [e1]
      exact this
    · cases r with
      | nil =>
        simp only [List.append_nil, List.nil_append] at e1 e2
        have := k3 [] c b e2.symm
        rw [e1] at this
        simpa using this
      | cons r0 r =>
        simp only [List.cons_append, List.cons.injEq] at e2
        obtain ⟨rfl, _⟩ := e2
        exact ih a c r e1

theorem callOk_out {o : Opt} {a : List DemuxCall} {c : DemuxCall} {e : EitSection} (h : CallOk o a c)
    (he : c.out = some e) : ∃ x, c.event = .sect x ∧ Requested o x ∧ Shows e x := by
  unfold CallOk at h
  cases hev : c.event with
  | table t => rw [hev] at h; simp only at h; rw [h] at he; cases he
  | sect x =>
    rw [hev] at h
    simp only at h
    by_cases hq : Requested o x
    · obtain ⟨e', r1, r2, r3⟩ := h.2 hq
      by_cases hk : (lastWritten x.number.toNat (service e') a).map (·.version) = some e'.version
      · rw [r2 hk] at he; cases he
      · rw [r3 hk] at he; cases he
        exact ⟨x, rfl, hq, r1⟩
    · rw [h.1 hq] at he; cases he

/-- The sections written are shown by sections of the input. -/
def From (o : Opt) (is : List SectionInput) (cs : List DemuxCall) : Prop :=
  ∀ e ∈ written cs, ∃ i ∈ is, ∃ x, .sect x ∈ i.events ∧ Acceptable o x ∧ Shows e x

theorem from_step {o : Opt} {is : List SectionInput} {i : SectionInput} {l cs : List DemuxCall}
    (hl : From o is l) (hi : i ∈ is) (h1 : cs.map (·.event) = handedOver watched i)
    (h2 : ∀ a c b, cs = a ++ c :: b → CallOk o (l ++ a) c) : From o is (l ++ cs) := by
  intro e he
  rw [written_append] at he
  rcases List.mem_append.1 he with he | he
  · exact hl e he
  · unfold written at he
    obtain ⟨c, k1, k2⟩ := List.mem_filterMap.1 he
    obtain ⟨a, b, hs⟩ := List.append_of_mem k1
    obtain ⟨x, q1, q2, q3⟩ := callOk_out (h2 a c b hs) k2
    have hmem : c.event ∈ handedOver watched i := by rw [← h1]; exact List.mem_map_of_mem k1
    rw [q1] at hmem
    exact ⟨i, hi, x, (List.mem_filter.1 hmem).1, q2.1, q3⟩

theorem reach_from {o : Opt} {is : List SectionInput}
    {items : List (Line SectionInput (List DemuxCall))} {s : St}
    (h : Reach (step o) {} items s) (hin : ∀ it ∈ items, it.input ∈ is) : From o is (calls items) := by
  induction h with
  | nil => intro e he; simp [calls, written] at he
  | @snoc items s i s' cs more h1 h2 h3 ih =>
    obtain ⟨_, k2, k3, _⟩ := step_spec (reach_inv h1) h3
    have := from_step (ih fun it hit => hin it (by simp [hit])) (hin ⟨i, cs, more⟩ (by simp)) k2 k3
    rw [calls_append]
    simpa [calls] using this

/-! ### The end -/

/-- Where the sections written come from: they are of services asked for, one each. -/
structure Unique (o : Opt) (cs : List DemuxCall) : Prop where
  asked : o.sids = [] ∨ ∀ e ∈ written cs, e.sid ∈ o.sids
  one : ∀ e ∈ written cs, ∀ e' ∈ written cs, e.sid = e'.sid → service e = service e'

/-- The service id in a key. -/
def sidOf (k : UInt64) : UInt16 := UInt16.ofNat (k.toNat / 65536)

theorem sidOf_triple (e : EitSection) : sidOf e.serviceTriple = e.sid := by
  have h := e.sid.toNat_lt
  apply UInt16.toNat_inj.1
  unfold sidOf
  rw [serviceTriple_toNat, UInt16.toNat_ofNat']
  omega

theorem size_iff {o : Opt} {n : Nat} {vs : Versions} {cs : List DemuxCall} (hi : VInv n vs cs)
    (hu : Unique o cs) (hs : o.sids ≠ []) : vs.length = sidsSize o.sids ↔
      ∀ sid ∈ o.sids, ∃ e ∈ written cs, e.sectionNumber.toNat = n ∧ e.sid = sid := by
  have hask := hu.asked.resolve_left hs
  have hmem : ∀ x ∈ vs.map (fun p => sidOf p.1), ∃ e ∈ written cs, e.sectionNumber.toNat = n ∧ e.sid = x := by
    intro x hx
    obtain ⟨⟨k, v⟩, h1, rfl⟩ := List.mem_map.1 hx
    obtain ⟨e, h2, h3, h4⟩ := hi.keys k v h1
    exact ⟨e, h2, h3, by rw [← h4, sidOf_triple]⟩
  have hnod : (vs.map (fun p => sidOf p.1)).Nodup := by
    refine List.pairwise_map.2 (hi.sorted.imp_of_mem ?_)
    rintro ⟨k, v⟩ ⟨k', v'⟩ h1 h2 hlt he
    obtain ⟨e, q1, q2, rfl⟩ := hi.keys k v h1
    obtain ⟨e', r1, r2, rfl⟩ := hi.keys k' v' h2
    simp only [sidOf_triple] at he
    have := serviceTriple_eq.2 (hu.one e q1 e' r1 he)
    simp only [this] at hlt
    exact absurd hlt (UInt64.lt_irrefl _)
  have hsub : vs.map (fun p => sidOf p.1) ⊆ distinct o.sids := by
    intro x hx
    obtain ⟨e, h1, _, h3⟩ := hmem x hx
    rw [mem_distinct, ← h3]
    exact hask e h1
  obtain ⟨k1, k2⟩ := subset_of_length hnod hsub
  rw [List.length_map] at k1 k2
  constructor
  · intro h sid hsid
    unfold sidsSize at h
    exact hmem sid (k2 (by omega) (mem_distinct.2 hsid))
  · intro h
    have hsub' : distinct o.sids ⊆ vs.map (fun p => sidOf p.1) := by
      intro x hx
      obtain ⟨e, h1, h2, h3⟩ := h x (mem_distinct.1 hx)
      have hv := hi.versions e
      cases hl : lastWritten n (service e) cs with
      | none =>
        unfold lastWritten at hl
        have := List.getLast?_eq_none_iff.1 hl
        rw [List.filter_eq_nil_iff] at this
        exact absurd (by simp [h2]) (this e h1)
      | some e0 =>
        rw [hl] at hv
        have := (lookup_iff hi.sorted).1 hv
        exact List.mem_map.2 ⟨_, this, by simp [sidOf_triple, h3]⟩
    have := (subset_of_length (nodup_distinct o.sids) hsub').1
    rw [List.length_map] at this
    unfold sidsSize
    omega

theorem version_iff {o : Opt} {n : Nat} {vs : Versions} {cs : List DemuxCall} (hi : VInv n vs cs)
    (hu : Unique o cs) {e : EitSection} (he : e ∈ written cs) :
    version n e.sid cs = vs.lookup e.serviceTriple := by
  rw [hi.versions e]
  unfold version lastWritten
  congr 2
  apply List.filter_congr
  intro e' he'
  rw [decide_eq_decide]
  constructor
  · rintro ⟨h1, h2⟩; exact ⟨h1, hu.one e' he' e he h2⟩
  · rintro ⟨h1, h2⟩; exact ⟨h1, congrArg (fun g => g.2.2) h2⟩

theorem sameVersions_ok {f p : Versions} (h : ∀ k v, (k, v) ∈ p → ∃ v', f.lookup k = some v') :
    ∃ b, sameVersions f p = .ok b ∧ (b = true ↔ ∀ k v, (k, v) ∈ p → f.lookup k = some v) := by
  induction p with
  | nil => exact ⟨true, rfl, by simp⟩
  | cons x p ih =>
    obtain ⟨k, v⟩ := x
    obtain ⟨v', hv⟩ := h k v (by simp)
    obtain ⟨b, h1, h2⟩ := ih fun k v hm => h k v (List.mem_cons_of_mem _ hm)
    unfold sameVersions
    rw [hv]
    dsimp only
    by_cases he : v' = v
    · rw [if_neg (by simp [he])]
      refine ⟨b, h1, h2.trans ?_⟩
      subst he
      constructor
      · intro hh k1 v1 hm
        rcases List.mem_cons.1 hm with hm | hm
        · cases hm; exact hv
        · exact hh k1 v1 hm
      · exact fun hh k1 v1 hm => hh k1 v1 (List.mem_cons_of_mem _ hm)
    · rw [if_pos (by simpa using he)]
      refine ⟨false, rfl, ?_⟩
      simp only [Bool.false_eq_true, false_iff]
      intro hh
      have := hh k v (by simp)
      rw [hv] at this
      exact he (Option.some.inj this)

/-- When collecting ends, if services are asked for and every id belongs to one service. -/
theorem done_iff {o : Opt} {s : St} {cs : List DemuxCall} (hi : Inv o s cs) (hu : Unique o cs)
    (hs : o.sids ≠ []) : ∃ b, done o s = .ok b ∧ (b = true ↔ o.streaming = false ∧ Complete o cs) := by
  have hver : ∀ n sid, (∃ e ∈ written cs, e.sectionNumber.toNat = n ∧ e.sid = sid) ↔
      ∃ v, version n sid cs = some v := by
    intro n sid
    unfold version
    cases hl : ((written cs).filter fun e => decide (e.sectionNumber.toNat = n ∧ e.sid = sid)).getLast? with
    | none =>
      have := List.getLast?_eq_none_iff.1 hl
      rw [List.filter_eq_nil_iff] at this
      simp only [decide_eq_true_eq] at this
      constructor
      · rintro ⟨e, h1, h2⟩; exact absurd h2 (this e h1)
      · rintro ⟨v, h⟩; cases h
    | some e =>
      have hm := List.mem_of_getLast? hl
      rw [List.mem_filter] at hm
      exact ⟨fun _ => ⟨_, rfl⟩, fun _ => ⟨e, hm.1, of_decide_eq_true hm.2⟩⟩
  unfold done
  by_cases hst : o.streaming = true
  · rw [if_pos hst]
    exact ⟨false, rfl, by simp [hst]⟩
  · rw [if_neg hst]
    simp only [Bool.not_eq_true] at hst
    -- the present sections
    by_cases hp : o.present = true ∧ s.present.length ≠ sidsSize o.sids
    · rw [if_pos (by simp [hp.1, hp.2])]
      refine ⟨false, rfl, ?_⟩
      simp only [Bool.false_eq_true, false_iff]
      rintro ⟨_, hc⟩
      exact hp.2 ((size_iff (hi.present hp.1) hu hs).2 fun sid h => (hver 0 sid).2 ((hc sid h).1 hp.1))
    · rw [if_neg (by simpa using hp)]
      have hp' : o.present = true → s.present.length = sidsSize o.sids := fun h => by
        by_cases hh : s.present.length = sidsSize o.sids
        · exact hh
        · exact absurd ⟨h, hh⟩ hp
      by_cases hf : o.following = true ∧ s.following.length ≠ sidsSize o.sids
      · rw [if_pos (by simp [hf.1, hf.2])]
        refine ⟨false, rfl, ?_⟩
        simp only [Bool.false_eq_true, false_iff]
        rintro ⟨_, hc⟩
        exact hf.2 ((size_iff (hi.following hf.1) hu hs).2 fun sid h => (hver 1 sid).2 ((hc sid h).2.1 hf.1))
      · rw [if_neg (by simpa using hf)]
        have hf' : o.following = true → s.following.length = sidsSize o.sids := fun h => by
          by_cases hh : s.following.length = sidsSize o.sids
          · exact hh
          · exact absurd ⟨h, hh⟩ hf
        have cp : o.present = true → ∀ sid ∈ o.sids, ∃ e ∈ written cs, e.sectionNumber.toNat = 0 ∧ e.sid = sid :=
          fun h => (size_iff (hi.present h) hu hs).1 (hp' h)
        have cf : o.following = true → ∀ sid ∈ o.sids, ∃ e ∈ written cs, e.sectionNumber.toNat = 1 ∧ e.sid = sid :=
          fun h => (size_iff (hi.following h) hu hs).1 (hf' h)
        by_cases hb : o.present = true ∧ o.following = true
        · rw [if_pos (by simp [hb.1, hb.2])]
          have hask := hu.asked.resolve_left hs
          have vp := hi.present hb.1
          have vf := hi.following hb.2
          have hex : ∀ k v, (k, v) ∈ s.present → ∃ v', s.following.lookup k = some v' := by
            intro k v hm
            obtain ⟨e, h1, h2, rfl⟩ := vp.keys k v hm
            obtain ⟨e', h3, h4, h5⟩ := cf hb.2 e.sid (hask e h1)
            rw [← version_iff vf hu h1]
            exact (hver 1 e.sid).1 ⟨e', h3, h4, h5⟩
          obtain ⟨b, h1, h2⟩ := sameVersions_ok hex
          refine ⟨b, h1, h2.trans ?_⟩
          constructor
          · intro hh
            refine ⟨hst, fun sid hsid => ⟨fun h => (hver 0 sid).1 (cp h sid hsid),
              fun h => (hver 1 sid).1 (cf h sid hsid), fun _ _ => ?_⟩⟩
            obtain ⟨e, q1, q2, q3⟩ := cp hb.1 sid hsid
            have hv := (hver 0 sid).1 ⟨e, q1, q2, q3⟩
            obtain ⟨v, hv⟩ := hv
            rw [← q3] at hv ⊢
            rw [version_iff vp hu q1] at hv ⊢
            rw [version_iff vf hu q1, hv]
            exact (hh _ _ ((lookup_iff vp.sorted).1 hv)).symm
          · rintro ⟨_, hc⟩ k v hm
            obtain ⟨e, q1, q2, rfl⟩ := vp.keys k v hm
            have := (hc e.sid (hask e q1)).2.2 hb.1 hb.2
            rw [version_iff vp hu q1, version_iff vf hu q1, (lookup_iff vp.sorted).2 hm] at this
            exact this.symm
        · rw [if_neg (by simpa using hb)]
          refine ⟨true, rfl, ?_⟩
          simp only [true_iff]
          exact ⟨hst, fun sid hsid => ⟨fun h => (hver 0 sid).1 (cp h sid hsid),
            fun h => (hver 1 sid).1 (cf h sid hsid), fun h h' => absurd ⟨h, h'⟩ hb⟩⟩

theorem unique_of_from {o : Opt} {is : List SectionInput} {cs : List DemuxCall} (hf : From o is cs)
    (h1 : OneEach o is) : Unique o cs := by
  constructor
  · by_cases hs : o.sids = []
    · exact .inl hs
    · refine .inr fun e he => ?_
      obtain ⟨i, _, x, _, ha, hsh⟩ := hf e he
      rw [hsh.1]
      exact ha.2.2.2.2.resolve_left hs
  · intro e he e' he' hsid
    obtain ⟨i, q1, x, q2, q3, q4⟩ := hf e he
    obtain ⟨i', r1, y, r2, r3, r4⟩ := hf e' he'
    rw [service_toNat, ← shows_origin q4, ← shows_origin r4]
    exact h1 i q1 i' r1 x y q2 r2 q3 r3 (by rw [← q4.1, ← r4.1, hsid])

/-! ### Runs -/

/-- What is assumed of a section: its event loop is in order. -/
def Decodable (o : Opt) (ev : SectionEvent) : Prop :=
  ∀ x, ev = .sect x → Requested o x → Spec.EventsJson.WellFormed (x.payload.drop 6)

theorem handleEvent_total {o : Opt} {ev : SectionEvent} (hd : Decodable o ev) (s : St) :
    ∃ s' out, handleEvent o s ev = .ok (s', out) := by
  cases ev with
  | table t => exact ⟨_, _, rfl⟩
  | sect x =>
    simp only [handleEvent]
    by_cases ha : Acceptable o x
    · obtain ⟨e, hsh, hh⟩ := handleSection_acceptable ha s
      have hnum : e.sectionNumber = x.number := hsh.2.2.2.1
      have hdec : Requested o x → ∃ j, makeJsonEit (fun _ => none) e = .ok j := fun hq => by
        rcases makeJsonEit_total (fun _ => none) e with h | h
        · exact h.2
        · exact absurd (by rw [shows_events hsh]; exact hd x rfl hq) h.1
      rw [hh]
      split
      · next h0 =>
        simp only [beq_iff_eq] at h0
        split
        · exact ⟨_, _, rfl⟩
        · split
          · next hp =>
            obtain ⟨j, hj⟩ := hdec ⟨ha, .inl ⟨by rw [← hnum, h0]; rfl, hp⟩⟩
            rw [hj]
            exact ⟨_, _, rfl⟩
          · exact ⟨_, _, rfl⟩
      · split
        · next h1 =>
          simp only [beq_iff_eq] at h1
          split
          · exact ⟨_, _, rfl⟩
          · split
            · next hp =>
              obtain ⟨j, hj⟩ := hdec ⟨ha, .inr ⟨by rw [← hnum, h1]; rfl, hp⟩⟩
              rw [hj]
              exact ⟨_, _, rfl⟩
            · exact ⟨_, _, rfl⟩
        · exact ⟨_, _, rfl⟩
    · exact ⟨_, _, handleSection_other ha s⟩

theorem handleEvents_total {o : Opt} {evs : List SectionEvent} (hd : ∀ ev ∈ evs, Decodable o ev)
    (s : St) : ∃ s' cs, handleEvents o evs s = .ok (s', cs) := by
  induction evs generalizing s with
  | nil => exact ⟨_, _, rfl⟩
  | cons ev evs ih =>
    obtain ⟨s1, out, h1⟩ := handleEvent_total (hd ev (by simp)) s
    obtain ⟨s2, cs, h2⟩ := ih (fun ev h => hd ev (by simp [h])) s1
    exact ⟨s2, _, by simp only [handleEvents, h1, h2, ok_bind]; rfl⟩

theorem done_total {o : Opt} {s : St} {is : List SectionInput} {cs : List DemuxCall} (hi : Inv o s cs)
    (hf : From o is cs) (h : o.streaming = true ∨ o.present = false ∨ o.following = false ∨ OneEach o is) :
    ∃ b, done o s = .ok b := by
  by_cases hs : o.sids = []
  · have h0 : sidsSize o.sids = 0 := by rw [hs]; rfl
    unfold done
    rw [h0]
    split
    · exact ⟨_, rfl⟩
    · split
      · exact ⟨_, rfl⟩
      · next hp =>
        split
        · exact ⟨_, rfl⟩
        · split
          · next hb =>
            simp only [Bool.and_eq_true, bne_iff_ne, ne_eq, List.length_eq_zero_iff, not_and,
              Decidable.not_not] at hp hb
            rw [hp hb.1]
            exact ⟨_, rfl⟩
          · exact ⟨_, rfl⟩
  · rcases h with h | h | h | h
    · exact ⟨false, by simp [done, h]⟩
    · refine (?_ : ∃ b, done o s = .ok b)
      unfold done
      rw [h]
      simp only [Bool.false_and, Bool.false_eq_true, if_false]
      split
      · exact ⟨_, rfl⟩
      · split <;> exact ⟨_, rfl⟩
    · refine (?_ : ∃ b, done o s = .ok b)
      unfold done
      rw [h]
      simp only [Bool.false_and, Bool.and_false, Bool.false_eq_true, if_false]
      split
      · exact ⟨_, rfl⟩
      · split <;> exact ⟨_, rfl⟩
    · obtain ⟨b, hb, _⟩ := done_iff hi (unique_of_from hf h) hs
      exact ⟨b, hb⟩

theorem run_total {o : Opt} {is : List SectionInput} (hd : ∀ i ∈ is, ∀ ev ∈ i.events, Decodable o ev)
    (h : o.streaming = true ∨ o.present = false ∨ o.following = false ∨ OneEach o is)
    {τ : Type} (src : Source SectionInput τ) (t : τ) (fuel : Nat) (hy : Yields src t is)
    (hl : is.length < fuel) : ∃ r, feedPackets src (sink o) fuel t { st := {} } = .ok r := by
  refine ran_total (step := step o) (finish := Except.ok) (exitCode := fun _ => exitSuccess)
    (is := is) (fun s => ∃ cs, Inv o s cs ∧ From o is cs) ?_ (fun s _ => ⟨s, rfl⟩) (s0 := {})
    ⟨[], inv_init o, by intro e he; simp [written] at he⟩ src t fuel hy hl
  rintro s ⟨cs, h1, h2⟩ i hi
  obtain ⟨s', cs', h3⟩ := handleEvents_total (o := o) (evs := handedOver watched i)
    (fun ev hev => hd i hi ev ((List.mem_filter.1 hev).1)) s
  obtain ⟨k1, k2, k3⟩ := handleEvents_spec h1 h3
  have hf := from_step h2 hi k2 k3
  obtain ⟨b, hb⟩ := done_total k1 hf h
  exact ⟨s', cs', !b, by unfold step; rw [h3, ok_bind]; dsimp only; rw [hb]; rfl, _, k1, hf⟩

theorem Collected.reach {o : Opt} {is : List SectionInput} {code : Nat} {h : Hist}
    (hr : Collected o is code h) : Reach (step o) {} h.items h.st ∧ code = 0 ∧
      h.items.map (·.input) <+: is ∧
      ((h.items.map (·.input) = is ∧ ∀ x ∈ h.items, x.more = true) ∨
        ∃ x, h.items.getLast? = some x ∧ x.more = false) := by
  obtain ⟨s, h1, h2, h3, h4, h5⟩ := Ran.reach hr
  cases h2
  exact ⟨h1, h3, h4, h5⟩

/-- Runs are what evaluation shows. -/
theorem collected_of_eval {o : Opt} {is : List SectionInput}
    {items : List (Line SectionInput (List DemuxCall))}
    (h : checkRun (sink o) { st := {} } is (fun c h => decide (c = 0 ∧ h.items = items)) = true) :
    ∃ h, Collected o is 0 h ∧ h.items = items := by
  obtain ⟨c, s, h1, h2⟩ := ran_of_check h
  obtain ⟨rfl, h3⟩ := of_decide_eq_true h2
  exact ⟨s, h1, h3⟩

end Mirakc.EitpfCollector
