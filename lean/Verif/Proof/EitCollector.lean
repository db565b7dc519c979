import Verif.Proof.EitProgress
import Verif.Proof.EventsJson
import Verif.Proof.History
/-
The state of collect-eits as a function of the history.
-/
set_option linter.unusedSimpArgs false
namespace Mirakc.EitCollector
open Mirakc.Spec Mirakc.Spec.EitCollector

/-! ### The map of services -/

theorem lookup_mem {l : Services} {k : UInt64} {s : ServiceProgress}
    (h : l.lookup k = some s) : (k, s) ∈ l := by
  induction l with
  | nil => cases h
  | cons x l ih =>
    obtain ⟨k', s'⟩ := x
    rw [List.lookup_cons] at h
    by_cases hk : k = k'
    · subst hk; simp at h; subst h; simp
    · rw [show (k == k') = false by simpa using hk] at h
      exact List.mem_cons_of_mem _ (ih h)

theorem lookup_of_mem {l : Services} {k : UInt64} {s : ServiceProgress} (h : (k, s) ∈ l) :
    ∃ s', l.lookup k = some s' := by
  induction l with
  | nil => cases h
  | cons x l ih =>
    obtain ⟨k', s'⟩ := x
    rw [List.lookup_cons]
    by_cases hk : k = k'
    · subst hk; exact ⟨s', by simp⟩
    · rw [show (k == k') = false by simpa using hk]
      rcases List.mem_cons.1 h with h | h
      · cases h; exact absurd rfl hk
      · exact ih h

/-- No key twice. -/
def Distinct (l : Services) : Prop := l.Pairwise fun a b => a.1 ≠ b.1

theorem lookup_iff {l : Services} (hd : Distinct l) {k : UInt64} {s : ServiceProgress} :
    l.lookup k = some s ↔ (k, s) ∈ l := by
  refine ⟨lookup_mem, ?_⟩
  intro h
  induction l with
  | nil => cases h
  | cons x l ih =>
    obtain ⟨k', s'⟩ := x
    obtain ⟨h1, h2⟩ := List.pairwise_cons.1 hd
    rw [List.lookup_cons]
    rcases List.mem_cons.1 h with h | h
    · cases h; simp
    · have hk : k ≠ k' := fun e => h1 _ h e.symm
      rw [show (k == k') = false by simpa using hk]
      exact ih h2 h

theorem mem_update {l : Services} (hd : Distinct l) {k : UInt64} {e : EitSection} {k' : UInt64}
    {s' : ServiceProgress} : (k', s') ∈ l.update k e ↔
      (k' ≠ k ∧ (k', s') ∈ l) ∨ (k' = k ∧ s' = ((l.lookup k).getD {}).update e) := by
  induction l with
  | nil =>
    unfold Services.update
    rw [List.lookup_nil, Option.getD_none, List.mem_singleton, Prod.mk.injEq]
    constructor
    · exact .inr
    · rintro (⟨_, h⟩ | h)
      · cases h
      · exact h
  | cons x l ih =>
    obtain ⟨k1, s1⟩ := x
    obtain ⟨h1, h2⟩ := List.pairwise_cons.1 hd
    unfold Services.update
    rw [List.lookup_cons]
    by_cases hk : k1 = k
    · subst hk
      simp only [beq_self_eq_true, if_true, List.mem_cons, Prod.mk.injEq, Option.getD_some]
      constructor
      · rintro (h | h)
        · exact .inr h
        · exact .inl ⟨fun e => h1 _ h e.symm, .inr h⟩
      · rintro (⟨h, h' | h'⟩ | h)
        · exact absurd h'.1 h
        · exact .inr h'
        · exact .inl h
    · rw [show (k1 == k) = false by simpa using hk, show (k == k1) = false by simpa using Ne.symm hk]
      simp only [Bool.false_eq_true, if_false, List.mem_cons, Prod.mk.injEq, ih h2]
      constructor
      · rintro (h | h | h)
        · exact .inl ⟨by rw [h.1]; exact hk, .inl h⟩
        · exact .inl ⟨h.1, .inr h.2⟩
        · exact .inr h
      · rintro (⟨h, h' | h'⟩ | h)
        · exact .inl h'
        · exact .inr (.inl ⟨h, h'⟩)
        · exact .inr (.inr h)

theorem distinct_update {l : Services} (hd : Distinct l) (k : UInt64) (e : EitSection) :
    Distinct (l.update k e) := by
  induction l with
  | nil => exact List.pairwise_singleton _ _
  | cons x l ih =>
    obtain ⟨k1, s1⟩ := x
    obtain ⟨h1, h2⟩ := List.pairwise_cons.1 hd
    unfold Services.update
    split
    · exact List.pairwise_cons.2 ⟨h1, h2⟩
    · next hk =>
      refine List.pairwise_cons.2 ⟨?_, ih h2⟩
      rintro ⟨k', s'⟩ hm
      rcases (mem_update h2).1 hm with ⟨_, h⟩ | ⟨h, _⟩
      · exact h1 _ h
      · rw [h]; simpa using hk

/-- What the map means. -/
structure ServicesInv (ss : Services) (l : List Ev) : Prop where
  distinct : Distinct ss
  groups : ∀ k s, (k, s) ∈ ss → ∃ e ∈ sections l, e.serviceTriple = k ∧
    GroupInv s.basic l (service e, false) ∧ GroupInv s.extra l (service e, true)
  seen : ∀ e ∈ sections l, ∃ s, (e.serviceTriple, s) ∈ ss

theorem services_init : ServicesInv [] [] :=
  ⟨List.Pairwise.nil, by simp, by simp [sections]⟩

theorem services_time {ss : Services} {l : List Ev} (hi : ServicesInv ss l) (t : Int) :
    ServicesInv (ss.map fun (k, s) => (k, s.updateUnused t)) (l ++ [.time t]) := by
  refine ⟨?_, ?_, ?_⟩
  · exact List.pairwise_map.2 hi.distinct
  · intro k s h
    obtain ⟨⟨k', s'⟩, h1, h2⟩ := List.mem_map.1 h
    cases h2
    obtain ⟨e, k1, k2, k3, k4⟩ := hi.groups k s' h1
    exact ⟨e, by rw [sections_time]; exact k1, k2, group_time k3 t, group_time k4 t⟩
  · intro e he
    rw [sections_time] at he
    obtain ⟨s, hs⟩ := hi.seen e he
    exact ⟨_, List.mem_map.2 ⟨_, hs, rfl⟩⟩

theorem groups_lookup {ss : Services} {l : List Ev} (hi : ServicesInv ss l) (e : EitSection) :
    GroupInv ((ss.lookup e.serviceTriple).getD {}).basic l (service e, false) ∧
    GroupInv ((ss.lookup e.serviceTriple).getD {}).extra l (service e, true) := by
  cases h : ss.lookup e.serviceTriple with
  | none =>
    have hne : ∀ x, ofGroup (service e, x) (sections l) = [] := by
      intro x
      unfold ofGroup
      rw [List.filter_eq_nil_iff]
      intro e' he' hg
      simp only [decide_eq_true_eq, group, Prod.mk.injEq] at hg
      obtain ⟨s, hs⟩ := hi.seen e' he'
      obtain ⟨s', hs'⟩ := lookup_of_mem hs
      rw [serviceTriple_eq.2 hg.1] at hs'
      rw [h] at hs'; cases hs'
    exact ⟨group_init (hne _), group_init (hne _)⟩
  | some s =>
    obtain ⟨e', h1, h2, h3, h4⟩ := hi.groups _ _ (lookup_mem h)
    rw [serviceTriple_eq.1 h2] at h3 h4
    exact ⟨h3, h4⟩

theorem services_update {ss : Services} {l : List Ev} (hi : ServicesInv ss l) (e : EitSection) :
    ServicesInv (ss.update e.serviceTriple e) (l ++ [.sec e]) := by
  have hsec : sections (l ++ [.sec e]) = sections l ++ [e] := by
    rw [sections_append]; simp [sections]
  refine ⟨distinct_update hi.distinct _ _, ?_, ?_⟩
  · intro k s h
    rcases (mem_update hi.distinct).1 h with ⟨h1, h2⟩ | ⟨h1, h2⟩
    · obtain ⟨e', k1, k2, k3, k4⟩ := hi.groups k s h2
      have hne : service e ≠ service e' := by
        intro he
        exact h1 (by rw [← k2]; exact serviceTriple_eq.2 he.symm)
      exact ⟨e', by rw [hsec]; simp [k1], k2,
        group_other k3 (by simp [group, hne]), group_other k4 (by simp [group, hne])⟩
    · obtain ⟨g1, g2⟩ := groups_lookup hi e
      refine ⟨e, by rw [hsec]; simp, h1.symm, ?_⟩
      rw [h2]
      unfold ServiceProgress.update
      rw [isBasic_eq]
      cases hx : extended e with
      | false =>
        have hg : group e = (service e, false) := by simp [group, hx]
        simp only [Bool.not_false, if_true]
        rw [← hg] at g1 ⊢
        exact ⟨group_update g1, group_other g2 (by rw [hg]; simp)⟩
      | true =>
        have hg : group e = (service e, true) := by simp [group, hx]
        simp only [Bool.not_true, Bool.false_eq_true, if_false]
        rw [← hg] at g2 ⊢
        exact ⟨group_other g1 (by rw [hg]; simp), group_update g2⟩
  · intro e' he'
    rw [hsec] at he'
    rcases List.mem_append.1 he' with he' | he'
    · obtain ⟨s, hs⟩ := hi.seen e' he'
      by_cases hk : e'.serviceTriple = e.serviceTriple
      · exact ⟨_, (mem_update hi.distinct).2 (.inr ⟨hk, rfl⟩)⟩
      · exact ⟨s, (mem_update hi.distinct).2 (.inl ⟨hk, hs⟩)⟩
    · simp only [List.mem_singleton] at he'
      subst he'
      exact ⟨_, (mem_update hi.distinct).2 (.inr ⟨rfl, rfl⟩)⟩

theorem services_known {p : Progress} {l : List Ev} (hi : ServicesInv p.services l) (e : EitSection) :
    p.checkCollected e = true ↔ Known (sections l) e := by
  obtain ⟨g1, g2⟩ := groups_lookup hi e
  have key : (((p.services.lookup e.serviceTriple).getD {}).checkCollected e) = true ↔
      Known (sections l) e := by
    unfold ServiceProgress.checkCollected
    rw [isBasic_eq]
    cases hx : extended e with
    | false =>
      have hg : group e = (service e, false) := by simp [group, hx]
      simp only [Bool.not_false, if_true]
      rw [← hg] at g1
      exact group_known g1
    | true =>
      have hg : group e = (service e, true) := by simp [group, hx]
      simp only [Bool.not_true, Bool.false_eq_true, if_false]
      rw [← hg] at g2
      exact group_known g2
  unfold Progress.checkCollected
  cases h : p.services.lookup e.serviceTriple with
  | none =>
    rw [h] at key
    rw [← key]
    have : ((none : Option ServiceProgress).getD {}).checkCollected e = false := by
      unfold ServiceProgress.checkCollected
      split <;> rfl
    rw [this]
  | some s => rw [h] at key; exact key

theorem services_completed {p : Progress} {l : List Ev} (hi : ServicesInv p.services l) :
    p.checkCompleted = true ↔ AllThere l := by
  unfold Progress.checkCompleted
  rw [List.all_eq_true]
  constructor
  · rintro h ⟨g, x⟩ e he
    have hmem := List.mem_of_getLast? he
    unfold ofGroup at hmem
    rw [List.mem_filter] at hmem
    simp only [decide_eq_true_eq, group, Prod.mk.injEq] at hmem
    obtain ⟨h1, rfl, h3⟩ := hmem
    obtain ⟨s, hs⟩ := hi.seen e h1
    obtain ⟨e', k1, k2, k3, k4⟩ := hi.groups _ _ hs
    have h4 := h _ hs
    simp only [ServiceProgress.isCompleted, Bool.and_eq_true] at h4
    rw [serviceTriple_eq.1 k2] at k3 k4
    cases x with
    | false => exact (group_completed k3).1 h4.1 e he
    | true => exact (group_completed k4).1 h4.2 e he
  · rintro h ⟨k, s⟩ hs
    obtain ⟨e', k1, k2, k3, k4⟩ := hi.groups _ _ hs
    simp only [ServiceProgress.isCompleted, Bool.and_eq_true]
    exact ⟨(group_completed k3).2 (fun e he => h _ e he), (group_completed k4).2 (fun e he => h _ e he)⟩

/-! ### The state -/

theorem upToSection_sec (l : List Ev) (e : EitSection) :
    upToSection (l ++ [.sec e]) = l ++ [.sec e] := by
  simp [upToSection]

theorem upToSection_time (l : List Ev) (t : Int) :
    upToSection (l ++ [.time t]) = upToSection l := by
  simp [upToSection]

theorem upToSection_prefix (l : List Ev) : upToSection l <+: l := by
  unfold upToSection
  rw [← List.reverse_suffix, List.reverse_reverse]
  exact List.dropWhile_suffix _

/-- What the state means. -/
structure Inv (s : St) (l : List Ev) : Prop where
  services : ServicesInv s.progress.services l
  completed : s.progress.completed = true ↔ sections l ≠ [] ∧ AllThere (upToSection l)
  has : s.hasTimestamp = true ↔ times l ≠ []
  time : s.timestamp = (streamTime l).getD 0
  updated : s.lastUpdated = (progressTime l).getD 0

theorem inv_init : Inv {} [] :=
  ⟨services_init, by simp [sections], by simp [times], rfl, rfl⟩

theorem inv_sec {s : St} {l : List Ev} (hi : Inv s l) (e : EitSection) :
    Inv { s with lastUpdated := s.timestamp, progress := s.progress.update e } (l ++ [.sec e]) := by
  have ht : times (l ++ [Ev.sec e]) = times l := by rw [times_append]; simp [times]
  have hs := services_update hi.services e
  refine ⟨hs, ?_, by rw [ht]; exact hi.has, by simp only [streamTime, ht]; exact hi.time, ?_⟩
  · rw [upToSection_sec]
    have := services_completed (p := { s.progress with
      services := s.progress.services.update e.serviceTriple e }) hs
    have h2 : sections (l ++ [.sec e]) ≠ [] := by rw [sections_append]; simp [sections]
    simp only [h2, ne_eq, not_false_eq_true, true_and]
    exact this
  · have h1 : progressTime (l ++ [.sec e]) = streamTime l := by
      unfold progressTime
      rw [upToSection_sec]
      simp only [streamTime, ht]
      cases h : times l with
      | nil => rfl
      | cons a b => simp [List.getLast?_cons]
    rw [h1]
    exact hi.time

theorem inv_time {s : St} {l : List Ev} (hi : Inv s l) (t : Int) :
    Inv (handleTime s t) (l ++ [.time t]) := by
  have hl : times (l ++ [Ev.time t]) = times l ++ [t] := by rw [times_append]; simp [times]
  have hst : streamTime (l ++ [.time t]) = some t := by simp [streamTime, hl]
  have hup : upToSection (l ++ [Ev.time t]) = upToSection l := upToSection_time l t
  have hserv := services_time hi.services t
  have hcomp : s.progress.completed = true ↔
      sections (l ++ [.time t]) ≠ [] ∧ AllThere (upToSection (l ++ [.time t])) := by
    rw [sections_time, upToSection_time]; exact hi.completed
  unfold handleTime
  by_cases hh : s.hasTimestamp = true
  · have hne := hi.has.1 hh
    simp only [hh, Bool.not_true, Bool.false_eq_true, if_false]
    refine ⟨hserv, hcomp, by simp [hl, hh], by rw [hst]; rfl, ?_⟩
    rw [hi.updated]
    unfold progressTime
    rw [hup, hl]
    cases streamTime (upToSection l) with
    | some x => rfl
    | none =>
      cases h : times l with
      | nil => exact absurd h hne
      | cons a b => rfl
  · have he : times l = [] := by
      cases h : times l with
      | nil => rfl
      | cons a b => exact absurd (hi.has.2 (by rw [h]; simp)) hh
    simp only [Bool.not_eq_true] at hh
    simp only [hh, Bool.not_false, if_true]
    refine ⟨hserv, hcomp, by simp [hl], by rw [hst]; rfl, ?_⟩
    unfold progressTime
    rw [hup]
    have hu : streamTime (upToSection l) = none := by
      obtain ⟨r, hr⟩ := upToSection_prefix l
      have : times (upToSection l) ++ times r = [] := by rw [← times_append, hr, he]
      simp [streamTime, (List.append_eq_nil_iff.1 this).1]
    rw [hu, hl, he]
    rfl

/-! ### Calls -/

/-- What a call does. -/
def CallOk (o : Opt) (l : List EitSection) (c : DemuxCall) : Prop :=
  match c.event with
  | .table _ => c.out = none
  | .sect x => (¬ Requested o x → c.out = none) ∧
      (Requested o x → ∃ e, Shows e x ∧ (Known l e → c.out = none) ∧ (¬ Known l e → c.out = some e))

theorem requested_iff {o : Opt} {x : Section} : Requested o x ↔
    x.valid = true ∧ ¬ ((0x50 ≤ x.tid && x.tid ≤ 0x5F && !o.collectActual) ||
      (0x60 ≤ x.tid && x.tid ≤ 0x6F && !o.collectOthers) ||
      !(0x50 ≤ x.tid && x.tid ≤ 0x6F)) = true ∧ x.next = false ∧
      ¬ x.payload.length < EitSection.payloadFixedSize ∧
      ¬ (!o.sids.isEmpty && !o.sids.contains x.ext) = true ∧
      ¬ (!o.xsids.isEmpty && o.xsids.contains x.ext) = true := by
  have h1 : (0x50 ≤ x.tid) ↔ 0x50 ≤ x.tid.toNat := UInt8.le_iff_toNat_le
  have h2 : (x.tid ≤ 0x5F) ↔ x.tid.toNat ≤ 0x5F := UInt8.le_iff_toNat_le
  have h3 : (0x60 ≤ x.tid) ↔ 0x60 ≤ x.tid.toNat := UInt8.le_iff_toNat_le
  have h4 : (x.tid ≤ 0x6F) ↔ x.tid.toNat ≤ 0x6F := UInt8.le_iff_toNat_le
  unfold Requested
  simp only [Bool.or_eq_true, Bool.and_eq_true, decide_eq_true_eq, Bool.not_eq_true', h1, h2, h3, h4,
    EitSection.payloadFixedSize, not_or, not_and, Bool.not_eq_false, Decidable.not_not, Bool.and_eq_false_iff,
    decide_eq_false_iff_not, Nat.not_lt, List.contains_eq_mem, decide_eq_true_eq]
  have e1 : (o.sids = [] ∨ x.ext ∈ o.sids) ↔ (o.sids.isEmpty = false → x.ext ∈ o.sids) := by
    cases o.sids <;> simp
  have e2 : (x.ext ∉ o.xsids) ↔ (o.xsids.isEmpty = false → ¬ x.ext ∈ o.xsids) := by
    cases o.xsids <;> simp
  rw [e1]
  constructor
  · rintro ⟨a, b, c, d, e, f⟩
    refine ⟨a, ⟨⟨?_, ?_⟩, ?_⟩, b, d, e, e2.1 f⟩
    · rintro ⟨g1, g2⟩
      rcases c with c | c
      · exact c.2.2
      · omega
    · rintro ⟨g1, g2⟩
      rcases c with c | c
      · omega
      · exact c.2.2
    · omega
  · rintro ⟨a, ⟨⟨c1, c2⟩, c3⟩, b, d, e, f⟩
    refine ⟨a, b, ?_, d, e, e2.2 f⟩
    by_cases hx : x.tid.toNat ≤ 0x5F
    · exact .inl ⟨by omega, hx, c1 ⟨by omega, hx⟩⟩
    · exact .inr ⟨by omega, by omega, c2 ⟨by omega, by omega⟩⟩

theorem handleEvent_spec {o : Opt} {s s' : St} {ev : SectionEvent} {out : Option EitSection}
    {l : List Ev} (hi : Inv s l) (h : handleEvent o s ev = .ok (s', out)) :
    CallOk o (sections l) ⟨ev, out⟩ ∧ Inv s' (l ++ (evOf ⟨ev, out⟩).toList) := by
  cases ev with
  | table t =>
    simp only [handleEvent, Except.ok.injEq, Prod.mk.injEq] at h
    obtain ⟨rfl, rfl⟩ := h
    refine ⟨rfl, ?_⟩
    unfold handleTable evOf
    cases hb : t.body <;> simp only [hb] <;> try simpa using hi
    split
    · exact inv_time hi _
    · simpa using hi
  | sect x =>
    simp only [handleEvent, handleSection] at h
    by_cases hr : Requested o x
    · obtain ⟨r1, r2, r3, r4, r5, r6⟩ := requested_iff.1 hr
      obtain ⟨e, he⟩ := make_total (x := x) (by simpa [EitSection.payloadFixedSize] using r4)
      have hsh := make_ok he
      have hsid : e.sid = x.ext := hsh.1
      rw [← hsid] at r5 r6
      simp only [r1, Bool.not_true, Bool.false_eq_true, if_false] at h
      rw [if_neg r2, if_neg (by simp [r3]), if_neg r4, he] at h
      simp only [ok_bind] at h
      rw [if_neg r5, if_neg r6] at h
      split at h
      · next hk =>
        cases h
        refine ⟨⟨fun hn => absurd hr hn, fun _ => ⟨e, hsh, fun _ => rfl, fun hn => ?_⟩⟩, by simpa [evOf] using hi⟩
        exact absurd ((services_known hi.services e).1 hk) hn
      · next hk =>
        obtain ⟨_, _, h⟩ := bind_eq_ok h
        cases h
        refine ⟨⟨fun hn => absurd hr hn, fun _ => ⟨e, hsh, fun hn => ?_, fun _ => rfl⟩⟩, ?_⟩
        · exact absurd ((services_known hi.services e).2 hn) hk
        · exact inv_sec hi e
    · have hout : s' = s ∧ out = none := by
        have hr' := fun h => hr (requested_iff.2 h)
        by_cases r1 : x.valid = true
        · simp only [r1, Bool.not_true, Bool.false_eq_true, if_false] at h
          split at h
          · cases h; exact ⟨rfl, rfl⟩
          · next r2 =>
            split at h
            · cases h; exact ⟨rfl, rfl⟩
            · next r3 =>
              split at h
              · cases h; exact ⟨rfl, rfl⟩
              · next r4 =>
                obtain ⟨e, he⟩ := make_total (x := x) (by simpa [EitSection.payloadFixedSize] using r4)
                have hsid : e.sid = x.ext := (make_ok he).1
                rw [he] at h
                simp only [ok_bind, hsid] at h
                split at h
                · cases h; exact ⟨rfl, rfl⟩
                · next r5 =>
                  split at h
                  · cases h; exact ⟨rfl, rfl⟩
                  · next r6 => exact absurd ⟨r1, r2, by simpa using r3, r4, r5, r6⟩ hr'
        · simp only [Bool.not_eq_true] at r1
          simp only [r1, Bool.not_false, if_true, Except.ok.injEq, Prod.mk.injEq] at h
          exact ⟨h.1.symm, h.2.symm⟩
      obtain ⟨rfl, rfl⟩ := hout
      exact ⟨⟨fun _ => rfl, fun h => absurd h hr⟩, by simpa [evOf] using hi⟩

/-- The loop of events of a section that is asked for is in order. -/
def Decodable (o : Opt) (ev : SectionEvent) : Prop :=
  ∀ x, ev = .sect x → Requested o x → Spec.EventsJson.WellFormed (x.payload.drop 6)

theorem shows_events {e : EitSection} {x : Section} (h : Shows e x) : e.events = x.payload.drop 6 := by
  obtain ⟨_, _, _, _, _, b0, b1, b2, b3, b4, b5, hp, _⟩ := h
  rw [hp]; rfl

theorem handleEvent_total {o : Opt} {ev : SectionEvent} (hd : Decodable o ev) (s : St) :
    ∃ s' out, handleEvent o s ev = .ok (s', out) := by
  cases ev with
  | table t => exact ⟨_, _, rfl⟩
  | sect x =>
    simp only [handleEvent, handleSection]
    split
    · exact ⟨_, _, rfl⟩
    · next r1 =>
      split
      · exact ⟨_, _, rfl⟩
      · next r2 =>
        split
        · exact ⟨_, _, rfl⟩
        · next r3 =>
          split
          · exact ⟨_, _, rfl⟩
          · next r4 =>
            obtain ⟨e, he⟩ := make_total (x := x) (by simpa [EitSection.payloadFixedSize] using r4)
            have hsh := make_ok he
            have hsid : e.sid = x.ext := hsh.1
            rw [he]
            simp only [ok_bind]
            split
            · exact ⟨_, _, rfl⟩
            · next r5 =>
              split
              · exact ⟨_, _, rfl⟩
              · next r6 =>
                split
                · exact ⟨_, _, rfl⟩
                · rw [hsid] at r5 r6
                  have hw := hd x rfl (requested_iff.2 ⟨by simpa using r1, r2, by simpa using r3, r4, r5, r6⟩)
                  rw [← shows_events hsh] at hw
                  rcases makeJsonEit_total (fun _ => none) e with ⟨_, j, hj⟩ | ⟨hn, _⟩
                  · rw [hj]; exact ⟨_, _, rfl⟩
                  · exact absurd hw hn

theorem log_append (a b : List DemuxCall) : log (a ++ b) = log a ++ log b := by
  simp [log]

theorem log_cons (c : DemuxCall) (cs : List DemuxCall) :
    log (c :: cs) = (evOf c).toList ++ log cs := by
  unfold log
  rw [List.filterMap_cons]
  cases evOf c <;> rfl

theorem handleEvents_spec {o : Opt} {evs : List SectionEvent} {s s' : St} {cs : List DemuxCall}
    {l : List Ev} (hi : Inv s l) (h : handleEvents o evs s = .ok (s', cs)) :
    Inv s' (l ++ log cs) ∧ cs.map (·.event) = evs ∧
      ∀ a c b, cs = a ++ c :: b → CallOk o (sections (l ++ log a)) c := by
  induction evs generalizing s cs l with
  | nil =>
    simp only [handleEvents, Except.ok.injEq, Prod.mk.injEq] at h
    obtain ⟨rfl, rfl⟩ := h
    exact ⟨by simpa [log] using hi, rfl, by simp⟩
  | cons ev evs ih =>
    unfold handleEvents at h
    obtain ⟨⟨s1, out⟩, h1, h⟩ := bind_eq_ok h
    obtain ⟨⟨s2, cs1⟩, h2, h⟩ := bind_eq_ok h
    cases h
    obtain ⟨k1, k2⟩ := handleEvent_spec hi h1
    obtain ⟨j1, j2, j3⟩ := ih k2 h2
    refine ⟨?_, by simp [j2], ?_⟩
    · rw [log_cons, ← List.append_assoc]; exact j1
    · intro a c b e
      cases a with
      | nil =>
        simp only [List.nil_append, List.cons.injEq] at e
        rw [← e.1]
        simpa [log] using k1
      | cons a0 a =>
        simp only [List.cons_append, List.cons.injEq] at e
        obtain ⟨rfl, e⟩ := e
        rw [log_cons, ← List.append_assoc]
        exact j3 a c b e

theorem handleEvents_total {o : Opt} {evs : List SectionEvent} (hd : ∀ ev ∈ evs, Decodable o ev)
    (s : St) : ∃ s' cs, handleEvents o evs s = .ok (s', cs) := by
  induction evs generalizing s with
  | nil => exact ⟨_, _, rfl⟩
  | cons ev evs ih =>
    obtain ⟨s1, out, h1⟩ := handleEvent_total (hd ev (by simp)) s
    obtain ⟨s2, cs, h2⟩ := ih (fun ev h => hd ev (by simp [h])) s1
    exact ⟨s2, _, by simp only [handleEvents, h1, h2, ok_bind]; rfl⟩

/-! ### Histories -/

theorem calls_append (a b : List (Line SectionInput (List DemuxCall))) :
    calls (a ++ b) = calls a ++ calls b := by
  simp [calls]

theorem step_spec {o : Opt} {s s' : St} {i : SectionInput} {cs : List DemuxCall} {more : Bool}
    {l : List Ev} (hi : Inv s l) (h : step o s i = .ok (s', cs, more)) :
    Inv s' (l ++ log cs) ∧ cs.map (·.event) = handedOver watched i ∧
      (∀ a c b, cs = a ++ c :: b → CallOk o (sections (l ++ log a)) c) ∧
      (more = false ↔ o.streaming = false ∧
        ((sections (l ++ log cs) ≠ [] ∧ AllThere (upToSection (l ++ log cs))) ∨
          TimedOut o.timeLimit (l ++ log cs))) := by
  unfold step at h
  obtain ⟨⟨s1, cs1⟩, h1, h2⟩ := bind_eq_ok h
  clear h
  simp only [Except.ok.injEq, Prod.mk.injEq] at h2
  obtain ⟨rfl, rfl, h⟩ := h2
  obtain ⟨k1, k2, k3⟩ := handleEvents_spec hi h1
  refine ⟨k1, k2, k3, ?_⟩
  rw [← h]
  unfold isCompleted checkTimeout
  cases hs : o.streaming with
  | true => simp
  | false =>
    simp only [Bool.false_eq_true, if_false, true_and]
    rw [← k1.completed]
    unfold TimedOut
    rw [← k1.time, ← k1.updated]
    cases s1.progress.completed with
    | true => simp
    | false => simp

theorem reach_inv {o : Opt} {items : List (Line SectionInput (List DemuxCall))} {s : St}
    (h : Reach (step o) {} items s) : Inv s (log (calls items)) := by
  induction h with
  | nil => simpa [calls, log] using inv_init
  | @snoc items s i s' cs more h1 h2 h3 ih =>
    obtain ⟨k1, _⟩ := step_spec ih h3
    rw [calls_append, log_append]
    simpa [calls] using k1

/-- Every call, with the calls before it. -/
theorem reach_calls {o : Opt} {items : List (Line SectionInput (List DemuxCall))} {s : St}
    (h : Reach (step o) {} items s) :
    ∀ a c b, calls items = a ++ c :: b → CallOk o (sections (log a)) c := by
  induction h with
  | nil => intro a c b e; simp [calls] at e
  | @snoc items s i s' cs more h1 h2 h3 ih =>
    obtain ⟨_, _, k3, _⟩ := step_spec (reach_inv h1) h3
    intro a c b e
    rw [calls_append] at e
    have e : calls items ++ cs = a ++ c :: b := by simpa [calls] using e
    rcases List.append_eq_append_iff.1 e with ⟨r, e1, e2⟩ | ⟨r, e1, e2⟩
    · have := k3 r c b e2
      rw [e1, log_append]
      exact this
    · cases r with
      | nil =>
        simp only [List.append_nil, List.nil_append] at e1 e2
        have := k3 [] c b e2.symm
        rw [e1] at this
        simpa [log] using this
      | cons r0 r =>
        simp only [List.cons_append, List.cons.injEq] at e2
        obtain ⟨rfl, _⟩ := e2
        exact ih a c r e1

/-- Every packet, with the history before it. -/
theorem reach_item {o : Opt} {items : List (Line SectionInput (List DemuxCall))} {s : St}
    (h : Reach (step o) {} items s) (a : List (Line SectionInput (List DemuxCall)))
    (it : Line SectionInput (List DemuxCall)) (b : List (Line SectionInput (List DemuxCall)))
    (e : items = a ++ it :: b) :
    it.did.map (·.event) = handedOver watched it.input ∧
    (it.more = false ↔ o.streaming = false ∧
        ((sections (log (calls (a ++ [it]))) ≠ [] ∧ AllThere (upToSection (log (calls (a ++ [it]))))) ∨
          TimedOut o.timeLimit (log (calls (a ++ [it]))))) := by
  obtain ⟨s1, s2, h1, h2, h3, h4⟩ := h.split a it b e
  obtain ⟨_, k2, _, k4⟩ := step_spec (reach_inv h1) h3
  refine ⟨k2, ?_⟩
  rw [calls_append, log_append]
  simpa [calls] using k4

/-! ### Runs -/

theorem Collected.reach {o : Opt} {is : List SectionInput} {code : Nat} {h : Hist}
    (hr : Collected o is code h) : Reach (step o) {} h.items h.st ∧ code = 0 ∧
      h.items.map (·.input) <+: is ∧
      ((h.items.map (·.input) = is ∧ ∀ x ∈ h.items, x.more = true) ∨
        ∃ x, h.items.getLast? = some x ∧ x.more = false) := by
  obtain ⟨h0, hi, hr⟩ := hr
  have h0' : h0 = { st := {} } := by
    unfold init at hi
    obtain ⟨_, _, h2⟩ := bind_eq_ok hi
    cases h2; rfl
  subst h0'
  obtain ⟨s, h1, h2, h3, h4, h5⟩ := Ran.reach hr
  cases h2
  exact ⟨h1, h3, h4, h5⟩

/-- Runs are what evaluation shows. -/
theorem collected_of_eval {o : Opt} {is : List SectionInput}
    {items : List (Line SectionInput (List DemuxCall))}
    (h : (o.collectActual || o.collectOthers) = true ∧
      checkRun (sink o) { st := {} } is (fun c h => decide (c = 0 ∧ h.items = items)) = true) :
    ∃ h, Collected o is 0 h ∧ h.items = items := by
  obtain ⟨c, s, h1, h2⟩ := ran_of_check h.2
  obtain ⟨rfl, h3⟩ := of_decide_eq_true h2
  exact ⟨s, ⟨{ st := {} }, by simp [init, h.1], h1⟩, h3⟩

theorem collected_total {o : Opt} (ho : (o.collectActual || o.collectOthers) = true)
    (is : List SectionInput) (hd : ∀ i ∈ is, ∀ ev ∈ i.events, Decodable o ev) :
    ∃ h, Collected o is 0 h := by
  obtain ⟨⟨c, h⟩, hr⟩ := ran_total (step := step o) (finish := Except.ok) (exitCode := fun _ => exitSuccess)
    (is := is) (fun _ => True)
    (fun s _ i hi => by
      obtain ⟨s', cs, h⟩ := handleEvents_total (o := o) (evs := handedOver watched i)
        (fun ev hev => hd i hi ev ((List.mem_filter.1 hev).1)) s
      exact ⟨_, _, _, by unfold step; rw [h]; rfl, trivial⟩)
    (fun s _ => ⟨s, rfl⟩) (s0 := {}) trivial listSource is (is.length + 1)
    (listSource_yields is) (by omega)
  have hc : Collected o is c h := ⟨{ st := {} }, by simp [init, ho], ran_iff.2 hr⟩
  obtain ⟨_, rfl, _⟩ := Collected.reach hc
  exact ⟨h, hc⟩

/-! ### Independence of services -/

theorem ofGroup_service (g : (UInt16 × UInt16 × UInt16) × Bool) (l : List EitSection) :
    ofGroup g l = ofGroup g (l.filter fun e => decide (service e = g.1)) := by
  unfold ofGroup
  rw [List.filter_filter]
  congr 1
  funext e
  by_cases h : group e = g
  · have : service e = g.1 := by rw [← h]; rfl
    simp [h, this]
  · simp [h]

theorem known_service (l : List EitSection) (e : EitSection) :
    Known l e ↔ Known (l.filter fun e' => decide (service e' = service e)) e := by
  unfold Known
  rw [ofGroup_service (group e) l]
  exact Iff.rfl

theorem shows_origin {e : EitSection} {x : Section} (h : Shows e x) :
    origin x = (e.nid.toNat, e.tsid.toNat, e.sid.toNat) := by
  obtain ⟨h1, _, _, _, _, b0, b1, b2, b3, b4, b5, hp, h6, h7, _⟩ := h
  simp [origin, hp, h6, h7, h1]

theorem service_toNat {e e' : EitSection} : service e = service e' ↔
    (e.nid.toNat, e.tsid.toNat, e.sid.toNat) = (e'.nid.toNat, e'.tsid.toNat, e'.sid.toNat) := by
  simp [service, UInt16.toNat_inj]

/-- The sections of the service that were written are the outputs of its calls. -/
theorem written_of_service {o : Opt} {cs : List DemuxCall}
    (hc : ∀ a c b, cs = a ++ c :: b → CallOk o (sections (log a)) c) (g : Nat × Nat × Nat) :
    (sections (log cs)).filter (fun e => decide ((e.nid.toNat, e.tsid.toNat, e.sid.toNat) = g)) =
      (ofService g cs).filterMap (·.out) := by
  have hc' : ∀ c ∈ cs, ∀ e, c.out = some e → ∃ x, c.event = .sect x ∧ Shows e x := by
    intro c hm e he
    obtain ⟨a, b, hs⟩ := List.append_of_mem hm
    have := hc a c b hs
    unfold CallOk at this
    cases hev : c.event with
    | table t => rw [hev] at this; simp only at this; rw [he] at this; cases this
    | sect x =>
      rw [hev] at this
      simp only at this
      by_cases hr : Requested o x
      · obtain ⟨e1, k1, k2, k3⟩ := this.2 hr
        by_cases hk : Known (sections (log a)) e1
        · rw [k2 hk] at he; cases he
        · rw [k3 hk] at he; cases he; exact ⟨x, rfl, k1⟩
      · rw [this.1 hr] at he; cases he
  clear hc
  induction cs with
  | nil => rfl
  | cons c cs ih =>
    have ih := ih fun c hm => hc' c (List.mem_cons_of_mem _ hm)
    rw [log_cons, sections_append, List.filter_append, ih]
    cases hout : c.out with
    | none =>
      have h1 : sections (evOf c).toList = [] := by
        unfold evOf
        rw [hout]
        cases c.event with
        | sect x => rfl
        | table t =>
          dsimp only
          cases t.body <;> try rfl
          dsimp only
          split <;> rfl
      rw [h1]
      unfold ofService
      rw [List.filter_cons]
      split
      · rw [List.filterMap_cons, hout]; rfl
      · rfl
    | some e =>
      obtain ⟨x, hx, hsh⟩ := hc' c (by simp) e hout
      have h1 : sections (evOf c).toList = [e] := by
        unfold evOf
        rw [hout]; rfl
      rw [h1]
      unfold ofService
      have hof : isOf g c = decide ((e.nid.toNat, e.tsid.toNat, e.sid.toNat) = g) := by
        unfold isOf; rw [hx]; simp only [shows_origin hsh]
      simp only [List.filter_cons, List.filter_nil, hof]
      by_cases hg : (e.nid.toNat, e.tsid.toNat, e.sid.toNat) = g
      · simp only [hg, decide_true, if_true, List.filterMap_cons, hout]; rfl
      · simp only [hg, decide_false, Bool.false_eq_true, if_false]; rfl

theorem ofService_append (g : Nat × Nat × Nat) (a b : List DemuxCall) :
    ofService g (a ++ b) = ofService g a ++ ofService g b := by
  simp [ofService]

/-- What the calls of a service write is determined by their sections. -/
theorem service_determined {o : Opt} {g : Nat × Nat × Nat} : ∀ (n : Nat) {cs cs' : List DemuxCall},
    (ofService g cs).length = n →
    (∀ a c b, cs = a ++ c :: b → CallOk o (sections (log a)) c) →
    (∀ a c b, cs' = a ++ c :: b → CallOk o (sections (log a)) c) →
    (ofService g cs).map (·.event) = (ofService g cs').map (·.event) →
    ofService g cs = ofService g cs' := by
  intro n
  induction n with
  | zero =>
    intro cs cs' hn _ _ he
    have h1 := List.eq_nil_of_length_eq_zero hn
    rw [h1] at he ⊢
    exact (List.map_eq_nil_iff.1 he.symm).symm
  | succ n ih =>
    intro cs cs' hn hc hc' he
    -- cut off the last call of the service
    have cut : ∀ cs : List DemuxCall, ofService g cs ≠ [] → ∃ a c b, cs = a ++ c :: b ∧
        ofService g b = [] ∧ ofService g [c] = [c] := by
      intro cs
      induction cs with
      | nil => intro h; exact absurd rfl h
      | cons c cs ih =>
        intro h
        by_cases h' : ofService g cs = []
        · refine ⟨[], c, cs, rfl, h', ?_⟩
          unfold ofService at h h' ⊢
          cases hf : isOf g c with
          | true => simp [hf]
          | false => rw [List.filter_cons, hf, h'] at h; exact absurd rfl h
        · obtain ⟨a, c', b, k1, k2, k3⟩ := ih h'
          exact ⟨c :: a, c', b, by rw [k1]; rfl, k2, k3⟩
    have hne : ofService g cs ≠ [] := by intro h; rw [h] at hn; simp at hn
    have hne' : ofService g cs' ≠ [] := by
      intro h; rw [h] at he
      exact hne (List.map_eq_nil_iff.1 he)
    obtain ⟨a, c, b, rfl, hb, hcg⟩ := cut cs hne
    obtain ⟨a', c', b', rfl, hb', hcg'⟩ := cut cs' hne'
    have e1 : ofService g (a ++ c :: b) = ofService g a ++ [c] := by
      rw [ofService_append, show c :: b = [c] ++ b from rfl, ofService_append, hb, hcg, List.append_nil]
    have e2 : ofService g (a' ++ c' :: b') = ofService g a' ++ [c'] := by
      rw [ofService_append, show c' :: b' = [c'] ++ b' from rfl, ofService_append, hb', hcg', List.append_nil]
    rw [e1, e2] at he ⊢
    simp only [List.map_append, List.map_cons, List.map_nil] at he
    obtain ⟨he1, he2⟩ := List.append_inj' he rfl
    have hpa : ∀ (a b : List DemuxCall), (∀ a1 c b1, a ++ b = a1 ++ c :: b1 → CallOk o (sections (log a1)) c) →
        ∀ a1 c b1, a = a1 ++ c :: b1 → CallOk o (sections (log a1)) c := by
      intro a b h a1 c b1 e
      exact h a1 c (b1 ++ b) (by rw [e]; simp)
    have ha := hpa a (c :: b) hc
    have ha' := hpa a' (c' :: b') hc'
    have heq := ih (cs := a) (cs' := a') (by rw [e1] at hn; simpa using hn) ha ha' he1
    rw [heq]
    congr 1
    -- the last call
    have hw := written_of_service ha g
    have hw' := written_of_service ha' g
    rw [heq, ← hw'] at hw
    have k := hc a c b rfl
    have k' := hc' a' c' b' rfl
    simp only [List.cons.injEq, and_true] at he2
    have hout : c.out = c'.out := by
      unfold CallOk at k k'
      rw [← he2] at k'
      cases hev : c.event with
      | table t => rw [hev] at k k'; rw [k, k']
      | sect x =>
        rw [hev] at k k'
        simp only at k k'
        by_cases hr : Requested o x
        · obtain ⟨e, q1, q2, q3⟩ := k.2 hr
          obtain ⟨e', r1, r2, r3⟩ := k'.2 hr
          obtain rfl := shows_unique q1 r1
          have hg : origin x = g := by
            by_cases hg : origin x = g
            · exact hg
            · have : isOf g c = false := by unfold isOf; rw [hev]; simp [hg]
              simp [ofService, this] at hcg
          rw [shows_origin q1] at hg
          have hfil : (fun e' => decide (service e' = service e)) =
              (fun e' : EitSection => decide ((e'.nid.toNat, e'.tsid.toNat, e'.sid.toNat) = g)) := by
            funext e'
            rw [← hg]
            simp only [service_toNat]
          have hk : Known (sections (log a)) e ↔ Known (sections (log a')) e := by
            rw [known_service, known_service (sections (log a')), hfil, hw]
          by_cases h : Known (sections (log a)) e
          · rw [q2 h, r2 (hk.1 h)]
          · rw [q3 h, r3 (fun h' => h (hk.2 h'))]
        · rw [k.1 hr, k'.1 hr]
    cases c; cases c'
    simp only at hout he2
    rw [hout, he2]

end Mirakc.EitCollector
