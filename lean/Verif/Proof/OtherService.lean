import Verif.Proof.BehindScan
import Verif.Props.ServiceAborts
/-
For C158: what the output of filter-service begins with.
-/
namespace Mirakc.OtherService
open Mirakc.Spec Mirakc.Spec.ServiceFilter Mirakc.ServiceFilter

theorem handed_first {W : List Table → Nat → Prop} {pid : Nat} {rs ts log : List Table} (h : Handed W pid rs ts log) :
    W rs pid → (∃ u ∈ ts, u.sourcePid = pid) → ∃ u ∈ log, u ∈ ts ∧ u.sourcePid = pid := by
  induction h with
  | nil => rintro _ ⟨u, hu, _⟩; cases hu
  | take h1 _ _ => intro _ _; exact ⟨_, List.mem_cons_self, List.mem_cons_self, h1.1⟩
  | @skip rs t ts log h1 _ ih =>
    rintro hw ⟨u, hu, hp⟩
    rcases List.mem_cons.1 hu with rfl | hu
    · exact absurd ⟨hp, hw⟩ h1
    · obtain ⟨v, v1, v2, v3⟩ := ih hw ⟨u, hu, hp⟩
      exact ⟨v, v1, List.mem_cons_of_mem _ v2, v3⟩

theorem handed_pid {W : List Table → Nat → Prop} {pid : Nat} {rs ts log : List Table} (h : Handed W pid rs ts log) :
    ∀ u ∈ log, u.sourcePid = pid := by
  induction h with
  | nil => intro u hu; cases hu
  | take h1 _ ih =>
    intro u hu
    rcases List.mem_cons.1 hu with rfl | hu
    · exact h1.1
    · exact ih u hu
  | skip _ _ ih => exact ih

/-- The first packet passed on. -/
theorem again_first {is : List Input} {items : List Item} {ts : List (List Table)} (h : Again is items ts) :
    (∀ it ∈ items, it.act = .drop) ∨ ∃ (k : Nat) (i : Input) (it : Item), is[k]? = some i ∧ items[k]? = some it ∧
      (∀ j < k, ∀ it' : Item, items[j]? = some it' → it'.act = .drop) ∧
      ((∃ p, it.act = .send (.orig p)) ∨ ∃ t n l rest os, it.act = .send (.pat t n) ∧ ts = l :: rest ∧ sent items = .pat t n :: os ∧
        (∀ u ∈ l, u.sourcePid = 0 → u.valid = true ∧ u.body = .pat t) ∧
        ((∃ u ∈ it.handled, usablePat u ≠ none) → ∃ u ∈ l, u.sourcePid = 0)) := by
  induction h with
  | nil => left; intro it hit; cases hit
  | drop e _ ih =>
    rcases ih with ih | ⟨k, i, it, h1, h2, h3, h4⟩
    · left
      intro it hit
      rcases List.mem_cons.1 hit with rfl | hit
      · exact e
      · exact ih it hit
    · refine .inr ⟨k + 1, i, it, by simpa using h1, by simpa using h2, ?_, ?_⟩
      · intro j hj it' hit'
        cases j with
        | zero => rw [← Option.some.inj (show some _ = some it' from hit')]; exact e
        | succ j => exact h3 j (by omega) it' (by simpa using hit')
      · refine h4.imp id fun ⟨t, n, l, rest, os, g1, g2, g3, g4⟩ => ⟨t, n, l, rest, os, g1, g2, ?_, g4⟩
        simpa only [sent, List.filterMap_cons, sentOf, e] using g3
  | orig e _ _ => exact .inr ⟨0, _, _, rfl, rfl, fun _ h => absurd h (by omega), .inl ⟨_, e⟩⟩
  | @pat i is it items ts t n l e h1 h2 _ _ =>
    refine .inr ⟨0, _, _, rfl, rfl, fun _ h => absurd h (by omega), .inr ⟨_, _, _, _, sent items, e, rfl, ?_, h1, h2⟩⟩
    simp only [sent, List.filterMap_cons, sentOf, e]

theorem usable_pid {t : Table} {p : Pat} (h : usablePat t = some p) : t.sourcePid = 0 ∧ p.tsId ≠ 0 := by
  unfold usablePat at h
  split at h
  · split at h
    · next hc => cases h; exact ⟨hc.1, hc.2.2⟩
    · cases h
  · cases h

theorem handled_pid {o : Opt} {is : List Input} {s : St} {items : List Item} (h : run o (init o) is = .ok (s, items))
    {k : Nat} {i : Input} {it : Item} (hi : is[k]? = some i) (hk : items[k]? = some it) :
    ∀ u ∈ it.handled, u.sourcePid = i.packet.pid := by
  obtain ⟨post, e, hl⟩ := Joined.split hk
  rw [e] at h
  obtain ⟨i', h1, h2, h3⟩ := Props.C20_any_tables o is s _ it post h
  rw [hl, hi] at h1
  cases h1
  rw [h2]
  exact handed_pid h3

/-- If a CAT, or a PMT of the service, is received only after a PAT, the output begins with a PAT of the service. -/
theorem first_out {o : Opt} {is : List Input} {s : St} {items : List Item} {ts : List (List Table)}
    (h : run o (init o) is = .ok (s, items)) (ha : Again is items ts) (hn : ∀ it ∈ items, it.act ≠ .stop)
    (hlate : ∀ (k : Nat) it, items[k]? = some it → (∃ t ∈ it.handled, validCat t ≠ none ∨ validPmt o.sid t ≠ none) →
      ∃ t ∈ received (items.take k), usablePat t ≠ none) :
    sent items = [] ∨ ∃ t n l rest os, sent items = .pat t n :: os ∧ ts = l :: rest ∧ t.tsId ≠ 0 ∧
      (∃ pid, t.pmts.entries = [(o.sid, pid)]) ∧ (∃ u ∈ l, u.sourcePid = 0) ∧
      ∀ u ∈ l, u.sourcePid = 0 → u.valid = true ∧ u.body = .pat t := by
  rcases again_first ha with hd | ⟨k, i, it, h1, h2, h3, h4⟩
  · left
    simp only [sent, List.filterMap_eq_nil_iff]
    intro it hit
    simp only [sentOf, hd it hit]
  right
  have nopat : ∀ t ∈ received (items.take k), usablePat t = none := by
    intro t ht
    cases hu : usablePat t with
    | none => rfl
    | some pat =>
      exfalso
      obtain ⟨it', hit', ht⟩ := List.mem_flatMap.1 ht
      obtain ⟨j, hj⟩ := List.getElem?_of_mem hit'
      have hjk : j < k := by
        have := (List.getElem?_eq_some_iff.1 hj).1
        rw [List.length_take] at this
        omega
      rw [List.getElem?_take_of_lt hjk] at hj
      have hjl : j < is.length := by
        have := (List.getElem?_eq_some_iff.1 h1).1
        omega
      have hij : is[j]? = some is[j] := List.getElem?_eq_getElem hjl
      obtain ⟨b1, _⟩ := Joined.acts h hj hij (hn it' (List.mem_of_getElem? hj))
      refine b1.2 (.inl ?_) (h3 j hjk it' hj)
      obtain ⟨u, hu'⟩ := Joined.latest_some (List.mem_append_right (received (items.take j)) ht) hu
      refine ⟨u, hu', .inl ?_⟩
      rw [← handled_pid h hij hj t ht, (usable_pid hu).1]
      decide
  have early : ∀ t ∈ received (items.take k), validCat t = none ∧ validPmt o.sid t = none := by
    intro t ht
    apply Classical.byContradiction
    intro hne
    have hne : validCat t ≠ none ∨ validPmt o.sid t ≠ none := Classical.not_and_iff_not_or_not.1 hne
    obtain ⟨it', hit', ht⟩ := List.mem_flatMap.1 ht
    obtain ⟨j, hj⟩ := List.getElem?_of_mem hit'
    have hjk : j < k := by
      have := (List.getElem?_eq_some_iff.1 hj).1
      rw [List.length_take] at this
      omega
    rw [List.getElem?_take_of_lt hjk] at hj
    obtain ⟨u, hu, hv⟩ := hlate j it' hj ⟨t, ht, hne⟩
    obtain ⟨it'', hit'', hu⟩ := List.mem_flatMap.1 hu
    refine hv (nopat u (List.mem_flatMap.2 ⟨it'', ?_, hu⟩))
    exact (List.take_subset_take_left items (by omega)) hit''
  have late : ∀ t ∈ it.handled, validCat t = none ∧ validPmt o.sid t = none := by
    intro t ht
    apply Classical.byContradiction
    intro hne
    obtain ⟨u, hu, hv⟩ := hlate k it h2 ⟨t, ht, Classical.not_and_iff_not_or_not.1 hne⟩
    exact hv (nopat u hu)
  have none : ∀ t ∈ received (items.take k) ++ it.handled, validCat t = none ∧ validPmt o.sid t = none := by
    intro t ht
    rcases List.mem_append.1 ht with ht | ht
    · exact early t ht
    · exact late t ht
  obtain ⟨b1, b2⟩ := Joined.acts h h2 h1 (hn it (List.mem_of_getElem? h2))
  have hf : Forward o.sid (received (items.take k) ++ it.handled) i.packet.pid := by
    refine b1.1 fun hd => ?_
    rcases h4 with ⟨p, h4⟩ | ⟨t, n, _, _, _, h4, _⟩ <;> (rw [hd] at h4; cases h4)
  obtain ⟨pat, hp⟩ : ∃ pat, latest usablePat (received (items.take k) ++ it.handled) = some pat := by
    rcases hf with ⟨pat, hp, _⟩ | ⟨_, hp, _⟩ | ⟨_, hp, _⟩
    · exact ⟨pat, hp⟩
    · obtain ⟨t, ht, hv⟩ := Joined.latest_mem hp
      rw [(none t ht).1] at hv; cases hv
    · obtain ⟨t, ht, hv⟩ := Joined.latest_mem hp
      rw [(none t ht).2] at hv; cases hv
  obtain ⟨u, hu, hv⟩ := Joined.latest_mem hp
  have hu : u ∈ it.handled := by
    rcases List.mem_append.1 hu with hu | hu
    · rw [nopat u hu] at hv; cases hv
    · exact hu
  have hpid : i.packet.pid = 0 := by rw [← handled_pid h h1 h2 u hu, (usable_pid hv).1]
  rcases b2 with b2 | ⟨_, b2⟩ | ⟨t, n, b2, _, pat', hp', hr1, _, _, pid, _, hr2⟩
  · exact absurd b2 (b1.2 hf)
  · exact absurd hpid b2
  · rcases h4 with ⟨p, h4⟩ | ⟨t', n', l, rest, os, h4, g1, g2, g3, g4⟩
    · rw [b2] at h4; cases h4
    · rw [b2] at h4
      cases h4
      rw [hp] at hp'
      cases hp'
      refine ⟨t, n, l, rest, os, g2, g1, by rw [hr1]; exact (usable_pid hv).2, ⟨pid, hr2⟩, g4 ⟨u, hu, by rw [hv]; simp⟩, g3⟩

theorem handed_mem {W : List Table → Nat → Prop} {pid : Nat} {rs ts log : List Table} (h : Handed W pid rs ts log) :
    ∀ u ∈ log, u ∈ ts := by
  induction h with
  | nil => intro u hu; cases hu
  | take _ _ ih =>
    intro u hu
    rcases List.mem_cons.1 hu with rfl | hu
    · exact List.mem_cons_self
    · exact List.mem_cons_of_mem _ (ih u hu)
  | skip _ _ ih => exact fun u hu => List.mem_cons_of_mem _ (ih u hu)

/-- A filter for another service passes nothing on. -/
theorem other_run {sid sid2 : Nat} (hne : sid ≠ sid2) {is : List Input} {s : St} {items : List Item} {p : Packet} {l : List Table}
    {t : Pat} (h : run { sid := sid2 } (init { sid := sid2 }) (⟨p, l⟩ :: is) = .ok (s, items)) (hp : p.pid = 0)
    (ht : t.tsId ≠ 0) {pid : Nat} (he : t.pmts.entries = [(sid, pid)]) (hu : ∃ u ∈ l, u.sourcePid = 0)
    (hl : ∀ u ∈ l, u.sourcePid = 0 → u.valid = true ∧ u.body = .pat t) :
    sent items = [] ∧ ∃ u ∈ received items, Missing sid2 u := by
  cases items with
  | nil =>
    have := (Props.C21_intact _ _ _ _ h).2.2.2 (by simp)
    obtain ⟨pre, it, e, _⟩ := this
    simp at e
  | cons it post =>
    obtain ⟨i, h1, h2, h3⟩ := Props.C20_any_tables _ _ s [] it post h
    cases h1
    simp only at h2
    obtain ⟨u, u1, u2, u3⟩ := handed_first h3 (by
      rw [← h2, hp]; exact .inr (.inl ⟨fun _ h => (by cases h), .inl rfl⟩)) (by rw [← h2, hp]; exact hu)
    rw [← h2, hp] at u3
    have hm : Missing sid2 u := by
      obtain ⟨v1, v2⟩ := hl u u2 u3
      refine ⟨t, ?_, fun q hq => ?_⟩
      · unfold usablePat; rw [v2]; simp [u3, v1, ht]
      · rw [he] at hq
        have := List.mem_singleton.1 hq
        exact hne (by cases this; rfl)
    obtain ⟨g1, g2⟩ := (Props.C23_missing_service _ _ s [] it post h).1 ⟨u, u1, hm⟩
    subst g2
    refine ⟨?_, u, ?_, hm⟩
    · simp only [sent, List.filterMap_cons, sentOf, g1, List.filterMap_nil]
    · simpa [Spec.ServiceFilter.received] using u1

theorem other_ok {sid sid2 : Nat} (hne : sid ≠ sid2) {is : List Input} {p : Packet} {l : List Table} {t : Pat} (hp : p.pid = 0)
    (ht : t.tsId ≠ 0) {pid : Nat} (he : t.pmts.entries = [(sid, pid)]) (hu : ∃ u ∈ l, u.sourcePid = 0)
    (hl : ∀ u ∈ l, u.sourcePid = 0 → u.valid = true ∧ u.body = .pat t) :
    ∃ x, run { sid := sid2 } (init { sid := sid2 }) (⟨p, l⟩ :: is) = .ok x := by
  cases hr : run { sid := sid2 } (init { sid := sid2 }) (⟨p, l⟩ :: is) with
  | ok x => exact ⟨x, rfl⟩
  | error f =>
    exfalso
    obtain ⟨pre, i, post, s, items, h1, h2, h3, log, h4, h5⟩ := (Props.C105_filter_service _ _).1 ⟨f, hr⟩
    cases pre with
    | nil =>
      cases h1
      cases h2
      have hpat : ∀ v ∈ log, v.sourcePid = 0 ∧ v.valid = true ∧ v.body = .pat t := by
        intro v hv
        have h6 := (handed_pid h4 v hv).trans hp
        exact ⟨h6, hl v (handed_mem h4 v hv) h6⟩
      rcases h5 with ⟨_, v, v1, v2⟩ | ⟨h5, _⟩
      · apply v2; unfold validTot; rw [(hpat v v1).2.2]
      · obtain ⟨v, v1, _⟩ := handed_first h4 (by
          rw [hp]; exact .inr (.inl ⟨fun _ h => (by cases h), .inl rfl⟩)) (by rw [hp]; exact hu)
        obtain ⟨v3, v4, v5⟩ := hpat v v1
        refine (h5 v v1).1 ⟨t, ?_, fun q hq => ?_⟩
        · unfold usablePat; rw [v5]; simp [v3, v4, ht]
        · rw [he] at hq
          have := List.mem_singleton.1 hq
          exact hne (by cases this; rfl)
    | cons j pre =>
      cases h1
      obtain ⟨_, u, u1, u2⟩ := other_run hne h2 hp ht he hu hl
      obtain ⟨it, hit, u1⟩ := List.mem_flatMap.1 u1
      obtain ⟨a, b, e⟩ := List.append_of_mem hit
      rw [e] at h2
      exact h3 it hit ((Props.C23_missing_service _ _ s a it b h2).1 ⟨u, u1, u2⟩).1

end Mirakc.OtherService
