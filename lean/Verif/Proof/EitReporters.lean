import Verif.Spec.EitReporters
import Verif.Proof.History
import Verif.Proof.Received
/-
What track-airtime and filter-program-metadata print.
-/
set_option linter.unusedSimpArgs false
namespace Mirakc
open Mirakc.Spec Mirakc.Spec.EitReporters

theorem eitOf_some {t : Table} {x : Eit} : eitOf t = some x ↔
    t.sourcePid = 0x12 ∧ t.valid = true ∧ t.body = .eit x := by
  obtain ⟨a, b, c, d⟩ := t
  constructor
  · intro h
    unfold eitOf at h
    split at h
    · next e => cases e; cases h; exact ⟨rfl, rfl, rfl⟩
    · cases h
  · rintro ⟨h1, h2, h3⟩
    simp only at h1 h2 h3
    subst h1 h2 h3
    rfl

theorem eitOf_none {t : Table} (h : ∀ x, t.sourcePid = 0x12 → t.valid = true → t.body ≠ .eit x) :
    eitOf t = none := by
  cases he : eitOf t with
  | none => rfl
  | some x =>
    obtain ⟨h1, h2, h3⟩ := eitOf_some.1 he
    exact absurd h3 (h x h1 h2)

theorem jstToUnix_eq (t : Int) : jstToUnix t = t - jst := rfl

theorem eits_append (a b : List Input) : eits (a ++ b) = eits a ++ eits b := by
  simp [eits, received_append]

theorem eits_single (i : Input) :
    eits [i] = (i.tables.filter (·.sourcePid == i.packet.pid)).filterMap eitOf := by
  simp [eits, received]

namespace AirtimeTracker

/-- What the state means, from a state `s0` on, after the tables. -/
structure Inv (o : Opt) (s0 s : St) (ts : List Table) : Prop where
  demux : s.demux = [pidEit]
  done : s.done = true ↔ s0.done = true ∨ ∃ x ∈ ts.filterMap eitOf, Gone o x
  out : s.out = s0.out ++ (ts.filterMap eitOf).filterMap (info o)

theorem inv_same {o : Opt} {s0 s : St} {ts : List Table} {t : Table} (hi : Inv o s0 s ts)
    (h : eitOf t = none) : Inv o s0 s (ts ++ [t]) := by
  refine ⟨hi.demux, ?_, ?_⟩
  · rw [hi.done, List.filterMap_append]; simp [h]
  · rw [hi.out, List.filterMap_append]; simp [h]

/-- The EIT does not concern the service. -/
theorem inv_other {o : Opt} {s0 s : St} {ts : List Table} {t : Table} {x : Eit} (hi : Inv o s0 s ts)
    (h : eitOf t = some x) (hs : x.serviceId ≠ o.sid) : Inv o s0 s (ts ++ [t]) := by
  refine ⟨hi.demux, ?_, ?_⟩
  · rw [hi.done, List.filterMap_append]
    simp only [List.mem_append, List.filterMap_cons, List.filterMap_nil, h, List.mem_singleton]
    constructor
    · rintro (k | ⟨y, k1, k2⟩)
      · exact .inl k
      · exact .inr ⟨y, .inl k1, k2⟩
    · rintro (k | ⟨y, k1 | rfl, k2⟩)
      · exact .inl k
      · exact .inr ⟨y, k1, k2⟩
      · exact absurd k2.1 hs
  · rw [hi.out, List.filterMap_append]
    simp [h, info, hs]

theorem inv_gone {o : Opt} {s0 s : St} {ts : List Table} {t : Table} {x : Eit} (hi : Inv o s0 s ts)
    (h : eitOf t = some x) (hs : Gone o x) : Inv o s0 { s with done := true } (ts ++ [t]) := by
  refine ⟨hi.demux, ?_, ?_⟩
  · simp only [true_iff]
    exact .inr ⟨x, by simp [List.filterMap_append, h], hs⟩
  · show s.out = _
    rw [hi.out, List.filterMap_append]
    have : info o x = none := by
      unfold info
      rw [if_pos hs.1, Option.map_eq_none_iff, List.find?_eq_none]
      intro e he
      simpa using hs.2 e he
    simp [h, this]

theorem inv_info {o : Opt} {s0 s : St} {ts : List Table} {t : Table} {x : Eit} {e : Event}
    (hi : Inv o s0 s ts) (h : eitOf t = some x) (hs : x.serviceId = o.sid)
    (hf : (x.events.take 2).find? (fun e => decide (e.eventId = o.eid)) = some e) :
    Inv o s0 (writeEventInfo s x e) (ts ++ [t]) := by
  have hm := List.mem_of_find?_eq_some hf
  have hp := List.find?_some hf
  simp only [decide_eq_true_eq] at hp
  refine ⟨hi.demux, ?_, ?_⟩
  · show s.done = true ↔ _
    rw [hi.done, List.filterMap_append]
    simp only [List.mem_append, List.filterMap_cons, List.filterMap_nil, h, List.mem_singleton]
    constructor
    · rintro (k | ⟨y, k1, k2⟩)
      · exact .inl k
      · exact .inr ⟨y, .inl k1, k2⟩
    · rintro (k | ⟨y, k1 | rfl, k2⟩)
      · exact .inl k
      · exact .inr ⟨y, k1, k2⟩
      · exact absurd hp (k2.2 e hm)
  · unfold writeEventInfo
    simp only
    rw [hi.out, List.filterMap_append]
    have : info o x = some ⟨x.onetwId, x.tsId, x.serviceId, e.eventId, jstToUnix e.startTime, e.duration * 1000⟩ := by
      unfold info
      rw [if_pos hs, hf, Option.map_some, jstToUnix_eq, hs, hp, Int.mul_comm]
    simp [h, this]

theorem handleTable_inv {o : Opt} {s0 s s' : St} {ts : List Table} {t : Table} (hi : Inv o s0 s ts)
    (hw : t.sourcePid ∈ s.demux) (h : handleTable o s t = .ok s') : Inv o s0 s' (ts ++ [t]) := by
  rw [hi.demux, List.mem_singleton] at hw
  unfold handleTable at h
  split at h
  · next x hb =>
    cases h
    unfold handleEit
    split
    · next hv => exact inv_same hi (eitOf_none fun y _ h2 _ => by simp [h2] at hv)
    · next hv =>
      have he : eitOf t = some x := eitOf_some.2 ⟨hw, by simpa using hv, hb⟩
      split
      · next hs => exact inv_other hi he (by simpa using hs)
      · next hs =>
        have hs : x.serviceId = o.sid := by simpa using hs
        split
        · next hn => exact inv_gone hi he ⟨hs, by simp [hn]⟩
        · next p rest hn =>
          split
          · next hp =>
            refine inv_info hi he hs ?_
            simp only [beq_iff_eq] at hp
            simp [hn, hp]
          · next hp =>
            simp only [beq_iff_eq] at hp
            split
            · next => exact inv_gone hi he ⟨hs, by simp [hn, hp]⟩
            · next f rest' =>
              split
              · next hf =>
                refine inv_info hi he hs ?_
                simp only [beq_iff_eq] at hf
                simp [hn, hp, hf]
              · next hf =>
                simp only [beq_iff_eq] at hf
                exact inv_gone hi he ⟨hs, by simp [hn, hp, hf]⟩
  · next hb =>
    cases h
    exact inv_same hi (eitOf_none fun x _ _ h3 => hb x h3)

theorem step_spec {o : Opt} {s s' : St} {i : Input} {did : List EventInfo} {more : Bool}
    (hd : s.demux = [pidEit]) (hn : s.done = false) (h : step o s i = .ok (s', did, more)) :
    s'.demux = [pidEit] ∧ did = (eits [i]).filterMap (info o) ∧ s'.done = !more ∧
      (more = false ↔ ∃ x ∈ eits [i], Gone o x) := by
  unfold step at h
  obtain ⟨⟨s1, log⟩, h1, h2⟩ := bind_eq_ok h
  clear h
  have hi : Inv o s s1 (i.tables.filter (·.sourcePid == i.packet.pid)) := by
    have h0 : Inv o s s [] := ⟨hd, by simp, by simp⟩
    have := feedDemux_all (Inv o s) (pid := i.packet.pid) (watched := St.demux) (handle := handleTable o) ?_ ?_
      _ _ _ _ _ h0 h1
    · simpa using this
    · intro s t s' rs hi ht hw he
      exact handleTable_inv hi (ht ▸ hw) he
    · intro s t rs hi ht hw
      refine inv_same hi (eitOf_none fun x h1 _ _ => hw ?_)
      rw [hi.demux, ← ht, h1]; simp [pidEit]
  simp only [Except.ok.injEq, Prod.mk.injEq] at h2
  obtain ⟨rfl, rfl, rfl⟩ := h2
  have hdone := hi.done
  rw [hn] at hdone
  simp only [Bool.false_eq_true, false_or] at hdone
  rw [← eits_single] at hdone
  refine ⟨hi.demux, ?_, ?_, ?_⟩
  · rw [hi.out, List.drop_left, eits_single]
  · cases s1.done <;> rfl
  · rw [← hdone]
    cases s1.done <;> simp

theorem reach_spec {o : Opt} {items : List (Line Input (List EventInfo))} {s : St}
    (h : Reach (step o) {} items s) :
    s.demux = [pidEit] ∧ ((∀ x ∈ items, x.more = true) → s.done = false) ∧
    ∀ x ∈ items, x.did = (eits [x.input]).filterMap (info o) ∧ (x.more = false ↔ ∃ y ∈ eits [x.input], Gone o y) := by
  induction h with
  | nil => exact ⟨rfl, fun _ => rfl, by simp⟩
  | @snoc items s i s' a more h1 h2 h3 ih =>
    obtain ⟨k1, k2, k3⟩ := ih
    obtain ⟨j1, j2, j3, j4⟩ := step_spec k1 (k2 h2) h3
    refine ⟨j1, fun hm => ?_, fun x hx => ?_⟩
    · have := hm ⟨i, a, more⟩ (by simp)
      simp only at this
      rw [j3, this]; rfl
    · rcases List.mem_append.1 hx with hx | hx
      · exact k3 x hx
      · rw [List.mem_singleton] at hx
        subst hx
        exact ⟨j2, j4⟩

theorem step_total (o : Opt) (s : St) (i : Input) : ∃ s' did more, step o s i = .ok (s', did, more) := by
  obtain ⟨r, h, _⟩ := feedDemux_total (watched := St.demux) (handle := handleTable o) (pid := i.packet.pid)
    (fun _ => True) (fun _ => True) (by
      intro s t _ _ _ _
      unfold handleTable
      split <;> exact ⟨_, rfl, trivial⟩) i.tables s (fun _ _ => trivial) trivial
  unfold step
  rw [h]
  exact ⟨_, _, _, rfl⟩

end AirtimeTracker

namespace ProgramMetadataFilter

theorem makeEvent_eq (e : Event) : makeEvent e = ⟨e.eventId, e.startTime - jst, 1000 * e.duration, e.rest⟩ := by
  unfold makeEvent
  rw [jstToUnix_eq, Int.mul_comm]

/-- What the state means, from a state `s0` on, after the tables. -/
structure Inv (o : Opt) (s0 s : St) (ts : List Table) : Prop where
  demux : s.demux = [pidEit]
  out : s.out = s0.out ++ (ts.filterMap eitOf).filterMap (metadata o)

theorem inv_same {o : Opt} {s0 s : St} {ts : List Table} {t : Table} (hi : Inv o s0 s ts)
    (h : eitOf t = none) : Inv o s0 s (ts ++ [t]) := by
  refine ⟨hi.demux, ?_⟩
  rw [hi.out, List.filterMap_append]; simp [h]

theorem inv_none {o : Opt} {s0 s : St} {ts : List Table} {t : Table} {x : Eit} (hi : Inv o s0 s ts)
    (h : eitOf t = some x) (hm : metadata o x = none) : Inv o s0 s (ts ++ [t]) := by
  refine ⟨hi.demux, ?_⟩
  rw [hi.out, List.filterMap_append]; simp [h, hm]

theorem handleTable_inv {o : Opt} {s0 s s' : St} {ts : List Table} {t : Table} (hi : Inv o s0 s ts)
    (hw : t.sourcePid ∈ s.demux) (h : handleTable o s t = .ok s') : Inv o s0 s' (ts ++ [t]) := by
  rw [hi.demux, List.mem_singleton] at hw
  unfold handleTable at h
  split at h
  · next x hb =>
    cases h
    unfold handleEit
    split
    · next hv => exact inv_same hi (eitOf_none fun y _ h2 _ => by simp [h2] at hv)
    · next hv =>
      have he : eitOf t = some x := eitOf_some.2 ⟨hw, by simpa using hv, hb⟩
      split
      · next hs =>
        simp only [Bool.and_eq_true, bne_iff_ne] at hs
        refine inv_none hi he (if_neg ?_)
        rintro ⟨k | k, _⟩
        · exact hs.1 k
        · exact hs.2 k
      · next hs =>
        have hsel : o.sid = 0 ∨ x.serviceId = o.sid := by
          simp only [Bool.and_eq_true, bne_iff_ne] at hs
          omega
        split
        · next hn =>
          refine inv_none hi he (if_neg ?_)
          rintro ⟨_, k⟩
          exact k (List.eq_nil_of_length_eq_zero (by simpa using hn))
        · next hn =>
          refine ⟨hi.demux, ?_⟩
          unfold writeEvents
          simp only
          rw [hi.out, List.filterMap_append]
          have : metadata o x = some ⟨x.onetwId, x.tsId, x.serviceId, x.events.map makeEvent⟩ := by
            unfold metadata
            rw [if_pos ⟨hsel, fun k => hn (by simp [k])⟩, show makeEvent = _ from funext makeEvent_eq]
          simp [he, this]
  · next hb =>
    cases h
    exact inv_same hi (eitOf_none fun x _ _ h3 => hb x h3)

theorem step_spec {o : Opt} {s s' : St} {i : Input} {did : List Metadata} {more : Bool}
    (hd : s.demux = [pidEit]) (h : step o s i = .ok (s', did, more)) :
    s'.demux = [pidEit] ∧ did = (eits [i]).filterMap (metadata o) ∧ more = true := by
  unfold step at h
  obtain ⟨⟨s1, log⟩, h1, h2⟩ := bind_eq_ok h
  clear h
  have hi : Inv o s s1 (i.tables.filter (·.sourcePid == i.packet.pid)) := by
    have h0 : Inv o s s [] := ⟨hd, by simp⟩
    have := feedDemux_all (Inv o s) (pid := i.packet.pid) (watched := St.demux) (handle := handleTable o) ?_ ?_
      _ _ _ _ _ h0 h1
    · simpa using this
    · intro s t s' rs hi ht hw he
      exact handleTable_inv hi (ht ▸ hw) he
    · intro s t rs hi ht hw
      refine inv_same hi (eitOf_none fun x h1 _ _ => hw ?_)
      rw [hi.demux, ← ht, h1]; simp [pidEit]
  simp only [Except.ok.injEq, Prod.mk.injEq] at h2
  obtain ⟨rfl, rfl, rfl⟩ := h2
  refine ⟨hi.demux, ?_, rfl⟩
  rw [hi.out, List.drop_left, eits_single]

theorem reach_spec {o : Opt} {items : List (Line Input (List Metadata))} {s : St}
    (h : Reach (step o) {} items s) :
    s.demux = [pidEit] ∧ ∀ x ∈ items, x.did = (eits [x.input]).filterMap (metadata o) ∧ x.more = true := by
  induction h with
  | nil => exact ⟨rfl, by simp⟩
  | @snoc items s i s' a more h1 h2 h3 ih =>
    obtain ⟨k1, k2⟩ := ih
    obtain ⟨j1, j2, j3⟩ := step_spec k1 h3
    refine ⟨j1, fun x hx => ?_⟩
    rcases List.mem_append.1 hx with hx | hx
    · exact k2 x hx
    · rw [List.mem_singleton] at hx
      subst hx
      exact ⟨j2, j3⟩

theorem step_total (o : Opt) (s : St) (i : Input) : ∃ s' did more, step o s i = .ok (s', did, more) := by
  obtain ⟨r, h, _⟩ := feedDemux_total (watched := St.demux) (handle := handleTable o) (pid := i.packet.pid)
    (fun _ => True) (fun _ => True) (by
      intro s t _ _ _ _
      unfold handleTable
      split <;> exact ⟨_, rfl, trivial⟩) i.tables s (fun _ _ => trivial) trivial
  unfold step
  rw [h]
  exact ⟨_, _, _, rfl⟩

end ProgramMetadataFilter
end Mirakc
