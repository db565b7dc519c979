import Verif.Proof.RepeatedProgram2
import Verif.Proof.WaitUntil
import Verif.Spec.Margins
/-
For C142 and C143: the margins of the program filter.
-/
namespace Mirakc.Margins
open Mirakc.ProgramFilter Mirakc.Spec.Margins Mirakc.Spec.ProgramFilter
open Mirakc.Spec.ServiceFilter (validPmt validTot)
open Mirakc.Main (bind_ok_iff)

/-! What a state of the filter is made of. -/

structure Known (o : Opt) (P : Int → Prop) (T : Table → Prop) (s : St) : Prop where
  fresh : s.pcrPidReady = false → s.clockPcrReady = true ∧ s.clockTimeReady = true ∧ s.clockTime = o.clockTime ∧
    s.clockPcr = o.clockPcr ∧ s.clockPid = o.clockPid
  clock : s.pcrPidReady = true →
    (s.clockPcrReady = true ∧ s.clockTimeReady = true ∧ s.clockTime = o.clockTime ∧ s.clockPcr = o.clockPcr ∧
      ∃ t pmt, T t ∧ validPmt o.sid t = some pmt ∧ pmt.pcrPid = o.clockPid) ∨
    ((s.clockTimeReady = true → ∃ t, T t ∧ validTot t = some s.clockTime) ∧ (s.clockPcrReady = true → P s.clockPcr))
  event : s.eventTimeReady = true → ∃ e, Described o T e ∧ s.eventStart = startWith o.startMargin e ∧
    s.eventEnd = endWith o.endMargin e
  range : s.eventTimeReady = true → s.clockPcrReady = true → s.clockTimeReady = true →
    s.startPcr = image s.clockTime s.clockPcr s.eventStart ∧ s.endPcr = image s.clockTime s.clockPcr s.eventEnd

theorem known_init (o : Opt) (P : Int → Prop) (T : Table → Prop) : Known o P T (init o) where
  fresh _ := ⟨rfl, rfl, rfl, rfl, rfl⟩
  clock h := by cases h
  event h := by cases h
  range h := by cases h

section
variable {o : Opt} {P : Int → Prop} {T : Table → Prop}

/-- The range is brought up to date if everything is known. -/
theorem known_range {s s' : St} {c : Bool} (hc : c = (s.eventTimeReady && s.clockPcrReady && s.clockTimeReady))
    (h : (if c then updatePcrRange s else .ok s) = .ok s')
    (h1 : s.pcrPidReady = false → s.clockPcrReady = true ∧ s.clockTimeReady = true ∧ s.clockTime = o.clockTime ∧
      s.clockPcr = o.clockPcr ∧ s.clockPid = o.clockPid)
    (h2 : s.pcrPidReady = true →
      (s.clockPcrReady = true ∧ s.clockTimeReady = true ∧ s.clockTime = o.clockTime ∧ s.clockPcr = o.clockPcr ∧
        ∃ t pmt, T t ∧ validPmt o.sid t = some pmt ∧ pmt.pcrPid = o.clockPid) ∨
      ((s.clockTimeReady = true → ∃ t, T t ∧ validTot t = some s.clockTime) ∧ (s.clockPcrReady = true → P s.clockPcr)))
    (h3 : s.eventTimeReady = true → ∃ e, Described o T e ∧ s.eventStart = startWith o.startMargin e ∧
      s.eventEnd = endWith o.endMargin e) : Known o P T s' := by
  split at h
  · have := range_spec h
    subst this
    exact ⟨h1, h2, h3, fun _ _ _ => ⟨rfl, rfl⟩⟩
  · next hn =>
    cases h
    refine ⟨h1, h2, h3, fun a b d => ?_⟩
    rw [hc, a, b, d] at hn
    exact absurd rfl hn

theorem known_sync {s s' : St} {x : Int} (k : Known o P T s) (hx : P x) (h : syncClock s x = .ok s') : Known o P T s' := by
  unfold syncClock at h
  split at h
  · next hn =>
    unfold updateClockPcr at h
    obtain ⟨_, _, h⟩ := bind_ok_iff.1 h
    refine known_range (o := o) (s := { s with clockPcr := x, clockPcrReady := true })
      (c := s.eventTimeReady && s.clockTimeReady) (by simp) h ?_ ?_ k.event
    · intro hp
      obtain ⟨a, b, _⟩ := k.fresh hp
      rw [needClockSync, a, b] at hn
      cases hn
    · intro hp
      rcases k.clock hp with ⟨a, b, _⟩ | ⟨a, b⟩
      · rw [needClockSync, a, b] at hn
        cases hn
      · exact Or.inr ⟨a, fun _ => hx⟩
  · cases h; exact k

theorem known_pat {s s' : St} {t : Table} {pat : Pat} (k : Known o P T s) (h : handlePat o s t pat = .ok s') :
    Known o P T s' := by
  unfold handlePat at h
  repeat' split at h
  all_goals first | (cases h; exact ⟨k.fresh, k.clock, k.event, k.range⟩) | cases h

theorem known_pmt {s s' : St} {t : Table} {pmt : Pmt} (k : Known o P T s) (ht : T t) (hb : t.body = .pmt pmt)
    (h : handlePmt o s t pmt = .ok s') : Known o P T s' := by
  unfold handlePmt at h
  split at h
  · cases h; exact k
  · next hv =>
    split at h
    · cases h; exact k
    · next hs =>
      have hp : validPmt o.sid t = some pmt := by
        unfold validPmt
        rw [hb]
        dsimp only
        exact if_pos ⟨by simpa using hv, by simpa using hs⟩
      dsimp only at h
      cases h
      by_cases hc : s.clockPid = pmt.pcrPid
      · rw [if_neg (by simpa using hc)]
        refine ⟨fun h => (by cases h), fun _ => ?_, k.event, k.range⟩
        cases hr : s.pcrPidReady with
        | true => exact k.clock hr
        | false =>
          obtain ⟨a, b, c, d, e⟩ := k.fresh hr
          exact Or.inl ⟨a, b, c, d, t, pmt, ht, hp, by rw [← hc, e]⟩
      · rw [if_pos (by simpa using hc)]
        refine ⟨fun h => (by cases h), fun _ => Or.inr ⟨fun h => (by cases h), fun h => (by cases h)⟩, k.event, ?_⟩
        intro _ h
        cases h

theorem known_event {s s' : St} {e : Event} (k : Known o P T s) (he : Described o T e)
    (h : updateEventTime o s e = .ok s') : Known o P T s' := by
  unfold updateEventTime at h
  obtain ⟨ms, h1, h⟩ := bind_ok_iff.1 h
  obtain ⟨d, h2, h⟩ := bind_ok_iff.1 h
  refine known_range (o := o) (s := { s with
      eventStart := e.startTime - o.startMargin
      eventEnd := e.startTime + d
      eventTimeReady := true }) (c := s.clockTimeReady && s.clockPcrReady) (by simp [Bool.and_comm]) h k.fresh k.clock ?_
  intro _
  refine ⟨e, he, rfl, ?_⟩
  show e.startTime + d = e.startTime + e.duration * 1000 + o.endMargin
  rw [(int64_ok h2).1, (int64_ok h1).1]
  omega

theorem known_eit {s s' : St} {t : Table} {eit : Eit} (k : Known o P T s) (ht : T t) (hb : t.body = .eit eit)
    (h : handleEit o s t eit = .ok s') : Known o P T s' := by
  have stopped : Known o P T { s with stop := true } := ⟨k.fresh, k.clock, k.event, k.range⟩
  unfold handleEit at h
  split at h
  · cases h; exact k
  · next hv =>
    split at h
    · cases h; exact k
    · next hs =>
      have hp : serviceEit o.sid t = some eit.events := by
        unfold serviceEit
        rw [hb]
        dsimp only
        exact if_pos ⟨by simpa using hv, by simpa using hs⟩
      split at h
      · cases h; exact stopped
      · next present rest he =>
        rw [he] at hp
        split at h
        · next hc =>
          refine known_event k ⟨t, _, ht, hp, ?_⟩ h
          simp only [beq_iff_eq] at hc
          simp [listedIn, hc]
        · next hc =>
          simp only [beq_iff_eq] at hc
          split at h
          · split at h
            · cases h; exact k
            · cases h; exact stopped
          · split at h
            · next hf =>
              simp only [beq_iff_eq] at hf
              refine known_event k ⟨t, _, ht, hp, ?_⟩ h
              simp [listedIn, hc, hf]
            · repeat' split at h
              all_goals (cases h; first | exact k | exact stopped)

theorem known_tot {s s' : St} {t : Table} {x : Int} (k : Known o P T s) (ht : T t) (hb : t.body = .tot x)
    (h : handleTot o s t x = .ok s') : Known o P T s' := by
  unfold handleTot at h
  split at h
  · cases h; exact k
  · next hv =>
    have hp : validTot t = some x := by
      unfold validTot
      rw [hb]
      dsimp only
      exact if_pos (by simpa using hv)
    dsimp only at h
    have k1 : Known o P T (if (!s.streaming) = true then checkTimeLimit o s x else s) := by
      unfold checkTimeLimit
      repeat' split
      all_goals exact ⟨k.fresh, k.clock, k.event, k.range⟩
    generalize (if (!s.streaming) = true then checkTimeLimit o s x else s) = s2 at h k1
    split at h
    · cases h; exact k1
    · next hn =>
      unfold updateClockTime at h
      obtain ⟨_, _, h⟩ := bind_ok_iff.1 h
      refine known_range (o := o) (s := { s2 with clockTime := x, clockTimeReady := true })
        (c := s2.eventTimeReady && s2.clockPcrReady) (by simp) h ?_ ?_ k1.event
      · intro hr
        obtain ⟨a, b, _⟩ := k1.fresh hr
        exact absurd b hn
      · intro hr
        rcases k1.clock hr with ⟨a, b, _⟩ | ⟨a, b⟩
        · exact absurd b hn
        · exact Or.inr ⟨fun _ => ⟨t, ht, hp⟩, b⟩

theorem known_table {s s' : St} {t : Table} (k : Known o P T s) (ht : T t) (h : handleTable o s t = .ok s') :
    Known o P T s' := by
  unfold handleTable at h
  split at h
  · exact known_pat k h
  · next hb => exact known_pmt k ht hb h
  · next hb => exact known_eit k ht hb h
  · next hb => exact known_tot k ht hb h
  · cases h; exact k

/-! When a point in time is reached. -/

theorem image_plain {t0 p0 t : Int} (h0 : 0 ≤ p0 + (t - t0) * 27000) (h1 : p0 + (t - t0) * 27000 < 2 ^ 33 * 300) :
    image t0 p0 t = p0 + (t - t0) * 27000 := Int.emod_eq_of_lt h0 h1

theorem known_clocks {s : St} (k : Known o P T s) (hp : s.pcrPidReady = true) (h1 : s.clockPcrReady = true)
    (h2 : s.clockTimeReady = true) : Clocks o P T s.clockTime s.clockPcr := by
  rcases k.clock hp with ⟨_, _, a, b, c⟩ | ⟨a, b⟩
  · exact Or.inl ⟨a, b, c⟩
  · exact Or.inr ⟨a h2, b h1⟩

/-- If the later point is reached, so is the earlier. -/
theorem reached_earlier {early late : Event → Int} (hn : NoWrap o P T early late) {t0 p0 q : Int} {e : Event}
    (hl : early e ≤ late e) (hk : Clocks o P T t0 p0) (he : Described o T e) (hq : P q)
    (h : ReachedNoWrap q (image t0 p0 (late e))) : ReachedNoWrap q (image t0 p0 (early e)) := by
  obtain ⟨a, b, c⟩ := hn t0 p0 e q hk he hq
  rw [image_plain (by omega) b] at h
  rw [image_plain a (by omega)]
  obtain ⟨h1, h2⟩ := h
  exact ⟨by omega, c⟩

end

/-! Two filters that differ in the margins only. -/

/-- Options that differ in the margins only. -/
structure Twins (A B : Opt) : Prop where
  sid : B.sid = A.sid
  eid : B.eid = A.eid
  pid : B.clockPid = A.clockPid
  pcr : B.clockPcr = A.clockPcr
  time : B.clockTime = A.clockTime
  audio : B.audioTags = A.audioTags
  video : B.videoTags = A.videoTags
  wait : B.waitUntil = A.waitUntil
  pre : B.preStreaming = A.preStreaming

/-- What the states have in common, whether they are streaming or not. -/
structure Weak (A B : Opt) (a b : St) : Prop where
  demux : b.demux = a.demux
  black : b.black = a.black
  pkPid : b.pk.pid = a.pk.pid
  pkTable : b.pk.table = a.pk.table
  clockPid : b.clockPid = a.clockPid
  clockPcr : b.clockPcr = a.clockPcr
  clockTime : b.clockTime = a.clockTime
  pmtPid : b.pmtPid = a.pmtPid
  pcrPid : b.pcrPid = a.pcrPid
  pcrPidReady : b.pcrPidReady = a.pcrPidReady
  eventTimeReady : b.eventTimeReady = a.eventTimeReady
  clockPcrReady : b.clockPcrReady = a.clockPcrReady
  clockTimeReady : b.clockTimeReady = a.clockTimeReady
  start : a.eventTimeReady = true → b.eventStart + B.startMargin = a.eventStart + A.startMargin
  «end» : a.eventTimeReady = true → b.eventEnd - B.endMargin = a.eventEnd - A.endMargin

/-- What a table does not change. -/
structure Kept (s s' : St) : Prop where
  streaming : s'.streaming = s.streaming
  lastPat : s'.lastPat = s.lastPat
  cur : s'.pk.cur = s.pk.cur
  count : s'.pk.count = s.pk.count
  retry : s'.retry = s.retry
  pcrPidReady : s.pcrPidReady = true → s'.pcrPidReady = true
  eventTimeReady : s.eventTimeReady = true → s'.eventTimeReady = true

theorem Kept.refl (s : St) : Kept s s := ⟨rfl, rfl, rfl, rfl, rfl, id, id⟩

theorem Kept.trans {a b c : St} (h : Kept a b) (k : Kept b c) : Kept a c :=
  ⟨k.1.trans h.1, k.2.trans h.2, k.3.trans h.3, k.4.trans h.4, k.5.trans h.5, fun x => k.6 (h.6 x), fun x => k.7 (h.7 x)⟩

/-- The table makes the filter stop. -/
def stops (o : Opt) (streaming : Bool) (t : Table) : Bool :=
  match t.body with
  | .eit eit =>
    if !t.valid then false
    else if eit.serviceId != o.sid then false
    else
      match eit.events with
      | [] => true
      | present :: rest =>
        if present.eventId == o.eid then false
        else
          match rest with
          | [] => !streaming
          | following :: _ =>
            if following.eventId == o.eid then false else if streaming then false else o.waitUntil.isNone
  | .tot time =>
    if !t.valid then false
    else if streaming then false
    else
      match o.waitUntil with
      | none => false
      | some l => decide (time > l)
  | _ => false

theorem stops_twins {A B : Opt} (h : Twins A B) (x : Bool) (t : Table) : stops B x t = stops A x t := by
  unfold stops
  rw [h.sid, h.eid, h.wait]

theorem stops_mono (o : Opt) (t : Table) (h : stops o true t = true) (x : Bool) : stops o x t = true := by
  cases x with
  | true => exact h
  | false =>
    cases hb : t.body with
    | eit eit =>
      simp only [stops, hb] at h ⊢
      repeat' split
      all_goals simp_all
    | tot x =>
      simp only [stops, hb] at h ⊢
      repeat' split
      all_goals simp_all
    | _ =>
      simp only [stops, hb] at h
      cases h

/-- What becomes of the range. -/
theorem range_form {s s' : St} {c : Bool} (h : (if c then updatePcrRange s else .ok s) = .ok s') :
    ∃ x y, s' = { s with startPcr := x, endPcr := y } := by
  split at h
  · exact ⟨_, _, range_spec h⟩
  · cases h
    exact ⟨s.startPcr, s.endPcr, rfl⟩

theorem sync_form {s s' : St} {x : Int} (h : syncClock s x = .ok s') :
    ∃ y z, s' = { s with clockPcr := if needClockSync s then x else s.clockPcr
                         clockPcrReady := needClockSync s || s.clockPcrReady
                         startPcr := y, endPcr := z } := by
  unfold syncClock at h
  split at h
  · next hn =>
    unfold updateClockPcr at h
    obtain ⟨_, _, h⟩ := bind_ok_iff.1 h
    obtain ⟨y, z, h⟩ := range_form (c := s.eventTimeReady && s.clockTimeReady) h
    rw [if_pos hn, hn]
    exact ⟨y, z, h⟩
  · next hn =>
    cases h
    rw [if_neg hn]
    refine ⟨s.startPcr, s.endPcr, ?_⟩
    simp only [Bool.not_eq_true] at hn
    rw [hn]
    rfl

theorem sync_kept {s s' : St} {x : Int} (h : syncClock s x = .ok s') : Kept s s' ∧ s'.stop = s.stop ∧ s'.pk = s.pk := by
  obtain ⟨y, z, rfl⟩ := sync_form h
  exact ⟨⟨rfl, rfl, rfl, rfl, rfl, id, id⟩, rfl, rfl⟩

theorem event_form {o : Opt} {s s' : St} {e : Event} (h : updateEventTime o s e = .ok s') :
    ∃ y z, s' = { s with eventStart := e.startTime - o.startMargin, eventEnd := e.startTime + (e.duration * 1000 + o.endMargin)
                         eventTimeReady := true, startPcr := y, endPcr := z } := by
  unfold updateEventTime at h
  obtain ⟨ms, h1, h⟩ := bind_ok_iff.1 h
  obtain ⟨d, h2, h⟩ := bind_ok_iff.1 h
  rw [(int64_ok h2).1, (int64_ok h1).1] at h
  exact range_form (c := s.clockTimeReady && s.clockPcrReady) h

theorem time_form {s s' : St} {x : Int} (h : updateClockTime s x = .ok s') :
    ∃ y z, s' = { s with clockTime := x, clockTimeReady := true, startPcr := y, endPcr := z } := by
  unfold updateClockTime at h
  obtain ⟨_, _, h⟩ := bind_ok_iff.1 h
  exact range_form (c := s.eventTimeReady && s.clockPcrReady) h

section
variable {A B : Opt} {a b a' b' : St}

theorem weak_sync (w : Weak A B a b) {x : Int} (ha : syncClock a x = .ok a') (hb : syncClock b x = .ok b') : Weak A B a' b' := by
  obtain ⟨_, _, rfl⟩ := sync_form ha
  obtain ⟨_, _, rfl⟩ := sync_form hb
  have hn : needClockSync b = needClockSync a := by rw [needClockSync, needClockSync, w.clockTimeReady, w.clockPcrReady]
  rw [hn]
  refine ⟨w.demux, w.black, w.pkPid, w.pkTable, w.clockPid, ?_, w.clockTime, w.pmtPid, w.pcrPid, w.pcrPidReady,
    w.eventTimeReady, ?_, w.clockTimeReady, w.start, w.end⟩
  · dsimp only; rw [w.clockPcr]
  · dsimp only; rw [w.clockPcrReady]

theorem weak_event (w : Weak A B a b) {e : Event} (ha : updateEventTime A a e = .ok a') (hb : updateEventTime B b e = .ok b') :
    Weak A B a' b' ∧ Kept a a' ∧ Kept b b' ∧ a'.stop = a.stop ∧ b'.stop = b.stop := by
  obtain ⟨_, _, rfl⟩ := event_form ha
  obtain ⟨_, _, rfl⟩ := event_form hb
  refine ⟨⟨w.demux, w.black, w.pkPid, w.pkTable, w.clockPid, w.clockPcr, w.clockTime, w.pmtPid, w.pcrPid, w.pcrPidReady,
    rfl, w.clockPcrReady, w.clockTimeReady, fun _ => ?_, fun _ => ?_⟩, ⟨rfl, rfl, rfl, rfl, rfl, id, fun _ => rfl⟩,
    ⟨rfl, rfl, rfl, rfl, rfl, id, fun _ => rfl⟩, rfl, rfl⟩
  · dsimp only; omega
  · dsimp only; omega

theorem Weak.stop (w : Weak A B a b) (x y : Bool) : Weak A B { a with stop := x } { b with stop := y } :=
  ⟨w.demux, w.black, w.pkPid, w.pkTable, w.clockPid, w.clockPcr, w.clockTime, w.pmtPid, w.pcrPid, w.pcrPidReady,
    w.eventTimeReady, w.clockPcrReady, w.clockTimeReady, w.start, w.end⟩

/-- One table. -/
structure Both (A B : Opt) (a b a' b' : St) (t : Table) : Prop where
  weak : Weak A B a' b'
  keptA : Kept a a'
  keptB : Kept b b'
  stopA : a'.stop = (a.stop || stops A a.streaming t)
  stopB : b'.stop = (b.stop || stops A b.streaming t)

theorem both_pat (h : Twins A B) (w : Weak A B a b) {t : Table} {pat : Pat} (ht : t.body = .pat pat)
    (ha : handlePat A a t pat = .ok a') (hb : handlePat B b t pat = .ok b') : Both A B a b a' b' t := by
  have hs : ∀ x, stops A x t = false := by intro x; simp only [stops, ht]
  have same : Both A B a b a b t := ⟨w, .refl _, .refl _, by rw [hs]; simp, by rw [hs]; simp⟩
  unfold handlePat at ha hb
  rw [h.sid, w.pmtPid, w.demux] at hb
  split at ha
  · next hc => rw [if_pos hc] at hb; cases ha; cases hb; exact same
  · next hc =>
    rw [if_neg hc] at hb
    split at ha
    · next hc => rw [if_pos hc] at hb; cases ha; cases hb; exact same
    · next hc =>
      rw [if_neg hc] at hb
      split at ha
      · next hc => rw [if_pos hc] at hb; cases ha; cases hb; exact same
      · next hc =>
        rw [if_neg hc] at hb
        split at ha
        · cases ha
        · next q hq =>
          rw [hq] at hb
          dsimp only at ha hb
          cases ha
          cases hb
          exact ⟨⟨rfl, w.black, w.pkPid, w.pkTable, w.clockPid, w.clockPcr, w.clockTime, rfl, w.pcrPid, w.pcrPidReady,
            w.eventTimeReady, w.clockPcrReady, w.clockTimeReady, w.start, w.end⟩, ⟨rfl, rfl, rfl, rfl, rfl, id, id⟩,
            ⟨rfl, rfl, rfl, rfl, rfl, id, id⟩, by rw [hs]; simp, by rw [hs]; simp⟩

theorem excluded_twins (h : Twins A B) (st : Stream) : excluded B st = excluded A st := by
  unfold excluded
  rw [h.video, h.audio]

theorem both_pmt (h : Twins A B) (w : Weak A B a b) {t : Table} {pmt : Pmt} (ht : t.body = .pmt pmt)
    (ha : handlePmt A a t pmt = .ok a') (hb : handlePmt B b t pmt = .ok b') : Both A B a b a' b' t := by
  have hs : ∀ x, stops A x t = false := by intro x; simp only [stops, ht]
  have same : Both A B a b a b t := ⟨w, .refl _, .refl _, by rw [hs]; simp, by rw [hs]; simp⟩
  unfold handlePmt at ha hb
  simp only [excluded_twins h] at hb
  rw [h.sid] at hb
  split at ha
  · next hc => rw [if_pos hc] at hb; cases ha; cases hb; exact same
  · next hc =>
    rw [if_neg hc] at hb
    split at ha
    · next hc => rw [if_pos hc] at hb; cases ha; cases hb; exact same
    · next hc =>
      rw [if_neg hc] at hb
      dsimp only at ha hb
      rw [w.clockPid] at hb
      by_cases hp : (a.clockPid != pmt.pcrPid) = true
      · rw [if_pos hp] at ha hb
        cases ha
        cases hb
        exact ⟨⟨w.demux, rfl, rfl, rfl, rfl, w.clockPcr, w.clockTime, w.pmtPid, rfl, rfl,
          w.eventTimeReady, rfl, rfl, w.start, w.end⟩, ⟨rfl, rfl, rfl, rfl, rfl, fun _ => rfl, id⟩,
          ⟨rfl, rfl, rfl, rfl, rfl, fun _ => rfl, id⟩, by rw [hs]; simp, by rw [hs]; simp⟩
      · rw [if_neg hp] at ha hb
        cases ha
        cases hb
        exact ⟨⟨w.demux, rfl, rfl, rfl, rfl, w.clockPcr, w.clockTime, w.pmtPid, rfl, rfl,
          w.eventTimeReady, w.clockPcrReady, w.clockTimeReady, w.start, w.end⟩, ⟨rfl, rfl, rfl, rfl, rfl, fun _ => rfl, id⟩,
          ⟨rfl, rfl, rfl, rfl, rfl, fun _ => rfl, id⟩, by rw [hs]; simp, by rw [hs]; simp⟩

/-- A state that only may have been told to stop. -/
theorem both_stop (w : Weak A B a b) {t : Table} (x y : Bool)
    (hx : x = (a.stop || stops A a.streaming t)) (hy : y = (b.stop || stops A b.streaming t)) :
    Both A B a b { a with stop := x } { b with stop := y } t :=
  ⟨w.stop x y, ⟨rfl, rfl, rfl, rfl, rfl, id, id⟩, ⟨rfl, rfl, rfl, rfl, rfl, id, id⟩, hx, hy⟩

/-- What an EIT does. -/
theorem eit_form {o : Opt} {s s' : St} {t : Table} {eit : Eit} (ht : t.body = .eit eit) (h : handleEit o s t eit = .ok s') :
    (∃ e, (serviceEit o.sid t).bind (listedIn o.eid) = some e ∧ updateEventTime o s e = .ok s' ∧ stops o s.streaming t = false) ∨
    ((serviceEit o.sid t).bind (listedIn o.eid) = none ∧ s' = { s with stop := s.stop || stops o s.streaming t }) := by
  have keep : stops o s.streaming t = false → s = { s with stop := s.stop || stops o s.streaming t } := by
    intro h; rw [h, Bool.or_false]
  have quit : stops o s.streaming t = true → { s with stop := true } = { s with stop := s.stop || stops o s.streaming t } := by
    intro h; rw [h, Bool.or_true]
  unfold handleEit at h
  split at h
  · next hv =>
    cases h
    refine Or.inr ⟨?_, keep ?_⟩
    · have : t.valid = false := by simpa using hv
      simp [serviceEit, ht, this]
    · simp only [stops, ht, hv, if_true]
  · next hv =>
    split at h
    · next hs =>
      cases h
      refine Or.inr ⟨?_, keep ?_⟩
      · have : ¬ eit.serviceId = o.sid := by simpa using hs
        simp [serviceEit, ht, this]
      · simp only [stops, ht, hs, if_true, ite_self]
    · next hs =>
      have hp : serviceEit o.sid t = some eit.events := by
        unfold serviceEit
        rw [ht]
        dsimp only
        exact if_pos ⟨by simpa using hv, by simpa using hs⟩
      rw [hp, Option.bind_some]
      have hst : ∀ x, stops o x t = match eit.events with
          | [] => true
          | present :: rest =>
            if present.eventId == o.eid then false
            else
              match rest with
              | [] => !x
              | following :: _ =>
                if following.eventId == o.eid then false else if x then false else o.waitUntil.isNone := by
        intro x
        simp only [stops, ht]
        rw [if_neg hv, if_neg hs]
      split at h
      · next he =>
        cases h
        rw [he]
        refine Or.inr ⟨rfl, quit ?_⟩
        rw [hst, he]
      · next present rest he =>
        rw [he] at hst ⊢
        split at h
        · next hc =>
          refine Or.inl ⟨present, ?_, h, ?_⟩
          · simp only [beq_iff_eq] at hc
            simp [listedIn, hc]
          · rw [hst]; exact if_pos hc
        · next hc =>
          have hc' : ¬ present.eventId = o.eid := by simpa using hc
          simp only [if_neg hc] at hst
          split at h
          · split at h
            · next hx =>
              cases h
              refine Or.inr ⟨by simp [listedIn, hc'], keep ?_⟩
              rw [hst, hx]; rfl
            · next hx =>
              cases h
              refine Or.inr ⟨by simp [listedIn, hc'], quit ?_⟩
              rw [hst]; simpa using hx
          · next following rest' =>
            split at h
            · next hf =>
              refine Or.inl ⟨following, ?_, h, ?_⟩
              · simp only [beq_iff_eq] at hf
                simp [listedIn, hc', hf]
              · rw [hst]; exact if_pos hf
            · next hf =>
              have hf' : ¬ following.eventId = o.eid := by simpa using hf
              simp only [if_neg hf] at hst
              split at h
              · next hx =>
                cases h
                refine Or.inr ⟨by simp [listedIn, hc', hf'], keep ?_⟩
                rw [hst, if_pos hx]
              · next hx =>
                rw [hst, if_neg hx] at keep quit ⊢
                split at h
                · next hw =>
                  cases h
                  exact Or.inr ⟨by simp [listedIn, hc', hf'], quit hw⟩
                · next hw =>
                  cases h
                  exact Or.inr ⟨by simp [listedIn, hc', hf'], keep (by cases hq : o.waitUntil.isNone with | false => rfl | true => exact absurd hq hw)⟩

theorem both_eit (h : Twins A B) (w : Weak A B a b) {t : Table} {eit : Eit} (ht : t.body = .eit eit)
    (ha : handleEit A a t eit = .ok a') (hb : handleEit B b t eit = .ok b') : Both A B a b a' b' t := by
  have ea := eit_form ht ha
  have eb := eit_form ht hb
  rw [h.sid, h.eid, stops_twins h] at eb
  rcases ea with ⟨e, e1, e2, e3⟩ | ⟨e1, rfl⟩
  · rcases eb with ⟨e', f1, f2, f3⟩ | ⟨f1, _⟩
    · rw [e1] at f1
      cases f1
      obtain ⟨k1, k2, k3, k4, k5⟩ := weak_event w e2 f2
      exact ⟨k1, k2, k3, by rw [k4, e3, Bool.or_false], by rw [k5, f3, Bool.or_false]⟩
    · rw [e1] at f1; cases f1
  · rcases eb with ⟨e', f1, f2, f3⟩ | ⟨f1, rfl⟩
    · rw [e1] at f1; cases f1
    · exact both_stop w _ _ rfl rfl

/-- What a TOT does. -/
theorem tot_form {o : Opt} {s s' : St} {t : Table} {x : Int} (ht : t.body = .tot x) (h : handleTot o s t x = .ok s') :
    ∃ y z, s' = { s with stop := s.stop || stops o s.streaming t
                         clockTime := if t.valid && !s.clockTimeReady then x else s.clockTime
                         clockTimeReady := t.valid || s.clockTimeReady
                         startPcr := y, endPcr := z } := by
  unfold handleTot at h
  split at h
  · next hv =>
    cases h
    have hv : t.valid = false := by simpa using hv
    refine ⟨s.startPcr, s.endPcr, ?_⟩
    simp [stops, ht, hv]
  · next hv =>
    have hv' : t.valid = true := by simpa using hv
    have hs : (if (!s.streaming) = true then checkTimeLimit o s x else s) = { s with stop := s.stop || stops o s.streaming t } := by
      simp only [stops, ht, hv']
      unfold checkTimeLimit
      cases hx : s.streaming with
      | true => simp; cases s; simp_all
      | false =>
        cases hw : o.waitUntil with
        | none => simp; cases s; simp_all
        | some l =>
          by_cases hl : x > l
          · simp [hl]
          · simp [hl]; cases s; simp_all
    dsimp only at h
    rw [hs] at h
    split at h
    · next hr =>
      cases h
      have hr : s.clockTimeReady = true := hr
      refine ⟨s.startPcr, s.endPcr, ?_⟩
      simp [hr]
    · next hr =>
      have hr : s.clockTimeReady = false := by simpa using hr
      obtain ⟨y, z, rfl⟩ := time_form h
      refine ⟨y, z, ?_⟩
      simp [hr, hv']

theorem both_tot (h : Twins A B) (w : Weak A B a b) {t : Table} {x : Int} (ht : t.body = .tot x)
    (ha : handleTot A a t x = .ok a') (hb : handleTot B b t x = .ok b') : Both A B a b a' b' t := by
  obtain ⟨_, _, rfl⟩ := tot_form ht ha
  obtain ⟨_, _, rfl⟩ := tot_form ht hb
  refine ⟨⟨w.demux, w.black, w.pkPid, w.pkTable, w.clockPid, w.clockPcr, ?_, w.pmtPid, w.pcrPid, w.pcrPidReady,
    w.eventTimeReady, w.clockPcrReady, ?_, w.start, w.end⟩, ⟨rfl, rfl, rfl, rfl, rfl, id, id⟩,
    ⟨rfl, rfl, rfl, rfl, rfl, id, id⟩, rfl, by dsimp only; rw [stops_twins h]⟩
  · dsimp only; rw [w.clockTimeReady, w.clockTime]
  · dsimp only; rw [w.clockTimeReady]

theorem both_table (h : Twins A B) (w : Weak A B a b) {t : Table}
    (ha : handleTable A a t = .ok a') (hb : handleTable B b t = .ok b') : Both A B a b a' b' t := by
  unfold handleTable at ha hb
  cases ht : t.body with
  | pat x => rw [ht] at ha hb; exact both_pat h w ht ha hb
  | pmt x => rw [ht] at ha hb; exact both_pmt h w ht ha hb
  | eit x => rw [ht] at ha hb; exact both_eit h w ht ha hb
  | tot x => rw [ht] at ha hb; exact both_tot h w ht ha hb
  | _ =>
    rw [ht] at ha hb
    cases ha
    cases hb
    exact ⟨w, .refl _, .refl _, by simp [stops, ht], by simp [stops, ht]⟩

/-- The tables of a packet. -/
structure Boths (A B : Opt) (a b a' b' : St) : Prop where
  weak : Weak A B a' b'
  keptA : Kept a a'
  keptB : Kept b b'
  same : a.streaming = b.streaming → a.stop = b.stop → a'.stop = b'.stop
  less : a.streaming = false → (b.stop = true → a.stop = true) → b'.stop = true → a'.stop = true

theorem boths_tables (h : Twins A B) {pid : Nat} : ∀ (ts : List Table) (a b a' b' : St) (la lb : List Table), Weak A B a b →
    feedDemux St.demux (handleTable A) pid ts a = .ok (a', la) →
    feedDemux St.demux (handleTable B) pid ts b = .ok (b', lb) → Boths A B a b a' b'
  | [], a, b, a', b', la, lb, w, ha, hb => by
    cases ha
    cases hb
    exact ⟨w, .refl _, .refl _, fun _ h => h, fun _ h => h⟩
  | t :: ts, a, b, a', b', la, lb, w, ha, hb => by
    unfold feedDemux at ha hb
    rw [w.demux] at hb
    split at ha
    · next hc =>
      rw [if_pos hc] at hb
      obtain ⟨a1, h1, ha⟩ := bind_ok_iff.1 ha
      obtain ⟨⟨a2, l2⟩, h2, ha⟩ := bind_ok_iff.1 ha
      cases ha
      obtain ⟨b1, k1, hb⟩ := bind_ok_iff.1 hb
      obtain ⟨⟨b2, m2⟩, k2, hb⟩ := bind_ok_iff.1 hb
      cases hb
      have x := both_table h w h1 k1
      have y := boths_tables h ts a1 b1 _ _ _ _ x.weak h2 k2
      refine ⟨y.weak, x.keptA.trans y.keptA, x.keptB.trans y.keptB, fun e1 e2 => y.same ?_ ?_, fun e1 e2 => y.less ?_ ?_⟩
      · rw [x.keptA.streaming, x.keptB.streaming, e1]
      · rw [x.stopA, x.stopB, e1, e2]
      · rw [x.keptA.streaming, e1]
      · intro hs
        rw [x.stopB, Bool.or_eq_true] at hs
        rw [x.stopA, Bool.or_eq_true, e1]
        rcases hs with hs | hs
        · exact Or.inl (e2 hs)
        · right
          cases hx : b.streaming with
          | false => rw [hx] at hs; exact hs
          | true => rw [hx] at hs; exact stops_mono A t hs false
    · next hc =>
      rw [if_neg hc] at hb
      exact boths_tables h ts a b a' b' la lb w ha hb

end

/-! What is done with a packet. -/

/-- The packet has a PCR that is looked at. -/
def Measures (s : St) (p : Packet) (q : Int) : Prop :=
  s.pcrPidReady = true ∧ s.eventTimeReady = true ∧ p.pid = s.pcrPid ∧ p.pcr = some q

theorem wait_form {o : Opt} {s s' : St} {p : Packet} {r : Option (List Out × Bool)} (h : waitStart o s p = .ok (s', r)) :
    (s.stop = true ∧ r = some ([], false)) ∨
    (s.stop = false ∧
      ((p.pid = pidPat ∧ o.preStreaming = true ∧ s' = s ∧ r = some ([.orig p], true)) ∨
       (¬ (p.pid = pidPat ∧ o.preStreaming = true) ∧
        (((∀ q, ¬ Measures s p q) ∧ s' = savePat s p ∧ r = some ([], true)) ∨
         ∃ q, Measures s p q ∧ syncClock (savePat s p) q = .ok s' ∧
          ((needClockSync s' = true ∧ r = some ([], true)) ∨
           (needClockSync s' = false ∧ ∃ ce, comparePcr q s'.endPcr = .ok ce ∧
            ((ce ≥ 0 ∧ r = some ([], false)) ∨
             (¬ ce ≥ 0 ∧ ∃ cs, comparePcr q s'.startPcr = .ok cs ∧
              ((¬ cs ≥ 0 ∧ r = some ([], true)) ∨ (cs ≥ 0 ∧ r = none)))))))))) := by
  have e1 : (savePat s p).pcrPidReady = s.pcrPidReady := by unfold savePat; split <;> rfl
  have e2 : (savePat s p).eventTimeReady = s.eventTimeReady := by unfold savePat; split <;> rfl
  have e3 : (savePat s p).pcrPid = s.pcrPid := by unfold savePat; split <;> rfl
  unfold waitStart at h
  split at h
  · next hs =>
    cases h
    exact Or.inl ⟨hs, rfl⟩
  · next hs =>
    refine Or.inr ⟨by simpa using hs, ?_⟩
    split at h
    · next hp =>
      cases h
      simp only [Bool.and_eq_true, beq_iff_eq] at hp
      exact Or.inl ⟨hp.1, hp.2, rfl, rfl⟩
    · next hp =>
      simp only [Bool.and_eq_true, beq_iff_eq] at hp
      refine Or.inr ⟨hp, ?_⟩
      dsimp only at h
      rw [e1, e2, e3] at h
      split at h
      · next hr =>
        cases h
        refine Or.inl ⟨fun q hm => ?_, rfl, rfl⟩
        rw [hm.1, hm.2.1] at hr
        cases hr
      · next hr =>
        split at h
        · next hd =>
          cases h
          refine Or.inl ⟨fun q hm => ?_, rfl, rfl⟩
          rw [hm.2.2.1] at hd
          simp at hd
        · next hd =>
          split at h
          · next hq =>
            cases h
            refine Or.inl ⟨fun q hm => ?_, rfl, rfl⟩
            rw [hm.2.2.2] at hq
            cases hq
          · next q hq =>
            obtain ⟨s1, h1, h⟩ := bind_ok_iff.1 h
            refine Or.inr ⟨q, ⟨?_, ?_, by simpa using hd, hq⟩, ?_⟩
            · cases hx : s.pcrPidReady <;> simp_all
            · cases hx : s.eventTimeReady <;> simp_all
            · split at h
              · next hn =>
                cases h
                exact ⟨h1, Or.inl ⟨hn, rfl⟩⟩
              · next hn =>
                obtain ⟨ce, h2, h⟩ := bind_ok_iff.1 h
                split at h
                · next hc =>
                  cases h
                  exact ⟨h1, Or.inr ⟨by simpa using hn, ce, h2, Or.inl ⟨hc, rfl⟩⟩⟩
                · next hc =>
                  obtain ⟨cs, h3, h⟩ := bind_ok_iff.1 h
                  split at h
                  · next hd =>
                    cases h
                    exact ⟨h1, Or.inr ⟨by simpa using hn, ce, h2, Or.inr ⟨hc, cs, h3, Or.inl ⟨by omega, rfl⟩⟩⟩⟩
                  · next hd =>
                    obtain ⟨_, _, h⟩ := bind_ok_iff.1 h
                    cases h
                    exact ⟨h1, Or.inr ⟨by simpa using hn, ce, h2, Or.inr ⟨hc, cs, h3, Or.inr ⟨by omega, rfl⟩⟩⟩⟩

theorem next_form {extra : Pmt → Nat} {k k' : Packetizer} {x : Out} (h : k.next extra = .ok (x, k')) :
    ∃ t i, x = .pmt k.pid t i k.count ∧ k'.pid = k.pid ∧ k'.table = k.table := by
  unfold Packetizer.next at h
  split at h
  · cases h
  · next t i _ =>
    cases h
    exact ⟨t, i, rfl, rfl, rfl⟩

theorem nextPmt_form {extra : Pmt → Nat} {s s' : St} {x : Out} (h : nextPmt extra s = .ok (x, s')) :
    ∃ k, s' = { s with pk := k } ∧ s.pk.next extra = .ok (x, k) := by
  unfold nextPmt at h
  obtain ⟨⟨y, k⟩, h1, h⟩ := bind_ok_iff.1 h
  obtain ⟨_, _, h⟩ := bind_ok_iff.1 h
  cases h
  exact ⟨k, rfl, h1⟩

/-- A complete cycle. -/
theorem cycle_form {extra : Pmt → Nat} : ∀ (n : Nat) (s s' : St) (xs : List Out), sendCycle extra n s = .ok (xs, s') →
    (∃ k, s' = { s with pk := k } ∧ k.pid = s.pk.pid ∧ k.table = s.pk.table) ∧ ∀ x ∈ xs, Header x
  | 0, _, _, _, h => by cases h
  | n + 1, s, s', xs, h => by
    unfold sendCycle at h
    obtain ⟨⟨x, s1⟩, h1, h⟩ := bind_ok_iff.1 h
    obtain ⟨k, rfl, h2⟩ := nextPmt_form h1
    obtain ⟨t, i, rfl, h3, h4⟩ := next_form h2
    dsimp only at h
    split at h
    · cases h
      refine ⟨⟨k, rfl, h3, h4⟩, fun y hy => ?_⟩
      rw [List.mem_singleton] at hy
      subst hy
      trivial
    · obtain ⟨⟨ys, s2⟩, h5, h⟩ := bind_ok_iff.1 h
      cases h
      obtain ⟨⟨k', rfl, h6, h7⟩, h8⟩ := cycle_form n _ _ _ h5
      refine ⟨⟨k', rfl, h6.trans h3, h7.trans h4⟩, fun y hy => ?_⟩
      rcases List.mem_cons.1 hy with rfl | hy
      · trivial
      · exact h8 y hy

theorem forward_form {extra : Pmt → Nat} {s s' : St} {p : Packet} {outs : List Out} {more : Bool}
    (h : forward extra s p = .ok (s', outs, more)) :
    more = true ∧ ((p.pid = s.pmtPid ∧ ∃ x k, s.pk.next extra = .ok (x, k) ∧ outs = [x] ∧ s' = { s with pk := k }) ∨
      (p.pid ≠ s.pmtPid ∧ s' = s ∧ outs = if s.black.contains p.pid then [] else [.orig p])) := by
  unfold forward at h
  split at h
  · next hp =>
    obtain ⟨⟨x, s1⟩, h1, h⟩ := bind_ok_iff.1 h
    cases h
    obtain ⟨k, rfl, h2⟩ := nextPmt_form h1
    exact ⟨rfl, Or.inl ⟨by simpa using hp, x, k, h2, rfl, rfl⟩⟩
  · next hp =>
    split at h
    · next hb =>
      cases h
      exact ⟨rfl, Or.inr ⟨by simpa using hp, rfl, by rw [if_pos hb]⟩⟩
    · next hb =>
      cases h
      exact ⟨rfl, Or.inr ⟨by simpa using hp, rfl, by rw [if_neg hb]⟩⟩

theorem stream_form {extra : Pmt → Nat} {s s' : St} {p : Packet} {outs : List Out} {more : Bool}
    (h : doStreaming extra s p = .ok (s', outs, more)) :
    (s.stop = true ∧ outs = [] ∧ more = false) ∨
    (s.stop = false ∧
      ((p.pid = s.pcrPid ∧ p.pcr = none ∧ s' = s ∧ outs = [.orig p] ∧ more = true) ∨
       (p.pid ≠ s.pcrPid ∧ forward extra s p = .ok (s', outs, more)) ∨
       ∃ q s1, p.pid = s.pcrPid ∧ p.pcr = some q ∧ syncClock s q = .ok s1 ∧
        ((needClockSync s1 = true ∧ s' = s1 ∧ outs = [.orig p] ∧ more = true) ∨
         (needClockSync s1 = false ∧ ∃ ce, comparePcr q s1.endPcr = .ok ce ∧
          ((ce ≥ 0 ∧ outs = [] ∧ more = false) ∨ (¬ ce ≥ 0 ∧ forward extra s1 p = .ok (s', outs, more))))))) := by
  unfold doStreaming at h
  split at h
  · next hs =>
    cases h
    exact Or.inl ⟨hs, rfl, rfl⟩
  · next hs =>
    refine Or.inr ⟨by simpa using hs, ?_⟩
    split at h
    · next hp =>
      have hp : p.pid = s.pcrPid := by simpa using hp
      split at h
      · next hq =>
        cases h
        exact Or.inl ⟨hp, hq, rfl, rfl, rfl⟩
      · next q hq =>
        obtain ⟨s1, h1, h⟩ := bind_ok_iff.1 h
        refine Or.inr (Or.inr ⟨q, s1, hp, hq, h1, ?_⟩)
        split at h
        · next hn =>
          cases h
          exact Or.inl ⟨hn, rfl, rfl, rfl⟩
        · next hn =>
          obtain ⟨ce, h2, h⟩ := bind_ok_iff.1 h
          refine Or.inr ⟨by simpa using hn, ce, h2, ?_⟩
          split at h
          · next hc =>
            cases h
            exact Or.inl ⟨hc, rfl, rfl⟩
          · next hc => exact Or.inr ⟨hc, h⟩
    · next hp => exact Or.inr (Or.inl ⟨by simpa using hp, h⟩)

end Mirakc.Margins
