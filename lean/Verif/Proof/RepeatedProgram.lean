import Verif.Proof.RepeatedService
/-
Lemmas: repeated tables at the program filter.
-/
namespace Mirakc.ProgramFilter.Rep
open Mirakc.Spec.Repeated Mirakc.Main Mirakc.Spec.Pipeline Mirakc.Pipeline
open Mirakc.ServiceFilter.Rep (assert_of)

/-- Same state, except for the order in which the PIDs were added. -/
def Same (s s' : St) : Prop :=
  s' = { s with demux := s'.demux } ∧ ∀ p, s'.demux.contains p = s.demux.contains p

/-- The PCR range is the one of the event, as the clock is. -/
def Ranged (s : St) : Prop :=
  s.clockPcrReady = true → s.clockTimeReady = true →
    convertTimeToPcr s s.eventStart = .ok s.startPcr ∧ convertTimeToPcr s s.eventEnd = .ok s.endPcr

/-- The event times in force are the ones of the event. -/
def Timed (o : Opt) (s : St) (e : Event) : Prop :=
  ∃ ms duration, int64 (e.duration * 1000) = .ok ms ∧ int64 (ms + o.endMargin) = .ok duration ∧
    s.eventStart = e.startTime - o.startMargin ∧ s.eventEnd = e.startTime + duration ∧ s.eventTimeReady = true ∧ Ranged s

/-- The streams that are left out. -/
def blackOf (o : Opt) (m : Pmt) : PidSet := (m.streams.entries.filter (fun e => excluded o e.2)).map (·.1)

/-- The table that is sent. -/
def pmtOf (o : Opt) (m : Pmt) : Pmt :=
  if (blackOf o m).isEmpty then m else { m with streams := m.streams.filter (fun e => !(blackOf o m).contains e.1) }

/-- The state reflects the table. -/
def Shows (o : Opt) (s : St) (t : Table) : Prop :=
  match t.body with
  | .pat p => ∃ q, p.pmts.find? o.sid = some q ∧ s.pmtPid = q ∧ s.demux.contains q = true
  | .pmt m => m.serviceId = o.sid → s.pcrPid = m.pcrPid ∧ s.pcrPidReady = true ∧ s.clockPid = m.pcrPid ∧
      s.black = blackOf o m ∧ s.pk.pid = t.sourcePid ∧ s.pk.table = some (pmtOf o m)
  | .eit e => e.serviceId = o.sid →
    match e.events with
    | [] => s.stop = true
    | present :: rest =>
      if present.eventId == o.eid then Timed o s present
      else
        match rest with
        | [] => s.streaming = true ∨ s.stop = true
        | following :: _ =>
          if following.eventId == o.eid then Timed o s following
          else s.streaming = true ∨ o.waitUntil.isNone = false ∨ s.stop = true
  | _ => True

/-- What is reflected is not lost. -/
structure Keeps (s s1 : St) : Prop where
  pmtPid : s1.pmtPid = s.pmtPid
  demux : s1.demux = s.demux
  pcrPid : s1.pcrPid = s.pcrPid
  pcrPidReady : s1.pcrPidReady = s.pcrPidReady
  clockPid : s1.clockPid = s.clockPid
  black : s1.black = s.black
  pid : s1.pk.pid = s.pk.pid
  table : s1.pk.table = s.pk.table
  eventStart : s1.eventStart = s.eventStart
  eventEnd : s1.eventEnd = s.eventEnd
  eventTimeReady : s1.eventTimeReady = s.eventTimeReady
  ranged : s.eventTimeReady = true → Ranged s → Ranged s1
  stop : s.stop = true → s1.stop = true
  streaming : s.streaming = true → s1.streaming = true

theorem Keeps.refl (s : St) : Keeps s s := ⟨rfl, rfl, rfl, rfl, rfl, rfl, rfl, rfl, rfl, rfl, rfl, fun _ h => h, id, id⟩

theorem Keeps.trans {a b c : St} (h1 : Keeps a b) (h2 : Keeps b c) : Keeps a c :=
  ⟨h2.1.trans h1.1, h2.2.trans h1.2, h2.3.trans h1.3, h2.4.trans h1.4, h2.5.trans h1.5, h2.6.trans h1.6,
    h2.7.trans h1.7, h2.8.trans h1.8, h2.9.trans h1.9, h2.10.trans h1.10, h2.11.trans h1.11,
    fun e h => h2.12 (h1.11 ▸ e) (h1.12 e h), fun h => h2.13 (h1.13 h), fun h => h2.14 (h1.14 h)⟩

theorem Timed.keeps {o : Opt} {s s1 : St} {e : Event} (h : Timed o s e) (e1 : s1.eventStart = s.eventStart)
    (e2 : s1.eventEnd = s.eventEnd) (e3 : s1.eventTimeReady = s.eventTimeReady)
    (e4 : s.eventTimeReady = true → Ranged s → Ranged s1) : Timed o s1 e := by
  obtain ⟨ms, d, h1, h2, h3, h4, h5, h6⟩ := h
  exact ⟨ms, d, h1, h2, e1.trans h3, e2.trans h4, e3.trans h5, e4 h5 h6⟩

/-- What remains of the EIT. -/
theorem shows_eit {o : Opt} {s s1 : St} {t : Table} {e : Eit} (hb : t.body = .eit e) (h : Shows o s t)
    (e1 : s1.eventStart = s.eventStart) (e2 : s1.eventEnd = s.eventEnd) (e3 : s1.eventTimeReady = s.eventTimeReady)
    (e4 : s.eventTimeReady = true → Ranged s → Ranged s1) (e5 : s.stop = true → s1.stop = true)
    (e6 : s.streaming = true → s1.streaming = true) : Shows o s1 t := by
  unfold Shows at h ⊢
  rw [hb] at h ⊢
  dsimp only at h ⊢
  intro hs
  have h := h hs
  split
  · next he => rw [he] at h; exact e5 h
  · next present rest he =>
    rw [he] at h
    dsimp only at h
    split
    · next hc => rw [if_pos hc] at h; exact h.keeps e1 e2 e3 e4
    · next hc =>
      rw [if_neg hc] at h
      split
      · exact h.imp e6 e5
      · dsimp only at h
        split
        · next hc => rw [if_pos hc] at h; exact h.keeps e1 e2 e3 e4
        · next hc => rw [if_neg hc] at h; exact h.imp e6 (Or.imp id e5)

theorem shows_keeps {o : Opt} {s s1 : St} {t : Table} (h : Shows o s t) (k : Keeps s s1) : Shows o s1 t := by
  cases hb : t.body with
  | eit e => exact shows_eit hb h k.9 k.10 k.11 k.12 k.13 k.14
  | pat p =>
    unfold Shows at h ⊢
    rw [hb] at h ⊢
    dsimp only at h ⊢
    rw [k.1, k.2]
    exact h
  | pmt m =>
    unfold Shows at h ⊢
    rw [hb] at h ⊢
    dsimp only at h ⊢
    rw [k.3, k.4, k.5, k.6, k.7, k.8]
    exact h
  | _ => unfold Shows; rw [hb]; trivial

theorem range_ok {s s1 : St} (h : updatePcrRange s = .ok s1) :
    s1 = { s with startPcr := s1.startPcr, endPcr := s1.endPcr } ∧ s.eventTimeReady = true ∧
    convertTimeToPcr s s.eventStart = .ok s1.startPcr ∧ convertTimeToPcr s s.eventEnd = .ok s1.endPcr := by
  unfold updatePcrRange at h
  obtain ⟨_, h1, h⟩ := bind_ok_iff.1 h
  obtain ⟨_, h2, h⟩ := bind_ok_iff.1 h
  obtain ⟨_, h3, h⟩ := bind_ok_iff.1 h
  obtain ⟨a, h4, h⟩ := bind_ok_iff.1 h
  obtain ⟨b, h5, h⟩ := bind_ok_iff.1 h
  cases h
  exact ⟨rfl, assert_ok h1, h4, h5⟩

theorem convert_congr {s s1 : St} (e1 : s1.clockPcrReady = s.clockPcrReady) (e2 : s1.clockTimeReady = s.clockTimeReady)
    (e3 : s1.clockPcr = s.clockPcr) (e4 : s1.clockTime = s.clockTime) (x : Int) :
    convertTimeToPcr s1 x = convertTimeToPcr s x := by
  unfold convertTimeToPcr
  rw [e1, e2, e3, e4]

theorem ranged_range {s s1 : St} (h : updatePcrRange s = .ok s1) : Ranged s1 := by
  obtain ⟨e, _, h1, h2⟩ := range_ok h
  intro _ _
  have hc := convert_congr (s := s) (s1 := s1) (by rw [e]) (by rw [e]) (by rw [e]) (by rw [e])
  rw [hc, hc]
  rw [show s1.eventStart = s.eventStart by rw [e], show s1.eventEnd = s.eventEnd by rw [e]]
  exact ⟨h1, h2⟩

/-- The clock gets a PCR. -/
theorem keeps_syncClock {s s1 : St} {pcr : Int} (h : syncClock s pcr = .ok s1) : Keeps s s1 := by
  unfold syncClock at h
  split at h
  · unfold updateClockPcr at h
    obtain ⟨_, _, h⟩ := bind_ok_iff.1 h
    dsimp only at h
    split at h
    · obtain ⟨e, _⟩ := range_ok h
      have hr := ranged_range h
      exact ⟨by rw [e], by rw [e], by rw [e], by rw [e], by rw [e], by rw [e], by rw [e], by rw [e], by rw [e], by rw [e],
        by rw [e], fun _ _ => hr, fun h => by rw [e]; exact h, fun h => by rw [e]; exact h⟩
    · next hc =>
      cases h
      refine ⟨rfl, rfl, rfl, rfl, rfl, rfl, rfl, rfl, rfl, rfl, rfl, fun he _ => ?_, id, id⟩
      intro _ ht
      exact absurd (by simpa using And.intro he ht) hc
  · cases h
    exact Keeps.refl s

theorem keeps_clockTime {s s1 : St} {x : Int} (h : updateClockTime s x = .ok s1) : Keeps s s1 := by
  unfold updateClockTime at h
  obtain ⟨_, _, h⟩ := bind_ok_iff.1 h
  dsimp only at h
  split at h
  · obtain ⟨e, _⟩ := range_ok h
    have hr := ranged_range h
    exact ⟨by rw [e], by rw [e], by rw [e], by rw [e], by rw [e], by rw [e], by rw [e], by rw [e], by rw [e], by rw [e],
      by rw [e], fun _ _ => hr, fun h => by rw [e]; exact h, fun h => by rw [e]; exact h⟩
  · next hc =>
    cases h
    refine ⟨rfl, rfl, rfl, rfl, rfl, rfl, rfl, rfl, rfl, rfl, rfl, fun he _ => ?_, id, id⟩
    intro ht _
    exact absurd (by simpa using And.intro he ht) hc

theorem keeps_tot {o : Opt} {s s1 : St} {t : Table} {x : Int} (h : handleTot o s t x = .ok s1) : Keeps s s1 := by
  unfold handleTot at h
  split at h
  · cases h; exact Keeps.refl s
  · dsimp only at h
    have k1 : Keeps s (if (!s.streaming) = true then checkTimeLimit o s x else s) := by
      split
      · unfold checkTimeLimit
        split
        · exact Keeps.refl s
        · split
          · exact ⟨rfl, rfl, rfl, rfl, rfl, rfl, rfl, rfl, rfl, rfl, rfl, fun _ h => h, fun _ => rfl, id⟩
          · exact Keeps.refl s
      · exact Keeps.refl s
    generalize (if (!s.streaming) = true then checkTimeLimit o s x else s) = s2 at h k1
    split at h
    · cases h; exact k1
    · exact k1.trans (keeps_clockTime h)

theorem keeps_next {extra : Pmt → Nat} {s s1 : St} {x : Out} (h : nextPmt extra s = .ok (x, s1)) : Keeps s s1 := by
  unfold nextPmt at h
  obtain ⟨⟨y, pk⟩, h1, h⟩ := bind_ok_iff.1 h
  obtain ⟨_, _, h⟩ := bind_ok_iff.1 h
  cases h
  unfold Packetizer.next at h1
  split at h1
  · cases h1
  · cases h1
    exact ⟨rfl, rfl, rfl, rfl, rfl, rfl, rfl, rfl, rfl, rfl, rfl, fun _ h => h, id, id⟩

theorem keeps_cycle {extra : Pmt → Nat} : ∀ {fuel : Nat} {s s1 : St} {xs : List Out},
    sendCycle extra fuel s = .ok (xs, s1) → Keeps s s1
  | 0, _, _, _, h => by cases h
  | fuel + 1, s, s1, xs, h => by
    unfold sendCycle at h
    obtain ⟨⟨x, s2⟩, h1, h⟩ := bind_ok_iff.1 h
    have k1 := keeps_next h1
    dsimp only at h
    split at h
    · cases h; exact k1
    · obtain ⟨⟨ys, s3⟩, h2, h⟩ := bind_ok_iff.1 h
      cases h
      exact k1.trans (keeps_cycle h2)

theorem keeps_start {o : Opt} {s s1 : St} {p : Packet} {r : Option (List Out × Bool)}
    (h : waitStart o s p = .ok (s1, r)) : Keeps s s1 := by
  unfold waitStart at h
  split at h
  · cases h
    exact ⟨rfl, rfl, rfl, rfl, rfl, rfl, rfl, rfl, rfl, rfl, rfl, fun _ h => h, id, id⟩
  · split at h
    · cases h; exact Keeps.refl s
    · have k1 : Keeps s (savePat s p) := by
        unfold savePat
        split
        · exact ⟨rfl, rfl, rfl, rfl, rfl, rfl, rfl, rfl, rfl, rfl, rfl, fun _ h => h, id, id⟩
        · exact Keeps.refl s
      dsimp only at h
      generalize savePat s p = s2 at h k1
      split at h
      · cases h; exact k1
      · split at h
        · cases h; exact k1
        · split at h
          · cases h; exact k1
          · obtain ⟨s3, h1, h⟩ := bind_ok_iff.1 h
            have k2 := k1.trans (keeps_syncClock h1)
            split at h
            · cases h; exact k2
            · obtain ⟨c, _, h⟩ := bind_ok_iff.1 h
              split at h
              · cases h; exact k2
              · obtain ⟨c, _, h⟩ := bind_ok_iff.1 h
                split at h
                · cases h; exact k2
                · obtain ⟨_, _, h⟩ := bind_ok_iff.1 h
                  cases h; exact k2

theorem keeps_wait {extra : Pmt → Nat} {o : Opt} {s s1 : St} {p : Packet} {r : List Out × Bool}
    (h : waitReady extra o s p = .ok (s1, r)) : Keeps s s1 := by
  unfold waitReady at h
  obtain ⟨⟨s2, r2⟩, h1, h⟩ := bind_ok_iff.1 h
  have k1 := keeps_start h1
  cases r2 with
  | some x => cases h; exact k1
  | none =>
    dsimp only at h
    have k2 : Keeps s2 (if o.preStreaming = true then s2 else { s2 with lastPat := [] }) := by
      split
      · exact Keeps.refl s2
      · exact ⟨rfl, rfl, rfl, rfl, rfl, rfl, rfl, rfl, rfl, rfl, rfl, fun _ h => h, id, id⟩
    generalize (if o.preStreaming = true then s2 else { s2 with lastPat := [] }) = s3 at h k2
    obtain ⟨⟨xs, s4⟩, h2, h⟩ := bind_ok_iff.1 h
    cases h
    have k3 := (k1.trans k2).trans (keeps_cycle h2)
    exact ⟨k3.1, k3.2, k3.3, k3.4, k3.5, k3.6, k3.7, k3.8, k3.9, k3.10, k3.11, k3.12, k3.13, fun _ => rfl⟩

theorem keeps_forward {extra : Pmt → Nat} {s s1 : St} {p : Packet} {r : List Out × Bool}
    (h : forward extra s p = .ok (s1, r)) : Keeps s s1 := by
  unfold forward at h
  split at h
  · obtain ⟨⟨x, s2⟩, h1, h⟩ := bind_ok_iff.1 h
    cases h
    exact keeps_next h1
  · split at h <;> cases h <;> exact Keeps.refl s

theorem keeps_stream {extra : Pmt → Nat} {s s1 : St} {p : Packet} {r : List Out × Bool}
    (h : doStreaming extra s p = .ok (s1, r)) : Keeps s s1 := by
  unfold doStreaming at h
  split at h
  · cases h; exact Keeps.refl s
  · split at h
    · split at h
      · cases h; exact Keeps.refl s
      · obtain ⟨s2, h1, h⟩ := bind_ok_iff.1 h
        have k1 := keeps_syncClock h1
        split at h
        · cases h; exact k1
        · obtain ⟨c, _, h⟩ := bind_ok_iff.1 h
          split at h
          · cases h; exact k1
          · exact k1.trans (keeps_forward h)
    · exact keeps_forward h

end Mirakc.ProgramFilter.Rep
