import Verif.Spec.ProgramAborts
import Verif.Proof.ProgramFilterTotal
import Verif.Proof.Demux
/-
Exactly which streams make filter-program terminate abnormally.
-/
namespace Mirakc.ProgramFilter
open Mirakc.Spec Mirakc.Spec.ProgramFilter
open Mirakc.Spec.ServiceFilter (usablePat validPmt validTot latest listed Missing)
open Mirakc.ServiceFilter (latest_append latest_some latest_none latest_mem)

theorem outOfRange_iff (x : Int) : OutOfRange x ↔ isValidPcr x = false := by
  have h := isValidPcr_iff x
  unfold OutOfRange
  cases hv : isValidPcr x with
  | true => rw [hv] at h; simp only [true_iff] at h; simp; omega
  | false => rw [hv] at h; simp only [Bool.false_eq_true, false_iff] at h; simp; omega

/-! ### Watched PIDs -/

structure Track (o : Opt) (s : St) (rs : List Table) : Prop where
  pmt : s.pmtPid = (latest (listed o.sid) rs).getD 0x1FFF
  demux : ∀ pid, pid ∈ s.demux ↔ Looked o.sid rs pid

theorem track_init (o : Opt) : Track o (init o) [] := by
  refine ⟨rfl, fun pid => ?_⟩
  simp [init, Looked, latest, pidTot, pidEit, pidPat]
  omega

theorem track_table {o : Opt} {s s' : St} {t : Table} {rs : List Table} (hT : Track o s rs)
    (h : handleTable o s t = .ok s') : Track o s' (rs ++ [t]) := by
  rcases handle_demux h with ⟨pat, p, hu, hm, h1, h2⟩ | ⟨hu, h1, h2⟩
  · have hp : listed o.sid t = some p := by
      simp only [listed, hu, Option.bind_some]
      exact (pat.pmts.find?_iff o.sid p).2 hm
    refine ⟨by rw [h1, latest_some _ _ _ hp]; rfl, fun pid => ?_⟩
    rw [h2, hT.pmt]
    simp only [Looked, latest_some _ _ _ hp, List.mem_append, List.mem_singleton, PidSet.add,
      List.mem_cons, Option.some.injEq, pidNull]
    cases hla : latest (listed o.sid) rs with
    | none =>
      have hno : ∀ u ∈ rs, listed o.sid u = none := by
        intro u hu
        have : rs.filterMap (listed o.sid) = [] := by
          simpa [latest, List.getLast?_eq_none_iff] using hla
        rw [List.filterMap_eq_nil_iff] at this
        exact this u hu
      simp only [Option.getD_none, bne_self_eq_false, Bool.false_eq_true, if_false, hT.demux pid, Looked, hla]
      grind
    | some q =>
      obtain ⟨u, hu, hq⟩ := latest_mem hla
      by_cases hn : q = 0x1FFF
      · subst hn
        simp only [Option.getD_some, bne_self_eq_false, Bool.false_eq_true, if_false, hT.demux pid, Looked, hla]
        grind
      · have : (q != 0x1FFF) = true := by simpa using hn
        simp only [Option.getD_some, this, if_true, PidSet.remove, List.mem_filter, bne_iff_ne,
          hT.demux pid, Looked, hla]
        grind
  · have hp : listed o.sid t = none := by simp [listed, hu]
    refine ⟨by rw [h2, latest_none _ _ _ hp]; exact hT.pmt, fun pid => ?_⟩
    rw [h1, hT.demux pid]
    simp only [Looked, latest_none _ _ _ hp, List.mem_append, List.mem_singleton]
    grind

/-! ### Tables -/

/-- Once the event is known and the clock in sync, the clock's PCR is in range, and start and end can
be converted. -/
def Sound (s : St) : Prop :=
  s.eventTimeReady = true → needClockSync s = false → isValidPcr s.clockPcr = true ∧
    Convertible s.clockTime s.clockPcr s.eventStart ∧ Convertible s.clockTime s.clockPcr s.eventEnd

theorem unsound_iff {o : Opt} {s : St} {evs : List Ev} (hk : Clk o s evs)
    (he : EventSt o s (latestEvent o evs)) : Unsound o evs ↔ ¬ Sound s := by
  unfold Unsound Sound
  simp only [hk.sync_iff, outOfRange_iff]
  cases hl : latestEvent o evs with
  | none =>
    rw [hl] at he
    have he : s.eventTimeReady = false := he
    simp [he]
  | some e =>
    rw [hl] at he
    obtain ⟨h1, h2, h3⟩ := he
    rw [h1, h2, h3]
    constructor
    · rintro ⟨_, t0, p0, h, ⟨k, rfl, rfl⟩, h4⟩ hs
      cases h
      obtain ⟨a, b, c⟩ := hs rfl k
      rcases h4 with h4 | h4 | h4
      · rw [a] at h4; cases h4
      · exact h4 b
      · exact h4 c
    · intro h
      cases k : needClockSync s with
      | true => exact absurd (fun _ h => by rw [k] at h; cases h) h
      | false =>
        refine ⟨e, _, _, rfl, ⟨rfl, rfl, rfl⟩, ?_⟩
        cases hv : isValidPcr s.clockPcr with
        | false => exact .inl rfl
        | true =>
          right
          apply Classical.byContradiction
          intro hn
          simp only [not_or, Classical.not_not] at hn
          exact h (fun _ _ => ⟨hv, hn⟩)

theorem range_error {s : St} (h1 : s.eventTimeReady = true) (h2 : needClockSync s = false) (hs : ¬ Sound s) :
    ∃ f, updatePcrRange s = .error f := by
  cases h : updatePcrRange s with
  | error f => exact ⟨f, rfl⟩
  | ok s' =>
    exfalso
    apply hs
    intro _ _
    unfold updatePcrRange at h
    obtain ⟨_, _, h⟩ := bind_eq_ok h
    obtain ⟨_, _, h⟩ := bind_eq_ok h
    obtain ⟨_, _, h⟩ := bind_eq_ok h
    obtain ⟨a, ha, h⟩ := bind_eq_ok h
    obtain ⟨b, hb, h⟩ := bind_eq_ok h
    refine ⟨?_, ?_, ?_⟩
    · unfold convertTimeToPcr at ha
      obtain ⟨_, _, ha⟩ := bind_eq_ok ha
      obtain ⟨_, _, ha⟩ := bind_eq_ok ha
      obtain ⟨_, k, ha⟩ := bind_eq_ok ha
      exact assert_ok k
    · apply Classical.byContradiction
      intro hn
      obtain ⟨f, hf⟩ := convert_far hn
      rw [hf] at ha; cases ha
    · apply Classical.byContradiction
      intro hn
      obtain ⟨f, hf⟩ := convert_far hn
      rw [hf] at hb; cases hb

/-- A conditional update of the range. -/
theorem range_cond {s : St} {c : Bool}
    (hc : c = true ↔ s.eventTimeReady = true ∧ needClockSync s = false) :
    (∃ s', (if c then updatePcrRange s else .ok s) = .ok s' ∧ Sound s') ∨
    ((∃ f, (if c then updatePcrRange s else .ok s) = .error f) ∧ ¬ Sound s) := by
  cases hcc : c with
  | false =>
    refine .inl ⟨s, rfl, fun h1 h2 => ?_⟩
    rw [hc.2 ⟨h1, h2⟩] at hcc
    cases hcc
  | true =>
    obtain ⟨h1, h2⟩ := hc.1 hcc
    have h3 := h2
    simp only [needClockSync, Bool.or_eq_false_iff, Bool.not_eq_false'] at h3
    simp only [if_true]
    by_cases hs : Sound s
    · obtain ⟨k1, k2, k3⟩ := hs h1 h2
      obtain ⟨s', e⟩ := range_total h1 h3.2 h3.1 k1 k2 k3
      refine .inl ⟨s', e, ?_⟩
      rw [range_spec e]
      exact fun _ _ => ⟨k1, k2, k3⟩
    · exact .inr ⟨range_error h1 h2 hs, hs⟩

theorem handle_cases {o : Opt} {s : St} {t : Table} {evs : List Ev} (hI : TInv o s evs) (hs : Sound s) :
    (∃ s', handleTable o s t = .ok s' ∧ Sound s') ∨
    ((∃ f, handleTable o s t = .error f) ∧ (Missing o.sid t ∨ TooLong o t ∨ Unsound o (evs ++ [.tab t]))) := by
  unfold handleTable
  split
  · next pat hb =>
    unfold handlePat
    split
    · exact .inl ⟨s, rfl, hs⟩
    · next a =>
      split
      · exact .inl ⟨s, rfl, hs⟩
      · next b =>
        split
        · exact .inl ⟨s, rfl, hs⟩
        · next c =>
          split
          · next hf =>
            refine .inr ⟨⟨_, rfl⟩, .inl ⟨pat, ?_, ?_⟩⟩
            · simp only [bne_iff_ne, pidPat, ne_eq, Decidable.not_not] at a
              simp only [Bool.not_eq_true', Bool.not_eq_false] at b
              simp only [beq_iff_eq] at c
              simp [usablePat, hb, a, b, c]
            · intro pid hp
              rw [(OMap.find?_iff pat.pmts o.sid pid).2 hp] at hf
              cases hf
          · exact .inl ⟨_, rfl, hs⟩
  · next pmt hb =>
    unfold handlePmt
    split
    · exact .inl ⟨s, rfl, hs⟩
    · split
      · exact .inl ⟨s, rfl, hs⟩
      · refine .inl ⟨_, rfl, ?_⟩
        dsimp only
        split
        · intro _ h
          simp [needClockSync] at h
        · exact hs
  · next eit hb =>
    have n1 : usablePat t = none := by simp [usablePat, hb]
    have n2 : validPmt o.sid t = none := by simp [validPmt, hb]
    have n3 : validTot t = none := by simp [validTot, hb]
    have ue : ∀ e, (serviceEit o.sid t).bind (listedIn o.eid) = some e →
        (∃ s', updateEventTime o s e = .ok s' ∧ Sound s') ∨
        ((∃ f, updateEventTime o s e = .error f) ∧ (Missing o.sid t ∨ TooLong o t ∨ Unsound o (evs ++ [.tab t]))) := by
      intro e hl
      by_cases hf : Fits64 (e.duration * 1000) ∧ Fits64 (e.duration * 1000 + o.endMargin)
      case neg =>
        refine .inr ⟨?_, .inr (.inl ⟨e, hl, hf⟩)⟩
        cases h : updateEventTime o s e with
        | error f => exact ⟨f, rfl⟩
        | ok s' => exact absurd (updateEventTime_ok h).1 hf
      unfold updateEventTime
      rw [int64_fits hf.1]
      simp only [ok_bind]
      rw [int64_fits hf.2]
      simp only [ok_bind]
      rcases range_cond (s := { s with
          eventStart := e.startTime - o.startMargin
          eventEnd := e.startTime + (e.duration * 1000 + o.endMargin)
          eventTimeReady := true })
        (c := s.clockTimeReady && s.clockPcrReady) (by simp [needClockSync]) with ⟨s', h1, h2⟩ | ⟨h1, h2⟩
      · exact .inl ⟨s', h1, h2⟩
      · refine .inr ⟨h1, .inr (.inr ((unsound_iff ?_ ?_).2 h2))⟩
        · exact (hI.clk.table t (by simp [n2]) (.inl n3)).congr rfl rfl rfl rfl
        · rw [latestEvent_tab, hl]
          exact ⟨rfl, rfl, by simp only; omega⟩
    have hsound : Sound { s with stop := true } := hs
    unfold handleEit
    split
    · exact .inl ⟨s, rfl, hs⟩
    · next a =>
      split
      · exact .inl ⟨s, rfl, hs⟩
      · next b =>
        have he : serviceEit o.sid t = some eit.events := by
          simp only [Bool.not_eq_true', Bool.not_eq_false, bne_iff_ne, ne_eq, Decidable.not_not] at a b
          simp [serviceEit, hb, a, b]
        split
        · exact .inl ⟨_, rfl, hsound⟩
        · next present rest hev =>
          rw [hev] at he
          split
          · next h1 => exact ue _ (by rw [he]; simp [listedIn, beq_iff_eq.1 h1])
          · next h1 =>
            split
            · split
              · exact .inl ⟨_, rfl, hs⟩
              · exact .inl ⟨_, rfl, hsound⟩
            · split
              · next h2 =>
                refine ue _ ?_
                simp only [beq_iff_eq] at h1 h2
                rw [he]
                simp [listedIn, h1, h2]
              · split
                · exact .inl ⟨_, rfl, hs⟩
                · split
                  · exact .inl ⟨_, rfl, hsound⟩
                  · exact .inl ⟨_, rfl, hs⟩
  · next time hb =>
    have n2 : validPmt o.sid t = none := by simp [validPmt, hb]
    have n5 : serviceEit o.sid t = none := by simp [serviceEit, hb]
    unfold handleTot
    split
    · exact .inl ⟨s, rfl, hs⟩
    · next a =>
      have n4 : validTot t = some time := by
        simp only [Bool.not_eq_true', Bool.not_eq_false] at a
        simp [validTot, hb, a]
      dsimp only
      obtain ⟨b, e⟩ : ∃ b, (if !s.streaming then checkTimeLimit o s time else s) = { s with stop := b } := by
        unfold checkTimeLimit
        repeat' split
        all_goals exact ⟨_, rfl⟩
      rw [e]
      split
      · exact .inl ⟨_, rfl, hs⟩
      · next hn =>
        unfold updateClockTime
        rw [assert_of (by simpa using hn)]
        simp only [ok_bind]
        rcases range_cond (s := { s with stop := b, clockTime := time, clockTimeReady := true })
          (c := s.eventTimeReady && s.clockPcrReady) (by simp [needClockSync]) with ⟨s', h1, h2⟩ | ⟨h1, h2⟩
        · exact .inl ⟨s', h1, h2⟩
        · refine .inr ⟨h1, .inr (.inr ((unsound_iff ?_ ?_).2 h2))⟩
          · exact hI.clk.tot t time n4 n2 (by simpa using hn) rfl rfl rfl rfl
          · rw [latestEvent_tab, n5]
            exact hI.event
  · exact .inl ⟨s, rfl, hs⟩

/-- The length of an event that was taken can be represented. -/
theorem handle_length {o : Opt} {s s' : St} {t : Table} (h : handleTable o s t = .ok s') {e : Event}
    (hl : (serviceEit o.sid t).bind (listedIn o.eid) = some e) :
    Fits64 (e.duration * 1000) ∧ Fits64 (e.duration * 1000 + o.endMargin) := by
  unfold handleTable at h
  split at h
  · next hb => simp [serviceEit, hb] at hl
  · next hb => simp [serviceEit, hb] at hl
  · next eit hb =>
    unfold handleEit at h
    split at h
    · next a =>
      simp only [Bool.not_eq_true'] at a
      simp [serviceEit, hb, a] at hl
    · next a =>
      split at h
      · next b =>
        simp only [bne_iff_ne, ne_eq] at b
        simp [serviceEit, hb, b] at hl
      · next b =>
        have he : serviceEit o.sid t = some eit.events := by
          simp only [Bool.not_eq_true', Bool.not_eq_false, bne_iff_ne, ne_eq, Decidable.not_not] at a b
          simp [serviceEit, hb, a, b]
        rw [he] at hl
        split at h
        · next hev => rw [hev] at hl; simp [listedIn] at hl
        · next present rest hev =>
          rw [hev] at hl
          split at h
          · next h1 =>
            simp only [beq_iff_eq] at h1
            simp [listedIn, h1] at hl
            subst hl
            exact (updateEventTime_ok h).1
          · next h1 =>
            simp only [beq_iff_eq] at h1
            split at h
            · simp [listedIn, h1] at hl
            · next following rest' =>
              split at h
              · next h2 =>
                simp only [beq_iff_eq] at h2
                simp [listedIn, h1, h2] at hl
                subst hl
                exact (updateEventTime_ok h).1
              · next h2 =>
                simp only [beq_iff_eq] at h2
                simp [listedIn, h1, h2] at hl
  · next hb => simp [serviceEit, hb] at hl
  · next h1 h2 h3 h4 =>
    cases hb : t.body <;> first
      | exact absurd hb (h3 _)
      | simp [serviceEit, hb] at hl

theorem handle_good {o : Opt} {s s' : St} {t : Table} {evs : List Ev} (hI : TInv o s evs) (hs : Sound s)
    (h : handleTable o s t = .ok s') : Sound s' ∧ ¬ (Missing o.sid t ∨ TooLong o t ∨ Unsound o (evs ++ [.tab t])) := by
  have hs' : Sound s' := by
    rcases handle_cases (t := t) hI hs with ⟨s1, h1, h2⟩ | ⟨⟨f, h1⟩, _⟩
    · rw [h] at h1; cases h1; exact h2
    · rw [h] at h1; cases h1
  refine ⟨hs', ?_⟩
  rintro (⟨pat, hp, hn⟩ | ⟨e, hl, hn⟩ | hu)
  · rcases handle_demux h with ⟨pat', pid, hu, hm, _⟩ | ⟨hu, _⟩
    · rw [hp] at hu; cases hu; exact hn pid hm
    · rw [hp] at hu; cases hu
  · exact hn (handle_length h hl)
  · have hI' := (handleTable_spec hI h).inv
    exact (unsound_iff hI'.clk hI'.event).1 hu hs'

theorem tables_map (l : List Table) : tables (l.map .tab) = l := by
  induction l with
  | nil => rfl
  | cons t l ih =>
    show tables ([Ev.tab t] ++ l.map .tab) = _
    rw [tables_append, ih]; rfl

/-- What the demultiplexer hands over, and when that fails. -/
theorem feed_exact {o : Opt} {s : St} {evs : List Ev} (hI : TInv o s evs) (hs : Sound s)
    (hT : Track o s (tables evs)) (pid : Nat) (ts : List Table) :
    ∃ log, Handed (Looked o.sid) pid (tables evs) ts log ∧
      ((∃ s', feedDemux St.demux (handleTable o) pid ts s = .ok (s', log) ∧ Sound s' ∧
          Track o s' (tables evs ++ log) ∧
          ¬ ∃ a t b, log = a ++ t :: b ∧ (Missing o.sid t ∨ TooLong o t ∨ Unsound o (evs ++ (a ++ [t]).map .tab))) ∨
       ((∃ f, feedDemux St.demux (handleTable o) pid ts s = .error f) ∧
          ∃ a t b, log = a ++ t :: b ∧ (Missing o.sid t ∨ TooLong o t ∨ Unsound o (evs ++ (a ++ [t]).map .tab)))) := by
  obtain ⟨log, h1, h2⟩ := feedDemux_exact (watched := St.demux) (handle := handleTable o) (pid := pid)
    (W := Looked o.sid)
    (bad := fun rs t => ∃ l, rs = tables evs ++ l ∧ (Missing o.sid t ∨ TooLong o t ∨ Unsound o (evs ++ (l ++ [t]).map .tab)))
    (fun s rs => ∃ l, rs = tables evs ++ l ∧ TInv o s (evs ++ l.map .tab) ∧ Sound s ∧ Track o s rs)
    (fun s rs ⟨_, _, _, _, h⟩ => h.demux pid)
    (by
      rintro s t s' _ ⟨l, rfl, i1, i2, i3⟩ _ _ h
      refine ⟨l ++ [t], by simp, by simpa using (handleTable_spec i1 h).inv, (handle_good i1 i2 h).1, track_table i3 h⟩)
    (by
      rintro s t _ ⟨l, rfl, i1, i2, i3⟩ _ _
      constructor
      · rintro ⟨f, hf⟩
        rcases handle_cases (t := t) i1 i2 with ⟨s1, h1, h2⟩ | ⟨_, h⟩
        · rw [hf] at h1; cases h1
        · exact ⟨l, rfl, by simpa using h⟩
      · rintro ⟨l', e, h⟩
        have e := List.append_cancel_left e
        subst e
        cases hh : handleTable o s t with
        | error f => exact ⟨f, rfl⟩
        | ok s' => exact absurd (by simpa using h) (handle_good i1 i2 hh).2)
    ts s (tables evs) ⟨[], by simp, by simpa using hI, hs, hT⟩
  have hsp : Spoilt (fun rs t => ∃ l, rs = tables evs ++ l ∧
      (Missing o.sid t ∨ TooLong o t ∨ Unsound o (evs ++ (l ++ [t]).map .tab))) (tables evs) log ↔
      ∃ a t b, log = a ++ t :: b ∧ (Missing o.sid t ∨ TooLong o t ∨ Unsound o (evs ++ (a ++ [t]).map .tab)) := by
    constructor
    · rintro ⟨a, t, b, e, l, e', h⟩
      have e' := List.append_cancel_left e'
      subst e'
      exact ⟨a, t, b, e, h⟩
    · rintro ⟨a, t, b, e, h⟩
      exact ⟨a, t, b, e, a, rfl, h⟩
  refine ⟨log, h1, ?_⟩
  rw [hsp] at h2
  rcases h2 with ⟨s', h2, ⟨l, e, _, h3, h4⟩, h5⟩ | h2
  · exact .inl ⟨s', h2, h3, h4, h5⟩
  · exact .inr h2

/-! ### Packets -/

/-- With a PCR of the service, the event being known, the range is known if the time is. -/
theorem range_after {o : Opt} {s : St} {evs : List Ev} {p : Packet} {x : Int} (hI : TInv o s evs)
    (h1 : s.pcrPidReady = true) (h2 : s.eventTimeReady = true) (h3 : p.pid = s.pcrPid) (h4 : p.pcr = some x) :
    (∃ a b, Range o (evs ++ [.pkt p]) a b) ↔ s.clockTimeReady = true := by
  have hp := clockPid_ready hI h1
  have he := (event_iff hI).1 h2
  have key : ∀ s' : St, Clk o s' (evs ++ [.pkt p]) →
      ((∃ a b, Range o (evs ++ [.pkt p]) a b) ↔ needClockSync s' = false) := by
    intro s' hk
    constructor
    · rintro ⟨a, b, e, t0, p0, _, h, _⟩
      exact ((hk.sync_iff t0 p0).1 h).1
    · intro h
      obtain ⟨e, he⟩ := Option.ne_none_iff_exists'.1 he
      exact ⟨_, _, e, _, _, by rw [latestEvent_pkt]; exact he, (hk.sync_iff _ _).2 ⟨h, rfl, rfl⟩, rfl, rfl⟩
  cases hn : needClockSync s with
  | true =>
    rw [key { s with clockPcr := x, clockPcrReady := true }
      (hI.clk.pcr p x (by rw [hp]; exact h3) he h4 hn rfl rfl rfl rfl)]
    simp [needClockSync]
  | false =>
    rw [key s (hI.clk.after_packet p (.inr (.inr (.inr hn))))]
    simp only [hn, true_iff]
    simp only [needClockSync, Bool.or_eq_false_iff, Bool.not_eq_false'] at hn
    exact hn.1

theorem sync_early {s : St} {x : Int} (h : s.clockTimeReady = false) :
    ∃ s', syncClock s x = .ok s' ∧ needClockSync s' = true := by
  have hn : needClockSync s = true := by simp [needClockSync, h]
  unfold syncClock updateClockPcr
  rw [if_pos hn, assert_of hn]
  simp only [ok_bind, h, Bool.and_false, Bool.false_eq_true, if_false]
  exact ⟨_, rfl, by simp [needClockSync, h]⟩

theorem sync_invalid {s : St} {x : Int} (he : s.eventTimeReady = true) (ht : s.clockTimeReady = true)
    (hv : isValidPcr x = false) :
    (∃ f, syncClock s x = .error f) ∨ (syncClock s x = .ok s ∧ needClockSync s = false) := by
  cases hn : needClockSync s with
  | false => exact .inr ⟨by unfold syncClock; rw [hn]; rfl, rfl⟩
  | true =>
    left
    refine ⟨.assertFail, ?_⟩
    unfold syncClock updateClockPcr updatePcrRange convertTimeToPcr
    rw [if_pos hn, assert_of hn]
    simp only [ok_bind, he, ht, hv, Bool.and_self, if_true, assertThat]
    rfl

theorem sync_valid {s : St} {x : Int} (hs : Sound s) (hr : RangeSt s) (he : s.eventTimeReady = true)
    (ht : s.clockTimeReady = true) :
    (∃ s', syncClock s x = .ok s' ∧ needClockSync s' = false ∧ Sound s' ∧
      isValidPcr s'.startPcr = true ∧ isValidPcr s'.endPcr = true) ∨
    ((∃ f, syncClock s x = .error f) ∧ needClockSync s = true ∧
      ¬ Sound { s with clockPcr := x, clockPcrReady := true }) := by
  cases hn : needClockSync s with
  | false =>
    refine .inl ⟨s, by unfold syncClock; rw [hn]; rfl, hn, hs, ?_⟩
    simp only [needClockSync, Bool.or_eq_false_iff, Bool.not_eq_false'] at hn
    obtain ⟨r1, r2⟩ := hr he hn.1 hn.2
    rw [r1, r2]
    exact ⟨image_valid _ _ _, image_valid _ _ _⟩
  | true =>
    have e : syncClock s x = if s.eventTimeReady && s.clockTimeReady then
        updatePcrRange { s with clockPcr := x, clockPcrReady := true }
      else .ok { s with clockPcr := x, clockPcrReady := true } := by
      unfold syncClock updateClockPcr
      rw [if_pos hn, assert_of hn]
      rfl
    rw [e]
    rcases range_cond (s := { s with clockPcr := x, clockPcrReady := true })
      (c := s.eventTimeReady && s.clockTimeReady) (by simp [needClockSync]) with ⟨s', h1, h2⟩ | ⟨h1, h2⟩
    · refine .inl ⟨s', h1, ?_⟩
      rw [if_pos (by simp [he, ht])] at h1
      have h3 := range_spec h1
      rw [h3] at h2 ⊢
      exact ⟨by simp [needClockSync, ht], h2, image_valid _ _ _, image_valid _ _ _⟩
    · exact .inr ⟨h1, rfl, h2⟩

/-- The range that cannot be computed is known. -/
theorem unsound_range {o : Opt} {evs : List Ev} (h : Unsound o evs) : ∃ a b, Range o evs a b := by
  obtain ⟨e, t0, p0, h1, h2, _⟩ := h
  exact ⟨_, _, e, t0, p0, h1, h2, rfl, rfl⟩

theorem compare_invalid {x y : Int} (h : isValidPcr x = false) : ∃ f, comparePcr x y = .error f := by
  unfold comparePcr
  rw [h]
  exact ⟨_, rfl⟩

/-- The PMT packets are on the PID of the PMT unless the PMT is stale. -/
theorem stale_iff {o : Opt} {s : St} {evs : List Ev} (hI : TInv o s evs) (hn : NoPat s evs)
    (hr : s.pcrPidReady = true) : Stale o evs ↔ s.pk.pid ≠ s.pmtPid := by
  rw [hI.pcrReady] at hr
  obtain ⟨pmt, hl⟩ := Option.isSome_iff_exists.1 hr
  obtain ⟨⟨q, pmt'⟩, hq⟩ := Option.ne_none_iff_exists'.1 (latestPmt_ne_none hl)
  have hpk := hI.pk
  rw [hq] at hpk
  obtain ⟨e, t, ht, _⟩ := hpk
  have key : PmtPid o evs q ↔ s.pk.pid = s.pmtPid := by
    by_cases hu : latest usablePat (tables evs) = none
    · have h1 := (hn hu).2 (by simp [ht])
      have h2 := hI.pmtPid
      rw [hu] at h2
      refine iff_of_false ?_ (by rw [h2]; exact h1)
      rintro ⟨pat, h, _⟩
      rw [hu] at h; cases h
    · rw [pmtPid_iff hI hu, ← e]
  unfold Stale
  rw [hq]
  constructor
  · rintro ⟨_, _, h, h'⟩
    cases h
    exact fun h => h' (key.2 h)
  · exact fun h => ⟨q, pmt', rfl, fun h' => h (key.1 h')⟩

theorem sendCycle_stale {extra : Pmt → Nat} {fuel : Nat} {s : St} (h : s.pk.pid ≠ s.pmtPid) :
    ∃ f, sendCycle extra fuel s = .error f := by
  cases hs : sendCycle extra fuel s with
  | error f => exact ⟨f, rfl⟩
  | ok r => exact absurd (sendCycle_pid hs).1 h

/-- The PCR of a packet is out of range, while the range is known, or makes it impossible to compute. -/
def BadPcr (o : Opt) (evs : List Ev) (p : Packet) : Prop :=
  ∃ x, HasPcr o evs p x ∧
    ((OutOfRange x ∧ ∃ a b, Range o (evs ++ [.pkt p]) a b) ∨ Unsound o (evs ++ [.pkt p]))

theorem BadPcr.range {o : Opt} {evs : List Ev} {p : Packet} (h : BadPcr o evs p) :
    ∃ x a b, HasPcr o evs p x ∧ Range o (evs ++ [.pkt p]) a b := by
  obtain ⟨x, h1, ⟨_, a, b, h2⟩ | h2⟩ := h
  · exact ⟨x, a, b, h1, h2⟩
  · obtain ⟨a, b, h2⟩ := unsound_range h2
    exact ⟨x, a, b, h1, h2⟩

/-- A packet with whose PCR the clock gets in sync. -/
theorem badPcr_sync {o : Opt} {s : St} {evs : List Ev} {p : Packet} {x : Int} (hI : TInv o s evs)
    (h1 : s.pcrPidReady = true) (h2 : s.eventTimeReady = true) (h3 : p.pid = s.pcrPid) (h4 : p.pcr = some x)
    (hn : needClockSync s = true) (hs : ¬ Sound { s with clockPcr := x, clockPcrReady := true }) :
    BadPcr o evs p := by
  have he := (event_iff hI).1 h2
  refine ⟨x, (hasPcr_iff hI p x).2 ⟨h1, h3, h4⟩, .inr ((unsound_iff (s := { s with clockPcr := x, clockPcrReady := true })
    (hI.clk.pcr p x (by rw [clockPid_ready hI h1]; exact h3) he h4 hn rfl rfl rfl rfl) ?_).2 hs)⟩
  rw [latestEvent_pkt]
  have := hI.event
  cases hl : latestEvent o evs with
  | none => rw [hl] at this; exact this
  | some e => rw [hl] at this; exact this

theorem wait_error {extra : Pmt → Nat} {o : Opt} {s : St} {evs : List Ev} {p : Packet}
    (hI : TInv o s evs) (hs : Sound s) (hn : NoPat s evs) (hstop : s.stop = false) (hcur : s.pk.cur = none)
    (hpat : o.preStreaming = true → p.pid = 0 → ∀ x, ¬ HasPcr o evs p x) :
    (∃ f, waitReady extra o s p = .error f) ↔
      BadPcr o evs p ∨ (StartAt o evs p ∧
        ((o.preStreaming = false ∧ (savePat s p).lastPat = []) ∨ Stale o evs)) := by
  have none : ∀ (r : St × List Out × Bool),
      (∀ x a b, HasPcr o evs p x → Range o (evs ++ [.pkt p]) a b → False) →
      ((∃ f, (Except.ok r : Except Fault _) = .error f) ↔
        BadPcr o evs p ∨ (StartAt o evs p ∧
          ((o.preStreaming = false ∧ (savePat s p).lastPat = []) ∨ Stale o evs))) := by
    intro r h
    refine iff_of_false (by rintro ⟨_, h⟩; cases h) ?_
    rintro (h1 | ⟨h1, _⟩)
    · obtain ⟨x, a, b, h1, h2⟩ := h1.range
      exact h x a b h1 h2
    · exact (no_start_end h).1 h1
  rw [waitReady_eq]
  rw [if_neg (by simp [hstop])]
  split
  · next hp =>
    simp only [Bool.and_eq_true, beq_iff_eq, pidPat] at hp
    refine none _ ?_
    exact fun x _ _ h _ => hpat hp.2 hp.1 x h
  · next hp =>
    dsimp only
    have hsp := savePat_eq s p
    have hI1 : TInv o (savePat s p) evs := by
      rw [hsp]; exact hI.congr _ s.pk.cur s.pk.count s.streaming
    have hs1 : Sound (savePat s p) := by rw [hsp]; exact hs
    have hn1 : NoPat (savePat s p) evs := by rw [hsp]; exact hn
    have hpk1 : (savePat s p).pk = s.pk := by rw [hsp]
    generalize hse : savePat s p = s1 at *
    split
    · next hr =>
      refine none _ ?_
      rintro x a b h1 ⟨e, _, _, h2, _⟩
      rw [latestEvent_pkt] at h2
      rw [((hasPcr_iff hI1 p x).1 h1).1, (event_iff hI1).2 (by simp [h2])] at hr
      simp at hr
    · next hr =>
      simp only [Bool.not_eq_true', Bool.or_eq_true, not_or, Bool.not_eq_false] at hr
      split
      · next hpid =>
        simp only [bne_iff_ne, ne_eq] at hpid
        exact none _ fun x a b h1 _ => hpid ((hasPcr_iff hI1 p x).1 h1).2.1
      · next hpid =>
        simp only [bne_iff_ne, ne_eq, Decidable.not_not] at hpid
        split
        · next hx =>
          refine none _ fun x a b h1 _ => ?_
          have := ((hasPcr_iff hI1 p x).1 h1).2.2
          rw [hx] at this; cases this
        · next x hx =>
          have hhas : HasPcr o evs p x := (hasPcr_iff hI1 p x).2 ⟨hr.1, hpid, hx⟩
          have huniq : ∀ y, HasPcr o evs p y → y = x := by
            rintro y ⟨_, _, _, hy⟩; rw [hx] at hy; exact (Option.some.inj hy).symm
          have hra := range_after hI1 hr.1 hr.2 hpid hx
          cases ht : s1.clockTimeReady with
          | false =>
            obtain ⟨s2, e1, e2⟩ := sync_early (x := x) ht
            rw [e1]
            simp only [ok_bind, e2, if_true]
            refine none _ fun _ a b _ h => ?_
            rw [hra.1 ⟨a, b, h⟩] at ht
            cases ht
          | true =>
            obtain ⟨ra, rb, hrange⟩ := hra.2 ht
            cases hv : isValidPcr x with
            | false =>
              refine iff_of_true ?_ (.inl ⟨x, hhas, .inl ⟨(outOfRange_iff x).2 hv, ra, rb, hrange⟩⟩)
              rcases sync_invalid hr.2 ht hv with ⟨f, h⟩ | ⟨h1, h2⟩
              · rw [h]; exact ⟨f, rfl⟩
              · rw [h1]
                simp only [ok_bind, h2, Bool.false_eq_true, if_false]
                obtain ⟨f, h⟩ := compare_invalid (y := s1.endPcr) hv
                rw [h]; exact ⟨f, rfl⟩
            | true =>
              rcases sync_valid (x := x) hs1 hI1.range hr.2 ht with ⟨s2, e1, e2, hs2, v1, v2⟩ | ⟨⟨f, e1⟩, e2, e3⟩
              case inr =>
                refine iff_of_true ⟨f, ?_⟩ (.inl (badPcr_sync hI1 hr.1 hr.2 hpid hx e2 e3))
                rw [e1]
                rfl
              obtain ⟨hI2, a1, a2, a3, a4, he2⟩ := sync_spec hI1 hr.1 hr.2 hpid hx e1
              have hnb : ¬ BadPcr o evs p := by
                rintro ⟨y, h1, ⟨h2, _⟩ | h2⟩
                · rw [huniq y h1, outOfRange_iff, hv] at h2
                  cases h2
                · exact (unsound_iff hI2.clk hI2.event).1 h2 hs2
              have hrange : Range o (evs ++ [.pkt p]) s2.startPcr s2.endPcr :=
                (range_iff hI2 _ _).2 ⟨by rw [he2]; exact hr.2, e2, rfl, rfl⟩
              have hru : ∀ a b, Range o (evs ++ [.pkt p]) a b → a = s2.startPcr ∧ b = s2.endPcr :=
                fun a b h => ((range_iff hI2 a b).1 h).2.2
              have hstart : StartAt o evs p ↔ ReachedNoWrap x s2.startPcr ∧ ¬ ReachedNoWrap x s2.endPcr := by
                constructor
                · rintro ⟨y, a, b, h1, h2, h3, h4⟩
                  obtain ⟨rfl, rfl⟩ := hru a b h2
                  rw [huniq y h1] at h3 h4
                  exact ⟨h3, h4⟩
                · exact fun h => ⟨x, _, _, hhas, hrange, h.1, h.2⟩
              have hpk2 : s2.pk = s.pk := by rw [he2]; exact hpk1
              have hlp2 : s2.lastPat = s1.lastPat := by rw [he2]
              have hpm2 : s2.pmtPid = s1.pmtPid := by rw [he2]
              rw [e1]
              simp only [ok_bind, e2, Bool.false_eq_true, if_false]
              obtain ⟨c, hc⟩ := compare_total hv v2
              obtain ⟨d, hd⟩ := compare_total hv v1
              rw [hc, hd]
              have hc := compare_spec hc
              have hd := compare_spec hd
              simp only [ok_bind]
              have good : ∀ r : St × List Out × Bool, ¬ StartAt o evs p →
                  ((∃ f, (Except.ok r : Except Fault _) = .error f) ↔
                    BadPcr o evs p ∨ (StartAt o evs p ∧
                      ((o.preStreaming = false ∧ s1.lastPat = []) ∨ Stale o evs))) := by
                intro r h
                refine iff_of_false (by rintro ⟨_, h⟩; cases h) ?_
                rintro (h1 | ⟨h1, _⟩)
                · exact hnb h1
                · exact h h1
              split
              · next hge => exact good _ (by rw [hstart]; exact fun h => h.2 (hc.1 hge))
              · next hge =>
                split
                · next hlt =>
                  refine good _ ?_
                  rw [hstart]
                  intro h
                  have := hd.2 h.1
                  omega
                · next hlt =>
                  have hst : StartAt o evs p := hstart.2 ⟨hd.1 (by omega), fun h => hge (hc.2 h)⟩
                  by_cases hl : o.preStreaming = false ∧ s1.lastPat = []
                  · refine iff_of_true ?_ (.inr ⟨hst, .inl hl⟩)
                    rw [hlp2, hl.1, hl.2]
                    exact ⟨_, rfl⟩
                  · rw [assert_of (by
                      rw [hlp2]
                      cases hps : o.preStreaming with
                      | true => rfl
                      | false =>
                        have : s1.lastPat ≠ [] := fun h => hl ⟨hps, h⟩
                        simpa using this)]
                    simp only [ok_bind]
                    obtain ⟨l, hle⟩ : ∃ l, (if o.preStreaming = true then s2
                        else { s2 with lastPat := [] }) = { s2 with lastPat := l } := by
                      split
                      · exact ⟨s2.lastPat, rfl⟩
                      · exact ⟨[], rfl⟩
                    rw [hle]
                    have hstale := stale_iff hI1 hn1 hr.1
                    rw [hpk1, ← hpk2, ← hpm2] at hstale
                    by_cases hq : s2.pk.pid = s2.pmtPid
                    · refine iff_of_false ?_ ?_
                      · obtain ⟨t, ht⟩ : ∃ t, s2.pk.table = some t := by
                          have := hI1.pcrReady
                          rw [hr.1] at this
                          obtain ⟨pmt, hlast⟩ := Option.isSome_iff_exists.1 this.symm
                          obtain ⟨⟨q, pmt'⟩, hq⟩ := Option.ne_none_iff_exists'.1 (latestPmt_ne_none hlast)
                          have hpk := hI1.pk
                          rw [hq] at hpk
                          obtain ⟨_, t, ht, _⟩ := hpk
                          exact ⟨t, by rw [hpk2, ← hpk1]; exact ht⟩
                        have hcs := sendCycle_spec (extra := extra)
                          ((({ s2 with lastPat := l } : St).pk.cur.map (extra ·.1)).getD 0 +
                           (({ s2 with lastPat := l } : St).pk.table.map extra).getD 0 + 1)
                          { s2 with lastPat := l } t 0
                          (by simp [hpk2, hcur]; rw [← hpk2, ht]) hq (by omega)
                          (by simp [hpk2, hcur]; rw [← hpk2, ht]; simp)
                        rw [hcs]
                        rintro ⟨f, h⟩
                        cases h
                      · rintro (h | ⟨_, h | h⟩)
                        · exact hnb h
                        · exact hl h
                        · exact hstale.1 h hq
                    · refine iff_of_true ?_ (.inr ⟨hst, .inr (hstale.2 hq)⟩)
                      obtain ⟨f, h⟩ := sendCycle_stale (extra := extra)
                        (fuel := (({ s2 with lastPat := l } : St).pk.cur.map (extra ·.1)).getD 0 +
                           (({ s2 with lastPat := l } : St).pk.table.map extra).getD 0 + 1)
                        (s := { s2 with lastPat := l }) hq
                      rw [h]
                      exact ⟨f, rfl⟩

/-- Failing before anything is sent. -/
theorem waitStart_error {o : Opt} {s : St} {evs : List Ev} {p : Packet}
    (hI : TInv o s evs) (hs : Sound s) (hstop : s.stop = false)
    (hpat : o.preStreaming = true → p.pid = 0 → ∀ x, ¬ HasPcr o evs p x) :
    (∃ f, waitStart o s p = .error f) ↔
      BadPcr o evs p ∨ (StartAt o evs p ∧ o.preStreaming = false ∧ (savePat s p).lastPat = []) := by
  have none : ∀ (r : St × Option (List Out × Bool)),
      (∀ x a b, HasPcr o evs p x → Range o (evs ++ [.pkt p]) a b → False) →
      ((∃ f, (Except.ok r : Except Fault _) = .error f) ↔
        BadPcr o evs p ∨ (StartAt o evs p ∧ o.preStreaming = false ∧ (savePat s p).lastPat = [])) := by
    intro r h
    refine iff_of_false (by rintro ⟨_, h⟩; cases h) ?_
    rintro (h1 | ⟨h1, _⟩)
    · obtain ⟨x, a, b, h1, h2⟩ := h1.range
      exact h x a b h1 h2
    · exact (no_start_end h).1 h1
  unfold waitStart
  rw [if_neg (by simp [hstop])]
  split
  · next hp =>
    simp only [Bool.and_eq_true, beq_iff_eq, pidPat] at hp
    refine none _ ?_
    exact fun x _ _ h _ => hpat hp.2 hp.1 x h
  · next hp =>
    dsimp only
    have hsp := savePat_eq s p
    have hI1 : TInv o (savePat s p) evs := by
      rw [hsp]; exact hI.congr _ s.pk.cur s.pk.count s.streaming
    have hs1 : Sound (savePat s p) := by rw [hsp]; exact hs
    generalize hse : savePat s p = s1 at *
    split
    · next hr =>
      refine none _ ?_
      rintro x a b h1 ⟨e, _, _, h2, _⟩
      rw [latestEvent_pkt] at h2
      rw [((hasPcr_iff hI1 p x).1 h1).1, (event_iff hI1).2 (by simp [h2])] at hr
      simp at hr
    · next hr =>
      simp only [Bool.not_eq_true', Bool.or_eq_true, not_or, Bool.not_eq_false] at hr
      split
      · next hpid =>
        simp only [bne_iff_ne, ne_eq] at hpid
        exact none _ fun x a b h1 _ => hpid ((hasPcr_iff hI1 p x).1 h1).2.1
      · next hpid =>
        simp only [bne_iff_ne, ne_eq, Decidable.not_not] at hpid
        split
        · next hx =>
          refine none _ fun x a b h1 _ => ?_
          have := ((hasPcr_iff hI1 p x).1 h1).2.2
          rw [hx] at this; cases this
        · next x hx =>
          have hhas : HasPcr o evs p x := (hasPcr_iff hI1 p x).2 ⟨hr.1, hpid, hx⟩
          have huniq : ∀ y, HasPcr o evs p y → y = x := by
            rintro y ⟨_, _, _, hy⟩; rw [hx] at hy; exact (Option.some.inj hy).symm
          have hra := range_after hI1 hr.1 hr.2 hpid hx
          cases ht : s1.clockTimeReady with
          | false =>
            obtain ⟨s2, e1, e2⟩ := sync_early (x := x) ht
            rw [e1]
            simp only [ok_bind, e2, if_true]
            refine none _ fun _ a b _ h => ?_
            rw [hra.1 ⟨a, b, h⟩] at ht
            cases ht
          | true =>
            obtain ⟨ra, rb, hrange⟩ := hra.2 ht
            cases hv : isValidPcr x with
            | false =>
              refine iff_of_true ?_ (.inl ⟨x, hhas, .inl ⟨(outOfRange_iff x).2 hv, ra, rb, hrange⟩⟩)
              rcases sync_invalid hr.2 ht hv with ⟨f, h⟩ | ⟨h1, h2⟩
              · rw [h]; exact ⟨f, rfl⟩
              · rw [h1]
                simp only [ok_bind, h2, Bool.false_eq_true, if_false]
                obtain ⟨f, h⟩ := compare_invalid (y := s1.endPcr) hv
                rw [h]; exact ⟨f, rfl⟩
            | true =>
              rcases sync_valid (x := x) hs1 hI1.range hr.2 ht with ⟨s2, e1, e2, hs2, v1, v2⟩ | ⟨⟨f, e1⟩, e2, e3⟩
              case inr =>
                refine iff_of_true ⟨f, ?_⟩ (.inl (badPcr_sync hI1 hr.1 hr.2 hpid hx e2 e3))
                rw [e1]
                rfl
              obtain ⟨hI2, a1, a2, a3, a4, he2⟩ := sync_spec hI1 hr.1 hr.2 hpid hx e1
              have hnb : ¬ BadPcr o evs p := by
                rintro ⟨y, h1, ⟨h2, _⟩ | h2⟩
                · rw [huniq y h1, outOfRange_iff, hv] at h2
                  cases h2
                · exact (unsound_iff hI2.clk hI2.event).1 h2 hs2
              have hrange : Range o (evs ++ [.pkt p]) s2.startPcr s2.endPcr :=
                (range_iff hI2 _ _).2 ⟨by rw [he2]; exact hr.2, e2, rfl, rfl⟩
              have hru : ∀ a b, Range o (evs ++ [.pkt p]) a b → a = s2.startPcr ∧ b = s2.endPcr :=
                fun a b h => ((range_iff hI2 a b).1 h).2.2
              have hstart : StartAt o evs p ↔ ReachedNoWrap x s2.startPcr ∧ ¬ ReachedNoWrap x s2.endPcr := by
                constructor
                · rintro ⟨y, a, b, h1, h2, h3, h4⟩
                  obtain ⟨rfl, rfl⟩ := hru a b h2
                  rw [huniq y h1] at h3 h4
                  exact ⟨h3, h4⟩
                · exact fun h => ⟨x, _, _, hhas, hrange, h.1, h.2⟩
              have hlp2 : s2.lastPat = s1.lastPat := by rw [he2]
              rw [e1]
              simp only [ok_bind, e2, Bool.false_eq_true, if_false]
              obtain ⟨c, hc⟩ := compare_total hv v2
              obtain ⟨d, hd⟩ := compare_total hv v1
              rw [hc, hd]
              have hc := compare_spec hc
              have hd := compare_spec hd
              simp only [ok_bind]
              have good : ∀ r : St × Option (List Out × Bool), ¬ StartAt o evs p →
                  ((∃ f, (Except.ok r : Except Fault _) = .error f) ↔
                    BadPcr o evs p ∨ (StartAt o evs p ∧ o.preStreaming = false ∧ s1.lastPat = [])) := by
                intro r h
                refine iff_of_false (by rintro ⟨_, h⟩; cases h) ?_
                rintro (h1 | ⟨h1, _⟩)
                · exact hnb h1
                · exact h h1
              split
              · next hge => exact good _ (by rw [hstart]; exact fun h => h.2 (hc.1 hge))
              · next hge =>
                split
                · next hlt =>
                  refine good _ ?_
                  rw [hstart]
                  intro h
                  have := hd.2 h.1
                  omega
                · next hlt =>
                  have hst : StartAt o evs p := hstart.2 ⟨hd.1 (by omega), fun h => hge (hc.2 h)⟩
                  by_cases hl : o.preStreaming = false ∧ s1.lastPat = []
                  · refine iff_of_true ?_ (.inr ⟨hst, hl⟩)
                    rw [hlp2, hl.1, hl.2]
                    exact ⟨_, rfl⟩
                  · rw [assert_of (by
                      rw [hlp2]
                      cases hps : o.preStreaming with
                      | true => rfl
                      | false =>
                        have : s1.lastPat ≠ [] := fun h => hl ⟨hps, h⟩
                        simpa using this)]
                    refine iff_of_false (by rintro ⟨_, h⟩; cases h) ?_
                    rintro (h | ⟨_, h⟩)
                    · exact hnb h
                    · exact hl h

/-- Replacing a packet. -/
theorem forward_error {extra : Pmt → Nat} {s : St} {p : Packet} (ht : s.pk.table ≠ none) :
    (∃ f, forward extra s p = .error f) ↔ p.pid = s.pmtPid ∧ s.pk.pid ≠ s.pmtPid := by
  unfold forward
  split
  · next hp =>
    simp only [beq_iff_eq] at hp
    obtain ⟨t, ht⟩ := Option.ne_none_iff_exists'.1 ht
    obtain ⟨t', j, hn⟩ : ∃ t' j, s.pk.cur.or (s.pk.table.map (·, 0)) = some (t', j) := by
      rw [ht]
      cases s.pk.cur with
      | none => exact ⟨t, 0, rfl⟩
      | some y => exact ⟨y.1, y.2, rfl⟩
    unfold nextPmt Packetizer.next
    rw [hn]
    simp only [ok_bind]
    by_cases hq : s.pk.pid = s.pmtPid
    · rw [assert_of (by simpa using hq)]
      exact iff_of_false (by rintro ⟨_, h⟩; cases h) (fun h => h.2 hq)
    · refine iff_of_true ⟨.assertFail, ?_⟩ ⟨hp, hq⟩
      have : (s.pk.pid == s.pmtPid) = false := by simpa using hq
      rw [this]
      rfl
  · next hp =>
    simp only [beq_iff_eq] at hp
    refine iff_of_false ?_ (fun h => hp h.1)
    rintro ⟨f, h⟩
    split at h <;> cases h

theorem strm_error {extra : Pmt → Nat} {o : Opt} {s : St} {evs : List Ev} {p : Packet}
    (hI : TInv o s evs) (hs : Sound s) (hn : NoPat s evs) (hstop : s.stop = false)
    (hr : s.pcrPidReady = true) (he : s.eventTimeReady = true) :
    (∃ f, doStreaming extra s p = .error f) ↔
      BadPcr o evs p ∨ (¬ EndAt o evs p ∧ ¬ Exempt o evs p ∧ p.pid = s.pmtPid ∧ Stale o evs) := by
  have htab : s.pk.table ≠ none := by
    have := hI.pcrReady
    rw [hr] at this
    obtain ⟨pmt, hlast⟩ := Option.isSome_iff_exists.1 this.symm
    obtain ⟨⟨q, pmt'⟩, hq⟩ := Option.ne_none_iff_exists'.1 (latestPmt_ne_none hlast)
    have hpk := hI.pk
    rw [hq] at hpk
    obtain ⟨_, t, ht, _⟩ := hpk
    simp [ht]
  have hstale := stale_iff hI hn hr
  unfold doStreaming
  rw [if_neg (by simp [hstop])]
  split
  · next hp =>
    simp only [beq_iff_eq] at hp
    split
    · next hx =>
      have hI1 := tinv_still hI p (Or.inr (Or.inr (Or.inl hx)))
      refine iff_of_false (by rintro ⟨_, h⟩; cases h) ?_
      rintro (⟨x, h1, _⟩ | ⟨_, h, _⟩)
      · have := ((hasPcr_iff hI p x).1 h1).2.2
        rw [hx] at this; cases this
      · exact h ((exempt_iff hI hI1 hr he).2 ⟨hp, Or.inl hx⟩)
    · next x hx =>
      have hhas : HasPcr o evs p x := (hasPcr_iff hI p x).2 ⟨hr, hp, hx⟩
      have huniq : ∀ y, HasPcr o evs p y → y = x := by
        rintro y ⟨_, _, _, hy⟩; rw [hx] at hy; exact (Option.some.inj hy).symm
      have hra := range_after hI hr he hp hx
      cases ht : s.clockTimeReady with
      | false =>
        obtain ⟨s2, e1, e2⟩ := sync_early (x := x) ht
        obtain ⟨hI2, a1, a2, a3, a4, he2⟩ := sync_spec hI hr he hp hx e1
        rw [e1]
        simp only [ok_bind, e2, if_true]
        refine iff_of_false (by rintro ⟨_, h⟩; cases h) ?_
        rintro (h | ⟨_, h, _⟩)
        · obtain ⟨_, a, b, _, h⟩ := h.range
          rw [hra.1 ⟨a, b, h⟩] at ht
          cases ht
        · exact h ((exempt_iff hI hI2 hr (by rw [he2]; exact he)).2 ⟨hp, Or.inr e2⟩)
      | true =>
        obtain ⟨ra, rb, hrange⟩ := hra.2 ht
        cases hv : isValidPcr x with
        | false =>
          refine iff_of_true ?_ (.inl ⟨x, hhas, .inl ⟨(outOfRange_iff x).2 hv, ra, rb, hrange⟩⟩)
          rcases sync_invalid he ht hv with ⟨f, h⟩ | ⟨h1, h2⟩
          · rw [h]; exact ⟨f, rfl⟩
          · rw [h1]
            simp only [ok_bind, h2, Bool.false_eq_true, if_false]
            obtain ⟨f, h⟩ := compare_invalid (y := s.endPcr) hv
            rw [h]; exact ⟨f, rfl⟩
        | true =>
          rcases sync_valid (x := x) hs hI.range he ht with ⟨s2, e1, e2, hs2, v1, v2⟩ | ⟨⟨f, e1⟩, e2, e3⟩
          case inr =>
            refine iff_of_true ⟨f, ?_⟩ (.inl (badPcr_sync hI hr he hp hx e2 e3))
            rw [e1]
            rfl
          obtain ⟨hI2, a1, a2, a3, a4, he2⟩ := sync_spec hI hr he hp hx e1
          have hnb : ¬ BadPcr o evs p := by
            rintro ⟨y, h1, ⟨h2, _⟩ | h2⟩
            · rw [huniq y h1, outOfRange_iff, hv] at h2
              cases h2
            · exact (unsound_iff hI2.clk hI2.event).1 h2 hs2
          have hru : ∀ a b, Range o (evs ++ [.pkt p]) a b → a = s2.startPcr ∧ b = s2.endPcr :=
            fun a b h => ((range_iff hI2 a b).1 h).2.2
          have hrange : Range o (evs ++ [.pkt p]) s2.startPcr s2.endPcr :=
            (range_iff hI2 _ _).2 ⟨by rw [he2]; exact he, e2, rfl, rfl⟩
          have hend : EndAt o evs p ↔ ReachedNoWrap x s2.endPcr := by
            constructor
            · rintro ⟨y, a, b, h1, h2, h3⟩
              obtain ⟨rfl, rfl⟩ := hru a b h2
              rw [huniq y h1] at h3
              exact h3
            · exact fun h => ⟨x, _, _, hhas, hrange, h⟩
          rw [e1]
          simp only [ok_bind, e2, Bool.false_eq_true, if_false]
          obtain ⟨c, hc⟩ := compare_total hv v2
          rw [hc]
          have hc := compare_spec hc
          simp only [ok_bind]
          split
          · next hge =>
            refine iff_of_false (by rintro ⟨_, h⟩; cases h) ?_
            rintro (h | ⟨h, _⟩)
            · exact hnb h
            · exact h (hend.2 (hc.1 hge))
          · next hge =>
            rw [forward_error (by rw [he2]; exact htab)]
            have hne : ¬ Exempt o evs p := by
              rw [exempt_iff hI hI2 hr (by rw [he2]; exact he)]
              rintro ⟨_, h | h⟩
              · rw [hx] at h; cases h
              · rw [e2] at h; cases h
            have hpk2 : s2.pk = s.pk := by rw [he2]
            have hpm2 : s2.pmtPid = s.pmtPid := by rw [he2]
            rw [hpk2, hpm2, hstale]
            constructor
            · exact fun h => .inr ⟨fun h => hge (hc.2 (hend.1 h)), hne, h.1, h.2⟩
            · rintro (h | ⟨_, _, h⟩)
              · exact absurd h hnb
              · exact h
  · next hp =>
    simp only [beq_iff_eq] at hp
    have hnp : ∀ x, ¬ HasPcr o evs p x := fun x h => hp ((hasPcr_iff hI p x).1 h).2.1
    rw [forward_error htab, hstale]
    constructor
    · intro h
      refine .inr ⟨fun ⟨x, _, _, h, _⟩ => hnp x h, ?_, h.1, h.2⟩
      have hI1 := tinv_still hI p (Or.inl (by rw [clockPid_ready hI hr]; exact hp))
      intro hx
      exact hp ((exempt_iff hI hI1 hr he).1 hx).1
    · rintro (⟨x, h, _⟩ | ⟨_, _, h⟩)
      · exact absurd h (hnp x)
      · exact h

/-! ### The clock after a packet -/

theorem sync_sound {s s' : St} {x : Int} (hs : Sound s) (h : syncClock s x = .ok s') : Sound s' := by
  unfold syncClock at h
  split at h
  · unfold updateClockPcr at h
    obtain ⟨_, _, h⟩ := bind_eq_ok h
    rcases range_cond (s := { s with clockPcr := x, clockPcrReady := true })
      (c := s.eventTimeReady && s.clockTimeReady) (by simp [needClockSync]) with ⟨s1, h1, h2⟩ | ⟨⟨f, h1⟩, _⟩
    · have h : (if (s.eventTimeReady && s.clockTimeReady) = true then
          updatePcrRange { s with clockPcr := x, clockPcrReady := true }
        else .ok { s with clockPcr := x, clockPcrReady := true }) = .ok s' := h
      rw [h1] at h
      cases h
      exact h2
    · have h : (if (s.eventTimeReady && s.clockTimeReady) = true then
          updatePcrRange { s with clockPcr := x, clockPcrReady := true }
        else .ok { s with clockPcr := x, clockPcrReady := true }) = .ok s' := h
      rw [h1] at h
      cases h
  · cases h; exact hs

theorem nextPmt_pk {extra : Pmt → Nat} {s s' : St} {x : Out} (h : nextPmt extra s = .ok (x, s')) :
    ∃ pk, s' = { s with pk := pk } := by
  unfold nextPmt at h
  obtain ⟨⟨y, pk⟩, _, h⟩ := bind_eq_ok h
  obtain ⟨_, _, h⟩ := bind_eq_ok h
  simp only [Except.ok.injEq, Prod.mk.injEq] at h
  exact ⟨pk, h.2.symm⟩

theorem sendCycle_pk {extra : Pmt → Nat} : ∀ (fuel : Nat) (s s' : St) (xs : List Out),
    sendCycle extra fuel s = .ok (xs, s') → ∃ pk, s' = { s with pk := pk } := by
  intro fuel
  induction fuel with
  | zero => intro s s' xs h; cases h
  | succ n ih =>
    intro s s' xs h
    unfold sendCycle at h
    obtain ⟨⟨x, s1⟩, h1, h⟩ := bind_eq_ok h
    obtain ⟨pk, rfl⟩ := nextPmt_pk h1
    simp only at h
    split at h
    · simp only [Except.ok.injEq, Prod.mk.injEq] at h
      exact ⟨pk, h.2.symm⟩
    · obtain ⟨⟨ys, s2⟩, h2, h⟩ := bind_eq_ok h
      simp only [Except.ok.injEq, Prod.mk.injEq] at h
      obtain ⟨pk', e⟩ := ih _ _ _ h2
      exact ⟨pk', by rw [← h.2, e]⟩

/-- A property of the state that the decision on a packet keeps. -/
structure Closed (P : St → Prop) : Prop where
  misc : ∀ s l pk b r, P s → P { s with lastPat := l, pk := pk, streaming := b, retry := r }
  sync : ∀ s s' x, P s → syncClock s x = .ok s' → P s'

theorem closed_sound : Closed Sound := ⟨fun _ _ _ _ _ h => h, fun _ _ _ h1 h2 => sync_sound h1 h2⟩

theorem closed_pids (d : PidSet) (q : Nat) : Closed (fun s => s.demux = d ∧ s.pmtPid = q) := by
  refine ⟨fun _ _ _ _ _ h => h, fun s s' x h1 h => ?_⟩
  unfold syncClock at h
  split at h
  · unfold updateClockPcr at h
    obtain ⟨_, _, h⟩ := bind_eq_ok h
    obtain ⟨_, a, b, rfl⟩ := range_if (s := { s with clockPcr := x, clockPcrReady := true })
      (by simp; intro a b; exact ⟨a, b⟩) h
    exact h1
  · cases h; exact h1

theorem wait_inv {P : St → Prop} (hP : Closed P) {extra : Pmt → Nat} {o : Opt} {s s' : St} {p : Packet} {outs : List Out} {more : Bool}
    (hs : P s) (h : waitReady extra o s p = .ok (s', outs, more)) : P s' := by
  have hs1 : P (savePat s p) := by rw [savePat_eq]; exact hP.misc s _ s.pk s.streaming s.retry hs
  rw [waitReady_eq] at h
  split at h
  · simp only [Except.ok.injEq, Prod.mk.injEq] at h
    rw [← h.1]; exact hP.misc s s.lastPat s.pk s.streaming true hs
  · split at h
    · simp only [Except.ok.injEq, Prod.mk.injEq] at h
      rw [← h.1]; exact hs
    · dsimp only at h
      generalize savePat s p = s1 at h hs1
      split at h
      · simp only [Except.ok.injEq, Prod.mk.injEq] at h
        rw [← h.1]; exact hs1
      · split at h
        · simp only [Except.ok.injEq, Prod.mk.injEq] at h
          rw [← h.1]; exact hs1
        · split at h
          · simp only [Except.ok.injEq, Prod.mk.injEq] at h
            rw [← h.1]; exact hs1
          · obtain ⟨s2, h2, h⟩ := bind_eq_ok h
            have hs2 := hP.sync _ _ _ hs1 h2
            split at h
            · simp only [Except.ok.injEq, Prod.mk.injEq] at h
              rw [← h.1]; exact hs2
            · obtain ⟨c, _, h⟩ := bind_eq_ok h
              split at h
              · simp only [Except.ok.injEq, Prod.mk.injEq] at h
                rw [← h.1]; exact hs2
              · obtain ⟨d, _, h⟩ := bind_eq_ok h
                split at h
                · simp only [Except.ok.injEq, Prod.mk.injEq] at h
                  rw [← h.1]; exact hs2
                · obtain ⟨_, _, h⟩ := bind_eq_ok h
                  obtain ⟨⟨xs, s3⟩, h3, h⟩ := bind_eq_ok h
                  obtain ⟨pk, e⟩ := sendCycle_pk _ _ _ _ h3
                  simp only [Except.ok.injEq, Prod.mk.injEq] at h
                  rw [← h.1, e]
                  split
                  · exact hP.misc s2 s2.lastPat pk true s2.retry hs2
                  · exact hP.misc s2 [] pk true s2.retry hs2

theorem forward_inv {P : St → Prop} (hP : Closed P) {extra : Pmt → Nat} {s s' : St} {p : Packet} {outs : List Out} {more : Bool}
    (hs : P s) (h : forward extra s p = .ok (s', outs, more)) : P s' := by
  unfold forward at h
  split at h
  · obtain ⟨⟨y, s1⟩, h1, h⟩ := bind_eq_ok h
    simp only [Except.ok.injEq, Prod.mk.injEq] at h
    obtain ⟨pk, e⟩ := nextPmt_pk h1
    rw [← h.1, e]; exact hP.misc s s.lastPat pk s.streaming s.retry hs
  · split at h <;>
    · simp only [Except.ok.injEq, Prod.mk.injEq] at h
      rw [← h.1]; exact hs

theorem strm_inv {P : St → Prop} (hP : Closed P) {extra : Pmt → Nat} {s s' : St} {p : Packet} {outs : List Out} {more : Bool}
    (hs : P s) (h : doStreaming extra s p = .ok (s', outs, more)) : P s' := by
  unfold doStreaming at h
  split at h
  · simp only [Except.ok.injEq, Prod.mk.injEq] at h
    rw [← h.1]; exact hs
  · split at h
    · split at h
      · simp only [Except.ok.injEq, Prod.mk.injEq] at h
        rw [← h.1]; exact hs
      · obtain ⟨s2, h2, h⟩ := bind_eq_ok h
        have hs2 := hP.sync _ _ _ hs h2
        split at h
        · simp only [Except.ok.injEq, Prod.mk.injEq] at h
          rw [← h.1]; exact hs2
        · obtain ⟨c, _, h⟩ := bind_eq_ok h
          split at h
          · simp only [Except.ok.injEq, Prod.mk.injEq] at h
            rw [← h.1]; exact hs2
          · exact forward_inv hP hs2 h
    · exact forward_inv hP hs h

/-! ### Whole histories -/

theorem lastPat_empty {ps l : List Packet} (h : LastPat ps l) : l = [] ↔ ∀ p ∈ ps, p.pid ≠ 0 := by
  obtain ⟨a, h1, _, h3⟩ := h
  constructor
  · rintro rfl p hp h0
    have : a = [] := by
      apply Classical.byContradiction
      intro ha
      obtain ⟨_, h, _⟩ := h3 ha
      cases h
    rw [this, List.append_nil] at h1
    have hm : p ∈ ps.filter (·.pid = 0) := by simp [hp, h0]
    rw [h1] at hm
    cases hm
  · intro h
    have : ps.filter (·.pid = 0) = [] := by
      rw [List.filter_eq_nil_iff]
      intro p hp
      simpa using h p hp
    rw [this] at h1
    simp only [List.nil_eq, List.append_eq_nil_iff] at h1
    exact h1.2

theorem lastPat_exists (ps : List Packet) : ∃ l, LastPat ps l := by
  generalize hq : ps.filter (·.pid = 0) = qs
  have key : ∀ qs : List Packet, ∃ a l, qs = a ++ l ∧ (∀ p ∈ l.tail, p.pusi = false) ∧
      (a ≠ [] → ∃ p, l.head? = some p ∧ p.pusi = true) := by
    intro qs
    induction qs with
    | nil => exact ⟨[], [], rfl, by simp, by simp⟩
    | cons q qs ih =>
      obtain ⟨a, l, h1, h2, h3⟩ := ih
      cases a with
      | cons x a => exact ⟨q :: x :: a, l, by rw [h1]; rfl, h2, fun _ => h3 (by simp)⟩
      | nil =>
        cases l with
        | nil => exact ⟨[], [q], by rw [h1]; rfl, by simp, by simp⟩
        | cons x l =>
          cases hx : x.pusi with
          | true => exact ⟨[q], x :: l, by rw [h1]; rfl, h2, fun _ => ⟨x, rfl, hx⟩⟩
          | false =>
            refine ⟨[], q :: x :: l, by rw [h1]; rfl, ?_, by simp⟩
            intro p hp
            rcases List.mem_cons.1 hp with rfl | hp
            · exact hx
            · exact h2 p hp
  obtain ⟨a, l, h1, h2, h3⟩ := key qs
  exact ⟨l, a, by rw [← h1]; exact hq, h2, h3⟩

theorem lastPat_unique {ps l l' : List Packet} (h : LastPat ps l) (h' : LastPat ps l') : l = l' := by
  have key : ∀ {a l a' l' : List Packet}, a ++ l = a' ++ l' → (∀ p ∈ l.tail, p.pusi = false) →
      (a' ≠ [] → ∃ p, l'.head? = some p ∧ p.pusi = true) → a' = a ∨ a'.length < a.length ∨ False := by
    intro a l a' l' e h1 h2
    rcases List.append_eq_append_iff.1 e with ⟨c, rfl, rfl⟩ | ⟨c, rfl, rfl⟩
    · cases c with
      | nil => exact .inl (by simp)
      | cons x c =>
        exfalso
        obtain ⟨p, hp, hu⟩ := h2 (by simp)
        cases l' with
        | nil => cases hp
        | cons y l' =>
          obtain rfl : y = p := Option.some.inj hp
          have := h1 y (by simp)
          rw [this] at hu
          cases hu
    · cases c with
      | nil => exact .inl (by simp)
      | cons x c => exact .inr (.inl (by simp))
  obtain ⟨a, e, h1, h2⟩ := h
  obtain ⟨a', e', h1', h2'⟩ := h'
  have e0 := e.symm.trans e'
  have ha : a' = a := by
    rcases key e0 h1 h2' with h | h | h
    · exact h
    · rcases key e0.symm h1' h2 with h' | h' | h'
      · exact h'.symm
      · omega
      · exact h'.elim
    · exact h.elim
  subst ha
  exact List.append_cancel_left e0

theorem packets_map (l : List Table) : packets (l.map .tab) = [] := by
  induction l with
  | nil => rfl
  | cons t l ih => simpa [packets] using ih

/-- The state after a history, with all that is needed. -/
structure Full (extra : Pmt → Nat) (o : Opt) (s : St) (pre : List Item) : Prop where
  hist : Hist extra o s pre
  sound : Sound s
  track : Track o s (tables (events pre))

theorem full_init (extra : Pmt → Nat) (o : Opt) : Full extra o (init o) [] :=
  ⟨hist_init extra o, fun h => by simp [init] at h, track_init o⟩

theorem handed_mem {W : List Table → Nat → Prop} {pid : Nat} {rs ts log : List Table}
    (h : Handed W pid rs ts log) : ∀ t ∈ log, t ∈ ts := by
  induction h with
  | nil => exact fun _ h => by cases h
  | take _ _ ih =>
    intro u hu
    rcases List.mem_cons.1 hu with rfl | hu
    · exact List.mem_cons_self
    · exact List.mem_cons_of_mem _ (ih u hu)
  | skip _ _ ih => exact fun u hu => List.mem_cons_of_mem _ (ih u hu)

theorem latestEvent_tabs {o : Opt} : ∀ (l : List Table) (evs : List Ev), latestEvent o evs ≠ none →
    latestEvent o (evs ++ l.map .tab) ≠ none := by
  intro l
  induction l with
  | nil => intro evs h; simpa using h
  | cons t l ih =>
    intro evs h
    rw [show evs ++ (t :: l).map Ev.tab = (evs ++ [.tab t]) ++ l.map .tab by simp]
    apply ih
    rw [latestEvent_tab]
    cases ((serviceEit o.sid t).bind (listedIn o.eid)) <;> simp [h]

/-- Deciding on the packet fails exactly if the packet is bad. -/
theorem decide_error {extra : Pmt → Nat} {o : Opt} {s s1 : St} {pre : List Item} {i : Input} {log : List Table}
    (hH : Hist extra o s pre) (hf : feedDemux St.demux (handleTable o) i.packet.pid i.tables s = .ok (s1, log))
    (hs : Sound s1) (hpat : o.preStreaming = true → i.packet.pid = 0 →
      ∀ x, ¬ HasPcr o (events pre ++ log.map .tab) i.packet x) :
    (∃ f, (if s1.streaming then doStreaming extra s1 i.packet else waitReady extra o s1 i.packet) = .error f) ↔
      (¬ ∃ t ∈ log, Cancels o (Started ReachedNoWrap o pre) t) ∧
        (BadPacket o pre ⟨i.packet, log, [], true⟩ ∨ BadStart o pre ⟨i.packet, log, [], true⟩) := by
  obtain ⟨hI1, hsame, hstop⟩ := feed_spec hH.inv hf
  have hnp1 := feed_noPat hH.inv hH.noPat hf
  rw [hH.stop] at hstop
  simp only [Bool.false_eq_true, false_or] at hstop
  simp only [cancels_congr hH.streaming] at hstop
  have hst1 : s1.streaming = true ↔ Started ReachedNoWrap o pre := by
    rw [hsame.streaming]; exact hH.streaming
  have hbad : BadPcr o (events pre ++ log.map .tab) i.packet ↔
      ∃ x, HasPcr o (before pre ⟨i.packet, log, [], true⟩) i.packet x ∧
        ((OutOfRange x ∧ ∃ a b, Range o (upto pre ⟨i.packet, log, [], true⟩) a b) ∨
          Unsound o (upto pre ⟨i.packet, log, [], true⟩)) := Iff.rfl
  unfold BadPacket BadStart
  simp only
  rw [← hbad, startCond_iff, endCond_iff]
  have hbef : before pre ⟨i.packet, log, [], true⟩ = events pre ++ log.map .tab := rfl
  rw [hbef]
  simp only
  cases hst : s1.streaming with
  | true =>
    have hS := hst1.1 hst
    simp only [if_true, hS, not_true_eq_false, false_and, false_or, or_false, true_and]
    have hst0 : s.streaming = true := by rw [← hsame.streaming]; exact hst
    by_cases hsp : s1.stop = true
    · refine iff_of_false ?_ (fun h => h.1 ?_)
      · unfold doStreaming
        rw [if_pos hsp]
        rintro ⟨_, h⟩; cases h
      · simpa [hS] using hstop.1 hsp
    · have hnc : ¬ ∃ t ∈ log, Cancels o True t := fun h => hsp (hstop.2 (by simpa [hS] using h))
      have hrdy := hH.ready hst0
      have hr1 : s1.pcrPidReady = true := by
        rw [hI1.pcrReady]
        rw [hH.inv.pcrReady] at hrdy
        obtain ⟨x, hx⟩ := Option.isSome_iff_exists.1 hrdy.1
        rw [pmtsOf_append, List.getLast?_append, hx]
        simp
      have he1 : s1.eventTimeReady = true := by
        rw [event_iff hI1]
        exact latestEvent_tabs _ _ ((event_iff hH.inv).1 hrdy.2)
      have hpat1 : latest usablePat (tables (events pre ++ log.map .tab)) ≠ none :=
        latest_isSome_append (hH.pat hst0) _
      rw [strm_error hI1 hs hnp1 (by simpa using hsp) hr1 he1, pmtPid_iff hI1 hpat1]
      simp only [hnc, not_false_eq_true, true_and]
  | false =>
    have hS : ¬ Started ReachedNoWrap o pre := by rw [← hst1, hst]; simp
    have hst0 : s.streaming = false := by rw [← hsame.streaming]; exact hst
    simp only [Bool.false_eq_true, if_false, hS, not_false_eq_true, true_and, false_and, or_false]
    by_cases hsp : s1.stop = true
    · refine iff_of_false ?_ (fun h => h.1 ?_)
      · rw [waitReady_eq]
        rw [if_pos hsp]
        rintro ⟨_, h⟩; cases h
      · simpa [hS] using hstop.1 hsp
    · have hnc : ¬ ∃ t ∈ log, Cancels o False t := fun h => hsp (hstop.2 (by simpa [hS] using h))
      have hcur1 : s1.pk.cur = none := by
        rw [hsame.cur, hH.cur, hH.none hst0]; rfl
      rw [wait_error hI1 hs hnp1 (by simpa using hsp) hcur1 hpat]
      simp only [hnc, not_false_eq_true, true_and]
      have hlp : o.preStreaming = false → ((savePat s1 i.packet).lastPat = [] ↔
          ∀ p ∈ packets (upto pre ⟨i.packet, log, [], true⟩), p.pid ≠ 0x00) := by
        intro hps
        have h0 := hH.lastPat hst0 hps
        rw [← hsame.lastPat] at h0
        rw [lastPat_empty (lastPat_save (p := i.packet) h0)]
        have : packets (upto pre ⟨i.packet, log, [], true⟩) = packets (events pre) ++ [i.packet] := by
          simp only [upto, before, packets, List.filterMap_append]
          have := packets_map log
          simp only [packets] at this
          rw [this]
          simp
        rw [this]
      cases hps : o.preStreaming with
      | true => simp
      | false =>
        simp only [true_and, hlp hps]
        constructor
        · rintro (h | ⟨h, h' | h'⟩)
          · exact .inl (.inl h)
          · exact .inl (.inr ⟨h, h'⟩)
          · exact .inr ⟨h, h'⟩
        · rintro ((h | h) | h)
          · exact .inl h
          · exact .inr ⟨h.1, .inl h.2⟩
          · exact .inr ⟨h.1, .inr h.2⟩

theorem step_exact {extra : Pmt → Nat} {o : Opt} {s : St} {pre : List Item} {i : Input}
    (hF : Full extra o s pre) (hi : o.preStreaming = true → i.packet.pid = 0 → i.packet.pcr = none ∨
      ((∀ pmt ∈ pmtsOf o (events pre), pmt.pcrPid ≠ 0) ∧
        ∀ t ∈ i.tables, ∀ pmt, validPmt o.sid t = some pmt → pmt.pcrPid ≠ 0)) :
    ((∃ f, step extra o s i = .error f) ↔ Unfilterable o pre i) ∧
    ∀ s' log outs more, step extra o s i = .ok (s', log, outs, more) →
      Handed (Looked o.sid) i.packet.pid (tables (events pre)) i.tables log ∧
      (more = true → Full extra o s' (pre ++ [⟨i.packet, log, outs, more⟩])) := by
  obtain ⟨log, hlog, hfeed⟩ := feed_exact hF.hist.inv hF.sound hF.track i.packet.pid i.tables
  have hpat : o.preStreaming = true → i.packet.pid = 0 →
      ∀ x, ¬ HasPcr o (events pre ++ log.map .tab) i.packet x := by
    rintro hps h0 x ⟨pmt, h1, h2, h3⟩
    rcases hi hps h0 with h | ⟨ha, hb⟩
    · rw [h] at h3; cases h3
    · have hm := List.mem_of_getLast? h1
      refine absurd (h2.symm.trans h0) ?_
      rw [pmtsOf_append, List.mem_append] at hm
      rcases hm with hm | hm
      · exact ha pmt hm
      · simp only [pmtsOf, tables_map, List.mem_filterMap] at hm
        obtain ⟨t, ht, hv⟩ := hm
        exact hb t (handed_mem hlog t ht) pmt hv
  have huniq : Unfilterable o pre i ↔
      ((∃ a t b, log = a ++ t :: b ∧ (Missing o.sid t ∨ TooLong o t ∨ Unsound o (events pre ++ (a ++ [t]).map .tab))) ∨
       ((¬ ∃ t ∈ log, Cancels o (Started ReachedNoWrap o pre) t) ∧
        (BadPacket o pre ⟨i.packet, log, [], true⟩ ∨ BadStart o pre ⟨i.packet, log, [], true⟩))) := by
    constructor
    · rintro (⟨log', h1, h2⟩ | ⟨pats, log', h1, h2, h3, _⟩)
      · rw [hlog.unique h1]; exact h2.imp id fun h => ⟨h.1, .inl h.2⟩
      · rw [hlog.unique h1]; exact .inr ⟨h2, .inr h3⟩
    · rintro (h | ⟨h1, h | h⟩)
      · exact .inl ⟨log, hlog, .inl h⟩
      · exact .inl ⟨log, hlog, .inr ⟨h1, h⟩⟩
      · refine .inr ?_
        cases hps : o.preStreaming with
        | true => exact ⟨[], log, hlog, h1, h, .inl ⟨hps, rfl⟩⟩
        | false =>
          obtain ⟨l, hl⟩ := lastPat_exists (packets (events pre) ++ [i.packet])
          exact ⟨l.map .orig, log, hlog, h1, h, .inr ⟨hps, l, hl, rfl⟩⟩
  rw [huniq]
  rcases hfeed with ⟨s1, hf, hs1, hT1, hnb⟩ | ⟨⟨f, hf⟩, hb⟩
  · have hd := decide_error hF.hist hf hs1 hpat
    refine ⟨?_, ?_⟩
    · rw [or_iff_right hnb, ← hd]
      unfold step
      rw [hf]
      simp only [ok_bind]
      cases hst : s1.streaming with
      | true =>
        simp only [if_true]
        cases doStreaming extra s1 i.packet with
        | error f => exact iff_of_true ⟨f, rfl⟩ ⟨f, rfl⟩
        | ok r => exact iff_of_false (by rintro ⟨_, h⟩; cases h) (by rintro ⟨_, h⟩; cases h)
      | false =>
        simp only [Bool.false_eq_true, if_false]
        cases waitReady extra o s1 i.packet with
        | error f => exact iff_of_true ⟨f, rfl⟩ ⟨f, rfl⟩
        | ok r => exact iff_of_false (by rintro ⟨_, h⟩; cases h) (by rintro ⟨_, h⟩; cases h)
    · intro s' log' outs more h
      have h0 := h
      unfold step at h
      rw [hf] at h
      simp only [ok_bind] at h
      have hsd : log' = log ∧ s'.demux = s1.demux ∧ s'.pmtPid = s1.pmtPid ∧ Sound s' := by
        split at h
        · obtain ⟨⟨s2, outs2, more2⟩, hd, h⟩ := bind_eq_ok h
          simp only [Except.ok.injEq, Prod.mk.injEq] at h
          obtain ⟨rfl, rfl, rfl, rfl⟩ := h
          have := strm_inv (closed_pids s1.demux s1.pmtPid) ⟨rfl, rfl⟩ hd
          exact ⟨rfl, this.1, this.2, strm_inv closed_sound hs1 hd⟩
        · obtain ⟨⟨s2, outs2, more2⟩, hd, h⟩ := bind_eq_ok h
          simp only [Except.ok.injEq, Prod.mk.injEq] at h
          obtain ⟨rfl, rfl, rfl, rfl⟩ := h
          have := wait_inv (closed_pids s1.demux s1.pmtPid) ⟨rfl, rfl⟩ hd
          exact ⟨rfl, this.1, this.2, wait_inv closed_sound hs1 hd⟩
      obtain ⟨rfl, hd1, hd2, hsnd⟩ := hsd
      refine ⟨hlog, fun hm => ⟨(step_spec hF.hist hpat h0).2 hm, hsnd, ?_⟩⟩
      have : tables (events (pre ++ [⟨i.packet, log', outs, more⟩])) = tables (events pre) ++ log' := by
        simp only [events_snoc, upto, before, tables_append, tables_map, tables_pkt, List.append_nil]
      rw [this]
      exact ⟨by rw [hd2]; exact hT1.pmt, by rw [hd1]; exact hT1.demux⟩
  · refine ⟨iff_of_true ⟨f, ?_⟩ (.inl hb), ?_⟩
    · unfold step
      rw [hf]; rfl
    · intro s' log' outs more h
      unfold step at h
      rw [hf] at h
      cases h

/-- What is sent before the filter fails. -/
theorem announced_exact {extra : Pmt → Nat} {o : Opt} {s : St} {pre : List Item} {i : Input}
    (hF : Full extra o s pre) (hi : o.preStreaming = true → i.packet.pid = 0 → i.packet.pcr = none ∨
      ((∀ pmt ∈ pmtsOf o (events pre), pmt.pcrPid ≠ 0) ∧
        ∀ t ∈ i.tables, ∀ pmt, validPmt o.sid t = some pmt → pmt.pcrPid ≠ 0)) :
    (FailsAtOnce o pre i → announced o s i = []) ∧
    (¬ FailsAtOnce o pre i → ∀ pats, FailsAtStart o pre i pats → announced o s i = pats) := by
  obtain ⟨log, hlog, hfeed⟩ := feed_exact hF.hist.inv hF.sound hF.track i.packet.pid i.tables
  have hpat : o.preStreaming = true → i.packet.pid = 0 →
      ∀ x, ¬ HasPcr o (events pre ++ log.map .tab) i.packet x := by
    rintro hps h0 x ⟨pmt, h1, h2, h3⟩
    rcases hi hps h0 with h | ⟨ha, hb⟩
    · rw [h] at h3; cases h3
    · have hm := List.mem_of_getLast? h1
      refine absurd (h2.symm.trans h0) ?_
      rw [pmtsOf_append, List.mem_append] at hm
      rcases hm with hm | hm
      · exact ha pmt hm
      · simp only [pmtsOf, tables_map, List.mem_filterMap] at hm
        obtain ⟨t, ht, hv⟩ := hm
        exact hb t (handed_mem hlog t ht) pmt hv
  have huniq : FailsAtOnce o pre i ↔
      ((∃ a t b, log = a ++ t :: b ∧ (Missing o.sid t ∨ TooLong o t ∨ Unsound o (events pre ++ (a ++ [t]).map .tab))) ∨
       ((¬ ∃ t ∈ log, Cancels o (Started ReachedNoWrap o pre) t) ∧ BadPacket o pre ⟨i.packet, log, [], true⟩)) := by
    constructor
    · rintro ⟨log', h1, h2⟩
      rw [hlog.unique h1]; exact h2
    · exact fun h => ⟨log, hlog, h⟩
  rw [huniq]
  rcases hfeed with ⟨s1, hf, hs1, hT1, hnb⟩ | ⟨⟨f, hf⟩, hb⟩
  · obtain ⟨hI1, hsame, hstop⟩ := feed_spec hF.hist.inv hf
    rw [hF.hist.stop] at hstop
    simp only [Bool.false_eq_true, false_or] at hstop
    simp only [cancels_congr hF.hist.streaming] at hstop
    have hst1 : s1.streaming = true ↔ Started ReachedNoWrap o pre := by
      rw [hsame.streaming]; exact hF.hist.streaming
    rw [or_iff_right hnb]
    unfold announced
    rw [hf]
    dsimp only
    by_cases hst : s1.streaming = true
    · rw [if_pos hst]
      refine ⟨fun _ => rfl, ?_⟩
      rintro _ pats ⟨log', _, _, ⟨h, _⟩, _⟩
      exact absurd (hst1.1 hst) h
    · rw [if_neg hst]
      have hS : ¬ Started ReachedNoWrap o pre := by rw [← hst1]; exact hst
      have hst0 : s.streaming = false := by rw [← hsame.streaming]; simpa using hst
      by_cases hsp : s1.stop = true
      · have hc := hstop.1 hsp
        refine ⟨fun h => absurd hc h.1, ?_⟩
        rintro _ pats ⟨log', h1, h2, _⟩
        rw [hlog.unique h1] at hc
        exact absurd hc h2
      · have hsp : s1.stop = false := by simpa using hsp
        have hnc : ¬ ∃ t ∈ log, Cancels o (Started ReachedNoWrap o pre) t := fun h => by
          rw [hstop.2 h] at hsp; cases hsp
        have hwe := waitStart_error hI1 hs1 hsp hpat
        have hlp : o.preStreaming = false → LastPat (packets (events pre) ++ [i.packet]) (savePat s1 i.packet).lastPat := by
          intro hps
          apply lastPat_save
          rw [hsame.lastPat]
          exact hF.hist.lastPat hst0 hps
        have hup : packets (upto pre ⟨i.packet, log, [], true⟩) = packets (events pre) ++ [i.packet] := by
          simp only [upto, before, packets, List.filterMap_append]
          have := packets_map log
          simp only [packets] at this
          rw [this]
          simp
        have hbad : BadPacket o pre ⟨i.packet, log, [], true⟩ ↔ ∃ f, waitStart o s1 i.packet = .error f := by
          rw [hwe]
          unfold BadPacket
          rw [startCond_iff]
          simp only [hS, not_false_eq_true, true_and, false_and, or_false]
          refine or_congr Iff.rfl ?_
          have hnc' : ¬ ∃ t ∈ log, Cancels o False t := by simpa [hS] using hnc
          simp only [hnc', not_false_eq_true, true_and]
          refine and_congr Iff.rfl ?_
          constructor
          · rintro ⟨h1, h2⟩
            exact ⟨h1, (lastPat_empty (hlp h1)).2 (by rw [← hup]; exact h2)⟩
          · rintro ⟨h1, h2⟩
            exact ⟨h1, by rw [hup]; exact (lastPat_empty (hlp h1)).1 h2⟩
        cases hw : waitStart o s1 i.packet with
        | error e =>
          refine ⟨fun _ => rfl, fun h => absurd ⟨hnc, hbad.2 ⟨e, hw⟩⟩ h⟩
        | ok r =>
          refine ⟨fun h => (by obtain ⟨f, h⟩ := hbad.1 h.2; rw [hw] at h; cases h), ?_⟩
          rintro hno pats hlate
          -- the filter fails, so the programme starts
          have hfail := ((step_exact hF hi).1).2 (.inr ⟨pats, hlate⟩)
          obtain ⟨s2, r⟩ := r
          cases r with
          | some r =>
            exfalso
            obtain ⟨f, hfail⟩ := hfail
            unfold step at hfail
            rw [hf] at hfail
            simp only [ok_bind] at hfail
            rw [if_neg hst] at hfail
            unfold waitReady at hfail
            rw [hw] at hfail
            cases hfail
          | none =>
            obtain ⟨log', _, _, _, ⟨hps, rfl⟩ | ⟨hps, l, hl, rfl⟩⟩ := hlate
            · simp [pendingPat, hps]
            · simp only [pendingPat, hps, Bool.false_eq_true, if_false]
              rw [waitStart_lastPat hw, lastPat_unique hl (hlp hps)]
  · refine ⟨fun _ => ?_, fun h => absurd (.inl hb) h⟩
    unfold announced
    rw [hf]

/-- As `PcrNotOnPat`, after a history. -/
def Free (o : Opt) (pre : List Item) (is : List Input) : Prop :=
  o.preStreaming = true → (∀ i ∈ is, i.packet.pid = 0 → i.packet.pcr = none) ∨
    ((∀ pmt ∈ pmtsOf o (events pre), pmt.pcrPid ≠ 0) ∧
      ∀ i ∈ is, ∀ t ∈ i.tables, ∀ pmt, validPmt o.sid t = some pmt → pmt.pcrPid ≠ 0)

theorem free_init {o : Opt} {is : List Input} (h : PcrNotOnPat o is) : Free o [] is :=
  fun hps => (h hps).imp id fun h => ⟨by simp [pmtsOf, tables, events], h⟩

theorem Free.head {o : Opt} {pre : List Item} {i : Input} {is : List Input} (h : Free o pre (i :: is)) :
    o.preStreaming = true → i.packet.pid = 0 → i.packet.pcr = none ∨
      ((∀ pmt ∈ pmtsOf o (events pre), pmt.pcrPid ≠ 0) ∧
        ∀ t ∈ i.tables, ∀ pmt, validPmt o.sid t = some pmt → pmt.pcrPid ≠ 0) :=
  fun hps h0 => (h hps).imp (fun h => h i List.mem_cons_self h0) fun h => ⟨h.1, h.2 i List.mem_cons_self⟩

theorem Free.tail {o : Opt} {pre : List Item} {i : Input} {is : List Input} (h : Free o pre (i :: is))
    {it : Item} (hl : ∀ t ∈ it.handled, t ∈ i.tables) : Free o (pre ++ [it]) is := by
  intro hps
  refine (h hps).imp (fun h j hj => h j (List.mem_cons_of_mem _ hj)) fun h => ⟨fun pmt hm => ?_, fun j hj => h.2 j (List.mem_cons_of_mem _ hj)⟩
  rw [events_snoc, upto, before, pmtsOf_append, pmtsOf_append] at hm
  simp only [List.mem_append] at hm
  rcases hm with (hm | hm) | hm
  · exact h.1 pmt hm
  · simp only [pmtsOf, tables_map, List.mem_filterMap] at hm
    obtain ⟨t, ht, hv⟩ := hm
    exact h.2 i List.mem_cons_self t (hl t ht) pmt hv
  · simp [pmtsOf, tables] at hm

theorem run_exact {extra : Pmt → Nat} {o : Opt} : ∀ (is : List Input) (s : St) (pre0 : List Item),
    Full extra o s pre0 → Free o pre0 is →
    ((∃ f, run extra o s is = .error f) ↔ ∃ pre i post s' items, is = pre ++ i :: post ∧
      run extra o s pre = .ok (s', items) ∧ (∀ it ∈ items, it.more = true) ∧ Unfilterable o (pre0 ++ items) i) := by
  intro is
  induction is with
  | nil =>
    intro s pre0 _ _
    refine iff_of_false (by rintro ⟨_, h⟩; cases h) ?_
    rintro ⟨pre, i, post, _, _, h, _⟩
    simp at h
  | cons i is ih =>
    intro s pre0 hF hP
    have hst := step_exact (i := i) hF hP.head
    cases hs : step extra o s i with
    | error f =>
      refine iff_of_true ⟨f, ?_⟩ ⟨[], i, is, s, [], rfl, rfl, by simp, ?_⟩
      · unfold run; rw [hs]; rfl
      · rw [List.append_nil]; exact hst.1.1 ⟨f, hs⟩
    | ok r =>
      obtain ⟨s1, log, outs, more⟩ := r
      have hnu : ¬ Unfilterable o pre0 i := by
        intro h
        obtain ⟨f, hf⟩ := hst.1.2 h
        rw [hs] at hf; cases hf
      obtain ⟨hh, hful⟩ := hst.2 _ _ _ _ hs
      cases more with
      | false =>
        refine iff_of_false ?_ ?_
        · unfold run
          rw [hs]
          rintro ⟨f, h⟩; cases h
        · rintro ⟨pre, j, post, s', items, e, hr, hm, hu⟩
          cases pre with
          | nil =>
            simp only [List.nil_append, List.cons.injEq] at e
            cases hr
            rw [List.append_nil, ← e.1] at hu
            exact hnu hu
          | cons k pre =>
            simp only [List.cons_append, List.cons.injEq] at e
            rw [← e.1] at hr
            obtain ⟨_, _, _, _, h1, h⟩ := run_cons hr
            rw [hs] at h1
            cases h1
            rcases h with ⟨_, _, rfl⟩ | ⟨h, _⟩
            · have := hm _ List.mem_cons_self
              cases this
            · cases h
      | true =>
        have := ih s1 _ (hful rfl) (hP.tail (handed_mem hh))
        have e : (∃ f, run extra o s (i :: is) = .error f) ↔ ∃ f, run extra o s1 is = .error f := by
          simp only [run, hs, ok_bind, if_true]
          cases run extra o s1 is with
          | error f => exact iff_of_true ⟨f, rfl⟩ ⟨f, rfl⟩
          | ok r => exact iff_of_false (by rintro ⟨_, h⟩; cases h) (by rintro ⟨_, h⟩; cases h)
        rw [e, this]
        constructor
        · rintro ⟨pre, j, post, s', items, rfl, hr, hm, hu⟩
          refine ⟨i :: pre, j, post, s', ⟨i.packet, log, outs, true⟩ :: items, rfl, ?_, ?_, by simpa using hu⟩
          · unfold run
            rw [hs]
            simp only [ok_bind, if_true, hr]
          · intro it hit
            rcases List.mem_cons.1 hit with rfl | hit
            · rfl
            · exact hm it hit
        · rintro ⟨pre, j, post, s', items, e, hr, hm, hu⟩
          cases pre with
          | nil =>
            simp only [List.nil_append, List.cons.injEq] at e
            cases hr
            rw [List.append_nil, ← e.1] at hu
            exact absurd hu hnu
          | cons k pre =>
            simp only [List.cons_append, List.cons.injEq] at e
            rw [← e.1] at hr
            obtain ⟨_, _, _, _, h1, h⟩ := run_cons hr
            rw [hs] at h1
            cases h1
            rcases h with ⟨h, _⟩ | ⟨_, rest, h, rfl⟩
            · cases h
            · exact ⟨pre, j, post, s', rest, e.2, h, fun it hit => hm it (List.mem_cons_of_mem _ hit),
                by simpa using hu⟩

theorem run_full {extra : Pmt → Nat} {o : Opt} : ∀ (is more : List Input) (s s' : St) (pre0 items : List Item),
    Full extra o s pre0 → Free o pre0 (is ++ more) → run extra o s is = .ok (s', items) →
    (∀ it ∈ items, it.more = true) → Full extra o s' (pre0 ++ items) ∧ Free o (pre0 ++ items) more := by
  intro is
  induction is with
  | nil =>
    intro more s s' pre0 items hF hP h _
    cases h
    simpa using ⟨hF, hP⟩
  | cons i is ih =>
    intro more s s' pre0 items hF hP h hm
    have hst := step_exact (i := i) hF (hP.head (is := is ++ more))
    obtain ⟨s1, log, outs, more', h1, h⟩ := run_cons h
    obtain ⟨hh, hful⟩ := hst.2 _ _ _ _ h1
    rcases h with ⟨rfl, _, rfl⟩ | ⟨rfl, rest, hr, rfl⟩
    · have := hm _ (List.mem_singleton.2 rfl)
      cases this
    · have := ih more s1 s' _ rest (hful rfl) (hP.tail (is := is ++ more) (handed_mem hh)) hr
        (fun it hit => hm it (List.mem_cons_of_mem _ hit))
      simpa using this

theorem run_handed {extra : Pmt → Nat} {o : Opt} : ∀ (is : List Input) (s s' : St) (pre0 items : List Item),
    Full extra o s pre0 → Free o pre0 is → run extra o s is = .ok (s', items) → ∀ pre it post, items = pre ++ it :: post →
    ∃ i, is[pre.length]? = some i ∧ i.packet = it.packet ∧
      Handed (Looked o.sid) it.packet.pid (tables (events (pre0 ++ pre))) i.tables it.handled := by
  intro is
  induction is with
  | nil =>
    intro s s' pre0 items _ _ h pre it post e
    cases h
    simp at e
  | cons i is ih =>
    intro s s' pre0 items hF hP h pre it post e
    have hst := step_exact (i := i) hF hP.head
    obtain ⟨s1, log, outs, more, h1, h⟩ := run_cons h
    obtain ⟨hh, hful⟩ := hst.2 _ _ _ _ h1
    cases pre with
    | nil =>
      have : it = ⟨i.packet, log, outs, more⟩ := by
        rcases h with ⟨_, _, rfl⟩ | ⟨_, rest, _, rfl⟩ <;>
        · simp only [List.nil_append, List.cons.injEq] at e
          exact e.1.symm
      subst this
      exact ⟨i, rfl, rfl, by simpa using hh⟩
    | cons a pre =>
      rcases h with ⟨_, _, rfl⟩ | ⟨hm, rest, hr, rfl⟩
      · simp at e
      · simp only [List.cons_append, List.cons.injEq] at e
        obtain ⟨rfl, e⟩ := e
        subst hm
        obtain ⟨j, k1, k2, k3⟩ := ih s1 s' _ rest (hful rfl)
          (hP.tail (handed_mem hh)) hr pre it post e
        exact ⟨j, by simpa using k1, k2, by simpa using k3⟩

end Mirakc.ProgramFilter
