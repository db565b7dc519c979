import Verif.Spec.SeekAborts
import Verif.Proof.StartSeeker
import Verif.Proof.Demux
/-
Exactly which streams make seek-start terminate abnormally.
-/
namespace Mirakc.StartSeeker
open Mirakc.Spec Mirakc.Spec.StartSeeker
open Mirakc.Spec.ServiceFilter (usablePat validPmt latest listed Missing)
open Mirakc.ServiceFilter (latest_some latest_none latest_mem)

theorem never_snoc {sid : Nat} {rs : List Table} {t : Table} :
    Never sid (rs ++ [t]) ↔ Never sid rs ∧ ¬ Transition sid rs t := by
  constructor
  · intro h
    exact ⟨fun a u b e => h a u (b ++ [t]) (by simp [e]), h rs t [] rfl⟩
  · rintro ⟨h1, h2⟩ a u b e
    rcases snoc_split e with ⟨_, rfl, rfl⟩ | ⟨b', _, e⟩
    · exact h2
    · exact h1 _ _ _ e

theorem once_snoc {sid : Nat} {rs : List Table} {t : Table} :
    Once sid (rs ++ [t]) ↔ (Once sid rs ∧ ¬ Transition sid rs t) ∨ (Never sid rs ∧ Transition sid rs t) := by
  constructor
  · rintro ⟨a, u, b, e, h1, h2⟩
    rcases snoc_split e with ⟨rfl, rfl, rfl⟩ | ⟨b', rfl, e'⟩
    · refine .inr ⟨fun a' t' b' e' ht => ?_, h1⟩
      have := h2 a' t' (b' ++ [u]) (by simp [e']) ht
      rw [this] at e'
      simp at e'
    · refine .inl ⟨⟨a, u, b', e', h1, fun a' t' b'' e'' ht => h2 a' t' (b'' ++ [t]) (by simp [e'']) ht⟩, ?_⟩
      intro ht
      have := h2 rs t [] rfl ht
      rw [this] at e'
      simp at e'
  · rintro (⟨⟨a, u, b, rfl, h1, h2⟩, hn⟩ | ⟨hn, ht⟩)
    · refine ⟨a, u, b ++ [t], by simp, h1, fun a' t' b' e ht => ?_⟩
      rcases snoc_split e with ⟨_, rfl, rfl⟩ | ⟨b'', _, e⟩
      · exact absurd ht hn
      · exact h2 _ _ _ e ht
    · refine ⟨rs, t, [], rfl, ht, fun a' t' b' e ht' => ?_⟩
      rcases snoc_split e with ⟨_, rfl, _⟩ | ⟨b'', _, e⟩
      · rfl
      · exact absurd ht' (hn _ _ _ e)

theorem once_not_never {sid : Nat} {rs : List Table} (h : Once sid rs) : ¬ Never sid rs := by
  obtain ⟨a, t, b, e, h1, _⟩ := h
  exact fun hn => hn a t b e h1

/-- What a table does to the watched PIDs. -/
theorem handle_watch {o : Opt} {s s' : St} {rs : List Table} {t : Table} (hT : Tabs o s rs)
    (h : handleTable o s t = .ok s') :
    (∃ pid, listed o.sid t = some pid ∧ t.sourcePid = 0 ∧ ¬ Transition o.sid rs t ∧ s'.pmtPid = pid ∧
      s'.demux = (if s.pmtPid != pidNull then s.demux.remove s.pmtPid else s.demux).add pid) ∨
    (listed o.sid t = none ∧ Transition o.sid rs t ∧ s'.pmtPid = pidNull ∧
      s'.demux = (s.demux.remove s.pmtPid).remove pidPat) ∨
    (listed o.sid t = none ∧ ¬ Transition o.sid rs t ∧ s'.pmtPid = s.pmtPid ∧ s'.demux = s.demux) := by
  unfold handleTable at h
  split at h
  · next pat hb =>
    have hv : validPmt o.sid t = none := by simp [validPmt, hb]
    have hnt := not_transition (rs := rs) hv
    unfold handlePat at h
    by_cases hu : t.sourcePid = 0 ∧ t.valid = true ∧ pat.tsId ≠ 0
    · have hl : listed o.sid t = pat.pmts.find? o.sid := by simp [listed, usablePat, hb, hu, OMap.find?]
      rw [if_neg (by simp [hu.1, pidPat]), if_neg (by simp [hu.2.1]), if_neg (by simp [hu.2.2])] at h
      split at h
      · cases h
      · next pid hpid =>
        simp only [Except.ok.injEq] at h
        subst h
        exact .inl ⟨pid, by rw [hl, hpid], hu.1, hnt, rfl, rfl⟩
    · have hl : listed o.sid t = none := by simp [listed, usablePat, hb, hu]
      have : s' = s := by
        split at h
        · cases h; rfl
        · split at h
          · cases h; rfl
          · split at h
            · cases h; rfl
            · next h1 h2 h3 =>
              exact absurd ⟨by simpa [pidPat] using h1, by simpa using h2, by simpa using h3⟩ hu
      subst this
      exact .inr (.inr ⟨hl, hnt, rfl, rfl⟩)
  · next pmt hb =>
    have hl : listed o.sid t = none := by simp [listed, usablePat, hb]
    unfold handlePmt at h
    by_cases hu : t.valid = true ∧ pmt.serviceId = o.sid
    · have hv : validPmt o.sid t = some pmt := by simp [validPmt, hb, hu]
      rw [if_neg (by simp [hu.1]), if_neg (by simp [hu.2])] at h
      have hch : ((!s.video.isEmpty && s.video != pidsOf (·.isVideo) pmt) ||
          (!s.audio.isEmpty && s.audio != pidsOf (·.isAudio) pmt)) = true ↔
          Transition o.sid rs t := by
        unfold Transition
        rw [hv]
        cases hl : latest (validPmt o.sid) rs with
        | none => rw [hT.video, hT.audio, hl]; simp
        | some p =>
          rw [hT.video, hT.audio, hl]
          simp only [Option.elim, Bool.or_eq_true, differs_iff]
          constructor
          · intro h; exact ⟨p, pmt, rfl, rfl, h⟩
          · rintro ⟨_, _, h1, h2, h⟩; cases h1; cases h2; exact h
      dsimp only at h
      split at h
      · next hc =>
        simp only [Except.ok.injEq] at h
        subst h
        exact .inr (.inl ⟨hl, hch.1 hc, rfl, rfl⟩)
      · next hc =>
        simp only [Except.ok.injEq] at h
        subst h
        exact .inr (.inr ⟨hl, fun h => hc (hch.2 h), rfl, rfl⟩)
    · have hv : validPmt o.sid t = none := by simp [validPmt, hb, hu]
      have : s' = s := by
        split at h
        · cases h; rfl
        · split at h
          · cases h; rfl
          · next h1 h2 => exact absurd ⟨by simpa using h1, by simpa using h2⟩ hu
      subst this
      exact .inr (.inr ⟨hl, not_transition hv, rfl, rfl⟩)
  · next hb1 hb2 =>
    simp only [Except.ok.injEq] at h
    subst h
    have hv : validPmt o.sid t = none := by
      unfold validPmt; split
      · next p hp => exact absurd hp (hb2 _)
      · rfl
    have hup : usablePat t = none := by
      unfold usablePat; split
      · next p hp => exact absurd hp (hb1 _)
      · rfl
    exact .inr (.inr ⟨by simp [listed, hup], not_transition hv, rfl, rfl⟩)

/-- The invariant for arbitrary tables. -/
structure Watch (o : Opt) (s : St) (rs : List Table) : Prop where
  tabs : Tabs o s rs
  pmt : (Never o.sid rs ∧ s.pmtPid = (latest (listed o.sid) rs).getD 0x1FFF) ∨
    (¬ Never o.sid rs ∧ s.pmtPid = 0x1FFF)
  demux : ∀ pid, pid ∈ s.demux ↔ Looked o.sid rs pid

theorem watch_init (o : Opt) : Watch o init [] := by
  have hn : Never o.sid [] := by intro a t b e; simp at e
  refine ⟨tabs_init o, .inl ⟨hn, rfl⟩, fun pid => ?_⟩
  have ho : ¬ Once o.sid [] := fun h => once_not_never h hn
  simp [init, Looked, latest, hn, ho, pidPat]

theorem watch_table {o : Opt} {s s' : St} {t : Table} {rs : List Table} (hF : Watch o s rs)
    (hw : Looked o.sid rs t.sourcePid) (h : handleTable o s t = .ok s') : Watch o s' (rs ++ [t]) := by
  have hT : Tabs o s' (rs ++ [t]) := by
    have := (handle_spec (rs := rs) (ts := []) (by simpa using hF.tabs) h).1
    simpa using this
  rcases handle_watch hF.tabs h with ⟨p, hp, h0, hnt, h1, h2⟩ | ⟨hp, ht, h1, h2⟩ | ⟨hp, hnt, h1, h2⟩
  · have hne : Never o.sid rs := by
      rw [h0] at hw
      rcases hw with ⟨hw, _⟩ | ⟨_, hw, _⟩
      · exact hw
      · cases hw
    have hno : ¬ Once o.sid rs := fun h => once_not_never h hne
    obtain ⟨_, hpm⟩ := hF.pmt.resolve_right (fun h => h.1 hne)
    refine ⟨hT, .inl ⟨never_snoc.2 ⟨hne, hnt⟩, by rw [h1, latest_some _ _ _ hp]; rfl⟩, fun pid => ?_⟩
    rw [h2, hpm]
    simp only [Looked, never_snoc, once_snoc, hne, hno, hnt, latest_some _ _ _ hp, List.mem_append,
      List.mem_singleton, PidSet.add, List.mem_cons, Option.some.injEq]
    cases hla : latest (listed o.sid) rs with
    | none =>
      have hno : ∀ u ∈ rs, listed o.sid u = none := by
        intro u hu
        have : rs.filterMap (listed o.sid) = [] := by
          simpa [latest, List.getLast?_eq_none_iff] using hla
        rw [List.filterMap_eq_nil_iff] at this
        exact this u hu
      simp only [Option.getD_none, pidNull, bne_self_eq_false, Bool.false_eq_true, if_false,
        hF.demux pid, Looked, hla]
      grind
    | some q =>
      obtain ⟨u, hu, hq⟩ := latest_mem hla
      by_cases hn : q = 0x1FFF
      · subst hn
        simp only [Option.getD_some, pidNull, bne_self_eq_false, Bool.false_eq_true, if_false,
          hF.demux pid, Looked, hla]
        grind
      · have : (q != pidNull) = true := by simpa [pidNull] using hn
        simp only [Option.getD_some, this, if_true, PidSet.remove, List.mem_filter, bne_iff_ne,
          hF.demux pid, Looked, hla]
        grind
  · refine ⟨hT, .inr ⟨fun h => (never_snoc.1 h).2 ht, h1⟩, fun pid => ?_⟩
    rw [h2]
    simp only [Looked, never_snoc, once_snoc, ht, latest_none _ _ _ hp, List.mem_append,
      List.mem_singleton, PidSet.remove, List.mem_filter, bne_iff_ne, hF.demux pid, pidPat]
    rcases hF.pmt with ⟨hne, hpm⟩ | ⟨hne, hpm⟩
    · have hno : ¬ Once o.sid rs := fun h => once_not_never h hne
      rw [hpm]
      cases hla : latest (listed o.sid) rs with
      | none =>
        have hno : ∀ u ∈ rs, listed o.sid u = none := by
          intro u hu
          have : rs.filterMap (listed o.sid) = [] := by
            simpa [latest, List.getLast?_eq_none_iff] using hla
          rw [List.filterMap_eq_nil_iff] at this
          exact this u hu
        simp only [Option.getD_none]
        grind
      | some q =>
        simp only [Option.getD_some]
        grind
    · rw [hpm]
      grind
  · refine ⟨hT, ?_, fun pid => ?_⟩
    · rw [h1, latest_none _ _ _ hp]
      rcases hF.pmt with ⟨hne, hpm⟩ | ⟨hne, hpm⟩
      · exact .inl ⟨never_snoc.2 ⟨hne, hnt⟩, hpm⟩
      · exact .inr ⟨fun h => hne (never_snoc.1 h).1, hpm⟩
    · rw [h2, hF.demux pid]
      simp only [Looked, never_snoc, once_snoc, hnt, latest_none _ _ _ hp, List.mem_append, List.mem_singleton]
      grind

/-- A handler fails exactly on a PAT without the service. -/
theorem handle_error {o : Opt} {s : St} {t : Table} :
    (∃ f, handleTable o s t = .error f) ↔ Missing o.sid t := by
  unfold handleTable
  split
  · next pat hb =>
    unfold handlePat
    by_cases hu : t.sourcePid = 0 ∧ t.valid = true ∧ pat.tsId ≠ 0
    · have hup : usablePat t = some pat := by simp [usablePat, hb, hu]
      rw [if_neg (by simp [hu.1, pidPat]), if_neg (by simp [hu.2.1]), if_neg (by simp [hu.2.2])]
      cases hf : pat.pmts.find? o.sid with
      | none =>
        refine iff_of_true ⟨_, rfl⟩ ⟨pat, hup, fun pid hm => ?_⟩
        rw [(OMap.find?_iff _ _ _).2 hm] at hf
        cases hf
      | some pid =>
        refine iff_of_false (by rintro ⟨f, h⟩; cases h) ?_
        rintro ⟨pat', h1, h2⟩
        rw [hup] at h1
        cases h1
        exact h2 pid ((OMap.find?_iff _ _ _).1 hf)
    · have hup : usablePat t = none := by simp [usablePat, hb, hu]
      refine iff_of_false ?_ (by rintro ⟨_, h, _⟩; rw [hup] at h; cases h)
      rintro ⟨f, h⟩
      split at h
      · cases h
      · split at h
        · cases h
        · split at h
          · cases h
          · next h1 h2 h3 =>
            exact absurd ⟨by simpa [pidPat] using h1, by simpa using h2, by simpa using h3⟩ hu
  · next pmt hb =>
    have hup : usablePat t = none := by simp [usablePat, hb]
    refine iff_of_false ?_ (by rintro ⟨_, h, _⟩; rw [hup] at h; cases h)
    rintro ⟨f, h⟩
    unfold handlePmt at h
    dsimp only at h
    repeat' split at h
    all_goals cases h
  · next hb1 hb2 =>
    have hup : usablePat t = none := by
      unfold usablePat; split
      · next p hp => exact absurd hp (hb1 _)
      · rfl
    refine iff_of_false (by rintro ⟨f, h⟩; cases h) (by rintro ⟨_, h, _⟩; rw [hup] at h; cases h)

/-- What the demultiplexer does with a packet. -/
theorem feed_exact {o : Opt} {s : St} {rs : List Table} (hF : Watch o s rs) (pid : Nat) (ts : List Table) :
    ∃ log, Handed (Looked o.sid) pid rs ts log ∧
      ((∃ s', feedDemux St.demux (handleTable o) pid ts s = .ok (s', log) ∧ Watch o s' (rs ++ log) ∧
          ¬ ∃ t ∈ log, Missing o.sid t) ∨
       ((∃ f, feedDemux St.demux (handleTable o) pid ts s = .error f) ∧ ∃ t ∈ log, Missing o.sid t)) := by
  have hs : ∀ log : List Table, Spoilt (fun _ t => Missing o.sid t) rs log ↔ ∃ t ∈ log, Missing o.sid t := by
    intro log
    constructor
    · rintro ⟨a, t, b, rfl, h⟩
      exact ⟨t, by simp, h⟩
    · rintro ⟨t, ht, h⟩
      obtain ⟨a, b, rfl⟩ := List.append_of_mem ht
      exact ⟨a, t, b, rfl, h⟩
  obtain ⟨log, h1, h2⟩ := feedDemux_exact (watched := St.demux) (handle := handleTable o) (pid := pid)
    (W := Looked o.sid) (bad := fun _ t => Missing o.sid t) (Watch o)
    (fun s rs h => h.demux pid) (fun s t s' rs hF e w h => watch_table hF (by rw [e]; exact w) h)
    (fun s t rs _ _ _ => handle_error) ts s rs hF
  refine ⟨log, h1, ?_⟩
  rw [hs] at h2
  exact h2

/-- When seeking fails. -/
theorem seek_error {o : Opt} {s : St} {p : Packet}
    (he : s.endPcr = -1 ∨ (0 ≤ s.endPcr ∧ s.endPcr < 2 ^ 33 * 300))
    (hm : o.maxPackets ≠ 0 → s.packets.length < o.maxPackets) :
    (∃ f, seek o s p = .error f) ↔
      (0 < s.transition ∧ s.packets.length < s.patIndex) ∨
      (s.transition = 0 ∧ ¬ (o.maxPackets ≠ 0 ∧ s.packets.length + 1 = o.maxPackets) ∧
        s.pcrPid ≠ 0x1FFF ∧ p.pid = s.pcrPid ∧
        ∃ x, p.pcr = some x ∧ ((s.endPcr = -1 ∧ ¬ DurationFits o) ∨
          (s.endPcr ≠ -1 ∧ ¬ (0 ≤ x ∧ x < 2 ^ 33 * 300)))) := by
  have hlen : (s.packets ++ [p]).length = s.packets.length + 1 := by simp
  unfold seek
  dsimp only
  split
  · next hpos =>
    split
    · next hq =>
      rw [List.getElem?_eq_none_iff, hlen] at hq
      exact iff_of_true ⟨_, rfl⟩ (.inl ⟨hpos, by omega⟩)
    · next hq =>
      obtain ⟨hq, _⟩ := List.getElem?_eq_some_iff.1 hq
      rw [hlen] at hq
      refine iff_of_false (by rintro ⟨f, h⟩; cases h) ?_
      rintro (⟨_, h⟩ | ⟨h, _⟩) <;> omega
  · next hpos =>
    rw [show ((0 < s.transition ∧ s.packets.length < s.patIndex) ∨ _) = _ from
      propext (or_iff_right (fun h => hpos h.1))]
    have h0 : s.transition = 0 := by omega
    split
    · next hc =>
      simp only [Bool.and_eq_true, bne_iff_ne, ne_eq, beq_iff_eq, hlen] at hc
      exact iff_of_false (by rintro ⟨f, h⟩; cases h) (fun h => h.2.1 ⟨hc.1, hc.2.symm⟩)
    · next hc =>
      have hnf : ¬ (o.maxPackets ≠ 0 ∧ s.packets.length + 1 = o.maxPackets) := by
        simp only [Bool.and_eq_true, bne_iff_ne, ne_eq, beq_iff_eq, hlen] at hc
        exact fun h => hc ⟨h.1, h.2.symm⟩
      rw [assert_of (by
        rw [hlen]
        simp only [Bool.or_eq_true, beq_iff_eq, decide_eq_true_eq]
        by_cases hz : o.maxPackets = 0
        · exact Or.inl hz
        · have := hm hz
          exact Or.inr (by omega))]
      simp only [ok_bind]
      split
      · next hpid =>
        refine iff_of_false (by rintro ⟨f, h⟩; cases h) ?_
        rintro ⟨_, _, g1, g2, _⟩
        simp only [Bool.or_eq_true, beq_iff_eq, bne_iff_ne, pidNull] at hpid
        rcases hpid with e | e
        · exact g1 e
        · exact e g2.symm
      · next hpid =>
        simp only [Bool.or_eq_true, beq_iff_eq, bne_iff_ne, pidNull, not_or, ne_eq, Decidable.not_not] at hpid
        split
        · next hp =>
          refine iff_of_false (by rintro ⟨f, h⟩; cases h) ?_
          rintro ⟨_, _, _, _, x, hx, _⟩
          rw [hp] at hx
          cases hx
        · next x hp =>
          split
          · next hneg =>
            have he2 : s.endPcr = -1 := by
              rcases he with he | he
              · exact he
              · omega
            by_cases hfit : DurationFits o
            · rw [ticks_fit hfit]
              refine iff_of_false (by rintro ⟨f, h⟩; cases h) ?_
              rintro ⟨_, _, _, _, _, _, ⟨_, h⟩ | ⟨h, _⟩⟩
              · exact h hfit
              · exact h he2
            · refine iff_of_true ⟨.overflow, ?_⟩ ⟨h0, hnf, hpid.1, hpid.2.symm, x, hp, .inl ⟨he2, hfit⟩⟩
              rw [int64_error (by
                unfold DurationFits at hfit
                have : o.maxDuration * pcrTicksPerMs = o.maxDuration * 27000 := rfl
                omega)]
              rfl
          · next hneg =>
            have he2 := he.resolve_left (by intro e; rw [e] at hneg; omega)
            have hne : s.endPcr ≠ -1 := by omega
            by_cases hv : 0 ≤ x ∧ x < 2 ^ 33 * 300
            · obtain ⟨c, hc⟩ := ProgramFilter.compare_total ((isValidPcr_iff x).2 (by omega))
                ((isValidPcr_iff s.endPcr).2 (by omega))
              rw [hc]
              simp only [ok_bind]
              refine iff_of_false ?_ ?_
              · rintro ⟨f, h⟩
                split at h <;> cases h
              · rintro ⟨_, _, _, _, y, hy, ⟨hb, _⟩ | ⟨_, hb⟩⟩
                · exact hne hb
                rw [hp] at hy
                cases hy
                exact hb hv
            · refine iff_of_true ⟨.assertFail, ?_⟩ ⟨h0, hnf, hpid.1, hpid.2.symm, x, hp, .inr ⟨hne, hv⟩⟩
              have : isValidPcr x = false := by
                cases h : isValidPcr x with
                | false => rfl
                | true => exact absurd (by have := (isValidPcr_iff x).1 h; omega) hv
              simp only [comparePcr, this]
              rfl

theorem transitionAt_iff {o : Opt} {s : St} {pre : List Item} {it : Item}
    (h : Trans o s (received pre) it.handled) (k : Nat) :
    TransitionAt o pre it k ↔ 0 < k ∧ s.transition = k := by
  unfold TransitionAt
  constructor
  · rintro ⟨hk, t, hl, hf⟩
    refine ⟨hk, ?_⟩
    rcases h with ⟨_, hn⟩ | ⟨u, hu, hk⟩
    · obtain ⟨a, b, e, ht, _⟩ := hl
      exact absurd ht (hn _ _ _ e)
    · rw [hk, ← hf]
      congr 1
      obtain ⟨a, b, e, g1, g2⟩ := hl
      obtain ⟨a', b', e', g1', g2'⟩ := hu
      rw [e] at e'
      rcases List.append_eq_append_iff.mp e' with ⟨c, rfl, e3⟩ | ⟨c, rfl, e3⟩
      · cases c with
        | nil => simp at e3; exact e3.1.symm
        | cons d c =>
          simp only [List.cons_append, List.cons.injEq] at e3
          obtain ⟨rfl, e3⟩ := e3
          refine absurd ?_ (g2 _ _ _ e3)
          simpa using g1'
      · cases c with
        | nil => simp at e3; exact e3.1
        | cons d c =>
          simp only [List.cons_append, List.cons.injEq] at e3
          obtain ⟨rfl, e3⟩ := e3
          refine absurd ?_ (g2' _ _ _ e3)
          simpa using g1
  · rintro ⟨hk, e⟩
    refine ⟨hk, ?_⟩
    rcases h with ⟨h0, _⟩ | ⟨u, hu, hk'⟩
    · omega
    · exact ⟨u, hu, by rw [← hk', e]⟩

/-- The state after a history. -/
structure State (o : Opt) (s : St) (items : List Item) : Prop where
  watch : Watch o s (received items)
  seeking : Held items → Seeking o s items ∧ (o.maxPackets ≠ 0 → items.length < o.maxPackets)
  streaming : ¬ Held items → s.streaming = true ∧ s.packets = []

theorem state_init (o : Opt) : State o init [] :=
  ⟨watch_init o, fun _ => ⟨seeking_init o, fun h => by simpa using Nat.pos_of_ne_zero h⟩,
    fun h => absurd (by simp [Held]) h⟩

theorem watch_congr {o : Opt} {s s' : St} {rs : List Table} (h : Watch o s rs)
    (h1 : s'.demux = s.demux) (h2 : s'.pmtPid = s.pmtPid) (h3 : s'.video = s.video)
    (h4 : s'.audio = s.audio) (h5 : s'.pcrPid = s.pcrPid) (h6 : s'.patIndex = s.patIndex) : Watch o s' rs := by
  refine ⟨⟨?_, ?_, ?_, ?_, ?_⟩, ?_, ?_⟩
  · rw [h3]; exact h.tabs.video
  · rw [h4]; exact h.tabs.audio
  · rw [h5]; exact h.tabs.pcr
  · rw [h6]; exact h.tabs.pat
  · rw [h1]; exact h.tabs.demux
  · rw [h2]; exact h.pmt
  · rw [h1]; exact h.demux

theorem seek_keeps {o : Opt} {s s' : St} {p : Packet} {act : Act} (h : seek o s p = .ok (s', act)) :
    s'.demux = s.demux ∧ s'.pmtPid = s.pmtPid ∧ s'.video = s.video ∧ s'.audio = s.audio ∧
      s'.pcrPid = s.pcrPid ∧ s'.patIndex = s.patIndex := by
  unfold seek at h
  dsimp only at h
  split at h
  · split at h
    · cases h
    · cases h; exact ⟨rfl, rfl, rfl, rfl, rfl, rfl⟩
  · split at h
    · cases h; exact ⟨rfl, rfl, rfl, rfl, rfl, rfl⟩
    · obtain ⟨_, _, h⟩ := bind_eq_ok h
      split at h
      · cases h; exact ⟨rfl, rfl, rfl, rfl, rfl, rfl⟩
      · split at h
        · cases h; exact ⟨rfl, rfl, rfl, rfl, rfl, rfl⟩
        · split at h
          · obtain ⟨_, _, h⟩ := bind_eq_ok h
            cases h; exact ⟨rfl, rfl, rfl, rfl, rfl, rfl⟩
          · obtain ⟨_, _, h⟩ := bind_eq_ok h
            split at h <;> (cases h; exact ⟨rfl, rfl, rfl, rfl, rfl, rfl⟩)

/-- One packet. -/
theorem step_state {o : Opt} {s s' : St} {items : List Item} {i : Input} {log : List Table} {act : Act}
    (hS : State o s items) (h : step o s i = .ok (s', log, act)) :
    State o s' (items ++ [⟨i.packet, log, act⟩]) ∧
      Handed (Looked o.sid) i.packet.pid (received items) i.tables log := by
  obtain ⟨log', hl, hf⟩ := feed_exact hS.watch i.packet.pid i.tables
  have h' := h
  unfold step at h
  obtain ⟨⟨s1, log1⟩, h1, h⟩ := bind_eq_ok h
  rcases hf with ⟨s2, g1, g2, g3⟩ | ⟨⟨f, g1⟩, _⟩
  · rw [h1] at g1
    simp only [Except.ok.injEq, Prod.mk.injEq] at g1
    obtain ⟨rfl, rfl⟩ := g1
    dsimp only at h
    have hsame := feed_same h1
    have hrec : received (items ++ [(⟨i.packet, log, act⟩ : Item)]) = received items ++ log := by
      simp [received]
    have key : log = log1 ∧ Watch o s' (received items ++ log1) ∧
        (s.streaming = true → s'.streaming = true ∧ s'.packets = s.packets) := by
      split at h
      · simp only [Except.ok.injEq, Prod.mk.injEq] at h
        obtain ⟨rfl, rfl, rfl⟩ := h
        exact ⟨rfl, g2, fun hs => ⟨hsame.1.trans hs, hsame.2.1⟩⟩
      · next hst =>
        obtain ⟨⟨s3, act2⟩, k1, h⟩ := bind_eq_ok h
        simp only [Except.ok.injEq, Prod.mk.injEq] at h
        obtain ⟨rfl, rfl, rfl⟩ := h
        obtain ⟨e1, e2, e3, e4, e5, e6⟩ := seek_keeps k1
        exact ⟨rfl, watch_congr g2 e1 e2 e3 e4 e5 e6, fun hs => absurd (hsame.1.trans hs) hst⟩
    obtain ⟨rfl, hw, hst⟩ := key
    have hheld : Held (items ++ [(⟨i.packet, log, act⟩ : Item)]) ↔ Held items ∧ act = .hold := by
      simp [Held, or_imp, forall_and]
    refine ⟨⟨by rw [hrec]; exact hw, ?_, ?_⟩, hl⟩
    · rw [hheld]
      rintro ⟨hh, ha⟩
      obtain ⟨hk, _⟩ := hS.seeking hh
      obtain ⟨o1, o2, _⟩ := step_seeking hk h'
      refine ⟨o2 ha, fun hne => ?_⟩
      cases o1 with
      | lead _ _ _ _ _ _ _ _ e => rw [ha] at e; cases e
      | full _ _ e => rw [ha] at e; cases e
      | over _ _ _ e => rw [ha] at e; cases e
      | hold _ _ _ _ hl => simpa using hl hne
    · rw [hheld]
      intro hn
      by_cases hh : Held items
      · obtain ⟨hk, _⟩ := hS.seeking hh
        exact (step_seeking hk h').2.2 (fun ha => hn ⟨hh, ha⟩)
      · obtain ⟨k1, k2⟩ := hS.streaming hh
        exact ⟨(hst k1).1, (hst k1).2.trans k2⟩
  · rw [h1] at g1
    cases g1

/-- A packet makes the seeker fail exactly as specified. -/
theorem step_exact {o : Opt} {s : St} {items : List Item} {i : Input}
    (hS : State o s items) :
    (∃ f, step o s i = .error f) ↔ Unseekable o items i := by
  obtain ⟨log, hl, hf⟩ := feed_exact hS.watch i.packet.pid i.tables
  have hab : Unseekable o items i ↔ ((∃ t ∈ log, Missing o.sid t) ∨
     (Held items ∧ (∃ k, TransitionAt o items ⟨i.packet, log, .hold⟩ k) ∧
       ∃ n, patAt (received items ++ log) = some n ∧ items.length < n) ∨
     (Held items ∧ (¬ ∃ k, TransitionAt o items ⟨i.packet, log, .hold⟩ k) ∧ ¬ Full o items ∧
       (¬ ∃ x0, FirstPcr o items x0) ∧ (∃ x, PcrOf o.sid (received items ++ log) i.packet x) ∧
       ¬ DurationFits o) ∨
     (Held items ∧ (¬ ∃ k, TransitionAt o items ⟨i.packet, log, .hold⟩ k) ∧ ¬ Full o items ∧
       (∃ x0, FirstPcr o items x0) ∧
       ∃ x, PcrOf o.sid (received items ++ log) i.packet x ∧ (x < 0 ∨ 2 ^ 33 * 300 ≤ x))) := by
    constructor
    · rintro ⟨log', hl', hc⟩
      rw [hl'.unique hl] at hc
      exact hc
    · exact fun hc => ⟨log, hl, hc⟩
  rw [hab]
  rcases hf with ⟨s1, h1, h2, h3⟩ | ⟨⟨f, h1⟩, h2⟩
  · rw [or_iff_right h3]
    have hstep : step o s i = (if s1.streaming then .ok (s1, log, .pass i.packet)
        else (seek o s1 i.packet).bind fun r => .ok (r.1, log, r.2)) := by
      unfold step
      rw [h1]
      rfl
    have hsame := feed_same h1
    by_cases hh : Held items
    · obtain ⟨hk, hm⟩ := hS.seeking hh
      obtain ⟨ht, htr, _⟩ := feed_spec hk.tabs hk.transition h1
      have hlen : s1.packets.length = items.length := by rw [hsame.2.1, hk.packets]; simp [packets]
      rw [hstep, if_neg (by rw [hsame.1, hk.streaming]; simp)]
      have hend : s1.endPcr = -1 ∨ (0 ≤ s1.endPcr ∧ s1.endPcr < 2 ^ 33 * 300) := by
        rw [hsame.2.2]
        rcases hk.limit with ⟨e, _⟩ | ⟨x, _, e⟩
        · exact .inl e
        · rw [e]; exact .inr (limit_range o x)
      have hbind : (∃ f, ((seek o s1 i.packet).bind fun r => Except.ok (r.1, log, r.2)) = .error f) ↔
          ∃ f, seek o s1 i.packet = .error f := by
        cases seek o s1 i.packet with
        | error f => exact ⟨fun _ => ⟨f, rfl⟩, fun _ => ⟨f, rfl⟩⟩
        | ok r => constructor <;> (rintro ⟨f, h⟩; cases h)
      rw [hbind, seek_error hend (by rw [hlen]; exact hm)]
      have hta := transitionAt_iff (it := ⟨i.packet, log, .hold⟩) htr
      have htr1 : (∃ k, TransitionAt o items ⟨i.packet, log, .hold⟩ k) ↔ 0 < s1.transition := by
        constructor
        · rintro ⟨k, hk⟩
          have := (hta k).1 hk
          omega
        · exact fun h => ⟨_, (hta _).2 ⟨h, rfl⟩⟩
      rw [htr1, hlen]
      refine or_congr ?_ ?_
      · rw [ht.pat]
        cases patAt (received items ++ log) with
        | none => simp
        | some n => simp [hh]
      · have hpc := pcrOf_iff ht i.packet
        have hne : s1.endPcr ≠ -1 ↔ ∃ x0, FirstPcr o items x0 := by
          rw [hsame.2.2]
          rcases hk.limit with ⟨e, hn⟩ | ⟨x, h1, e⟩
          · exact iff_of_false (fun h => h e) (by rintro ⟨x, h⟩; exact firstPcr_noPcr hn h)
          · exact iff_of_true (by have := limit_range o x; omega) ⟨x, h1⟩
        constructor
        · rintro ⟨g1, g2, g3, g4, x, g6, ⟨g5, g7⟩ | ⟨g5, g7⟩⟩
          · exact .inl ⟨hh, by omega, g2, fun h => hne.2 h g5, ⟨x, (hpc x).2 ⟨g3, g4, g6⟩⟩, g7⟩
          · exact .inr ⟨hh, by omega, g2, hne.1 g5, x, (hpc x).2 ⟨g3, g4, g6⟩, by omega⟩
        · rintro (⟨_, g1, g2, g3, ⟨x, g4⟩, g5⟩ | ⟨_, g1, g2, g3, x, g4, g5⟩)
          · obtain ⟨k1, k2, k3⟩ := (hpc x).1 g4
            exact ⟨by omega, g2, k1, k2, x, k3, .inl ⟨Decidable.not_not.1 (fun h => g3 (hne.1 h)), g5⟩⟩
          · obtain ⟨k1, k2, k3⟩ := (hpc x).1 g4
            exact ⟨by omega, g2, k1, k2, x, k3, .inr ⟨hne.2 g3, by omega⟩⟩
    · obtain ⟨k1, k2⟩ := hS.streaming hh
      rw [hstep, if_pos (hsame.1.trans k1)]
      refine iff_of_false (by rintro ⟨f, h⟩; cases h) ?_
      rintro (⟨h, _⟩ | ⟨h, _⟩ | ⟨h, _⟩) <;> exact hh h
  · refine iff_of_true ⟨f, ?_⟩ (.inl h2)
    unfold step
    rw [h1]
    rfl

theorem run_exact {o : Opt} : ∀ (is : List Input) (s : St) (items : List Item),
    State o s items →
    ((∃ f, run o s is = .error f) ↔ ∃ pre i post s' items', is = pre ++ i :: post ∧
      run o s pre = .ok (s', items') ∧ Unseekable o (items ++ items') i)
  | [], s, items, _ => by
    constructor
    · rintro ⟨f, h⟩
      cases h
    · rintro ⟨pre, i, post, _, _, h, _⟩
      simp at h
  | i :: is, s, items, hS => by
    have hst := step_exact (i := i) hS
    cases h1 : step o s i with
    | error f =>
      refine iff_of_true ⟨f, ?_⟩ ⟨[], i, is, s, [], rfl, rfl, by simpa using hst.1 ⟨f, h1⟩⟩
      simp only [run, h1]
      rfl
    | ok r =>
      obtain ⟨s1, log, act⟩ := r
      have hna : ¬ Unseekable o items i := by
        intro ha
        obtain ⟨f, hf⟩ := hst.2 ha
        rw [h1] at hf
        cases hf
      obtain ⟨hS1, _⟩ := step_state hS h1
      have ih := run_exact is s1 _ hS1
      have hrun : ∀ l, run o s (i :: l) = (run o s1 l).bind fun r => .ok (r.1, ⟨i.packet, log, act⟩ :: r.2) := by
        intro l
        simp only [run, h1, ok_bind]
        rfl
      have hiff : (∃ f, run o s (i :: is) = .error f) ↔ ∃ f, run o s1 is = .error f := by
        rw [hrun]
        cases run o s1 is with
        | error f => exact ⟨fun _ => ⟨f, rfl⟩, fun _ => ⟨f, rfl⟩⟩
        | ok r => constructor <;> (rintro ⟨f, h⟩; cases h)
      rw [hiff, ih]
      constructor
      · rintro ⟨pre, j, post, s', items', rfl, hr, hab⟩
        refine ⟨i :: pre, j, post, s', ⟨i.packet, log, act⟩ :: items', rfl, ?_, by simpa using hab⟩
        rw [hrun, hr]
        rfl
      · rintro ⟨pre, j, post, s', items', e, hr, hab⟩
        cases pre with
        | nil =>
          simp only [List.nil_append, List.cons.injEq] at e
          obtain ⟨rfl, rfl⟩ := e
          cases hr
          exact absurd (by simpa using hab) hna
        | cons a pre =>
          simp only [List.cons_append, List.cons.injEq] at e
          obtain ⟨rfl, rfl⟩ := e
          rw [hrun] at hr
          cases hp : run o s1 pre with
          | error f => rw [hp] at hr; cases hr
          | ok r =>
            rw [hp] at hr
            simp only [Except.bind, Except.ok.injEq, Prod.mk.injEq] at hr
            obtain ⟨rfl, rfl⟩ := hr
            exact ⟨pre, j, post, r.1, r.2, rfl, hp, by simpa using hab⟩

/-- The tables looked at, for arbitrary tables. -/
theorem run_handed {o : Opt} : ∀ (is : List Input) (s s' : St) (items rest : List Item),
    State o s items → run o s is = .ok (s', rest) → ∀ pre it post, rest = pre ++ it :: post →
      ∃ i, is[pre.length]? = some i ∧ i.packet = it.packet ∧
        Handed (Looked o.sid) it.packet.pid (received (items ++ pre)) i.tables it.handled := by
  intro is
  induction is with
  | nil =>
    intro s s' items rest _ h pre it post e
    simp only [run, Except.ok.injEq, Prod.mk.injEq] at h
    rw [← h.2] at e
    simp at e
  | cons i is ih =>
    intro s s' items rest hS h pre it post e
    obtain ⟨s1, log, act, rest', h1, h2, rfl⟩ := run_cons h
    obtain ⟨hS1, hh⟩ := step_state hS h1
    cases pre with
    | nil =>
      simp only [List.nil_append, List.cons.injEq] at e
      rw [← e.1]
      exact ⟨i, rfl, rfl, by simpa using hh⟩
    | cons a pre =>
      simp only [List.cons_append, List.cons.injEq] at e
      obtain ⟨rfl, e⟩ := e
      obtain ⟨j, g1, g2, g3⟩ := ih s1 s' _ rest' hS1 h2 pre it post e
      exact ⟨j, by simpa using g1, g2, by simpa using g3⟩

end Mirakc.StartSeeker
