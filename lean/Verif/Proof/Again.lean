import Verif.Spec.Again
import Verif.Proof.Foreign
/-
Lemmas: filter-service on its own output.
-/
namespace Mirakc.ServiceFilter
open Mirakc.Spec Mirakc.Spec.ServiceFilter

/-- What is watched when PMTs are on ordinary PIDs and there is no time limit. -/
structure Fine (sid : Nat) (s : St) : Prop where
  watch : ∀ pid, pid ∈ s.demux ↔ pid = 0 ∨ pid = 1 ∨ (pid = s.pmtPid ∧ pid ≠ pidNull)
  pmt : s.pmtPid ≠ 0 ∧ s.pmtPid ≠ 1
  pat : ∀ t, s.packetizer = some t → t.tsId ≠ 0 ∧ t.pmts.entries = [(sid, s.pmtPid)] ∧ s.pmtPid ≠ pidNull ∧
    s.psi = [pidPat, pidCat, pidNit, pidSdt, pidEit, pidRst, pidTot, pidBit, pidCdt, s.pmtPid]
  err : s.error = true → s.done = true

/-- The states of the two runs. -/
structure Same (sid : Nat) (s s2 : St) : Prop where
  eq : s2 = { s with demux := s2.demux }
  one : Fine sid s
  two : Fine sid s2

theorem fine_init (sid : Nat) : Fine sid (init { sid := sid }) := by
  refine ⟨fun pid => ?_, by simp [init, pidNull], by simp [init], by simp [init]⟩
  simp [init, pidCat, pidPat, pidNull]
  omega

/-- The state after a listing PAT. -/
def listed (s : St) (pid : Nat) (pat : Pat) : St :=
  { s with
    pmtPid := pid
    demux := (if s.pmtPid != pidNull then s.demux.remove s.pmtPid else s.demux).add pid
    packetizer := some pat
    psi := [pidPat, pidCat, pidNit, pidSdt, pidEit, pidRst, pidTot, pidBit, pidCdt, pid] }

theorem fine_listed {sid : Nat} {s : St} (h : Fine sid s) {pid : Nat} {pat : Pat} (h0 : pid ≠ 0) (h1 : pid ≠ 1)
    (h2 : pid ≠ pidNull) (ht : pat.tsId ≠ 0) (he : pat.pmts.entries = [(sid, pid)]) : Fine sid (listed s pid pat) := by
  refine ⟨fun q => ?_, ⟨h0, h1⟩, fun t e => ?_, h.err⟩
  · simp only [listed, PidSet.add, List.mem_cons]
    split
    · next hn =>
      simp only [PidSet.remove, List.mem_filter, bne_iff_ne, h.watch]
      have := h.pmt
      constructor
      · rintro (rfl | ⟨h3 | h3 | h3, h4⟩)
        · exact .inr (.inr ⟨rfl, h2⟩)
        · exact .inl h3
        · exact .inr (.inl h3)
        · exact absurd h3.1 h4
      · rintro (rfl | rfl | ⟨rfl, _⟩)
        · exact .inr ⟨.inl rfl, fun e => this.1 e.symm⟩
        · exact .inr ⟨.inr (.inl rfl), fun e => this.2 e.symm⟩
        · exact .inl rfl
    · next hn =>
      simp only [bne_iff_ne, ne_eq, Decidable.not_not] at hn
      rw [h.watch]
      constructor
      · rintro (rfl | h3 | h3 | h3)
        · exact .inr (.inr ⟨rfl, h2⟩)
        · exact .inl h3
        · exact .inr (.inl h3)
        · exact absurd (h3.1.trans hn) h3.2
      · rintro (rfl | rfl | ⟨rfl, _⟩)
        · exact .inr (.inl rfl)
        · exact .inr (.inr (.inl rfl))
        · exact .inl rfl
  · cases e
    exact ⟨ht, he, h2, rfl⟩

/-- Handling a PAT, spelled out. -/
theorem handle_cases {sid : Nat} {s s' : St} {t : Table} (h : handleTable { sid := sid } s t = .ok s') :
    (∃ pat pid, usablePat t = some pat ∧ (sid, pid) ∈ pat.pmts.entries ∧ s' = listed s pid (restrict sid pat)) ∨
    (Missing sid t ∧ s' = { s with done := true, error := true }) ∨
    (∃ cat, validCat t = some cat ∧ usablePat t = none ∧ s' = { s with emm := caPids cat.descs }) ∨
    (∃ pmt, validPmt sid t = some pmt ∧ usablePat t = none ∧
      s' = { s with content := pmt.pcrPid :: caPids pmt.descs ++ pmt.streams.keys }) ∨
    (usablePat t = none ∧ validCat t = none ∧ validPmt sid t = none ∧ s' = s) := by
  unfold handleTable at h
  split at h
  · next pat hb =>
    have hc : validCat t = none := by simp [validCat, hb]
    have hp : validPmt sid t = none := by simp [validPmt, hb]
    unfold handlePat at h
    split at h
    · next a =>
      cases h
      simp only [bne_iff_ne, pidPat] at a
      exact .inr (.inr (.inr (.inr ⟨by simp [usablePat, hb, a], hc, hp, rfl⟩)))
    · next a =>
      split at h
      · next b =>
        cases h
        simp only [Bool.not_eq_true'] at b
        exact .inr (.inr (.inr (.inr ⟨by simp [usablePat, hb, b], hc, hp, rfl⟩)))
      · next b =>
        split at h
        · next c =>
          cases h
          simp only [beq_iff_eq] at c
          exact .inr (.inr (.inr (.inr ⟨by simp [usablePat, hb, c], hc, hp, rfl⟩)))
        · next c =>
          simp only [bne_iff_ne, pidPat, ne_eq, Decidable.not_not] at a
          simp only [Bool.not_eq_true', Bool.not_eq_false] at b
          simp only [beq_iff_eq] at c
          have hu : usablePat t = some pat := by simp [usablePat, hb, a, b, c]
          split at h
          · next hn =>
            cases h
            refine .inr (.inl ⟨⟨pat, hu, fun pid hm => ?_⟩, rfl⟩)
            rw [(OMap.find?_iff _ _ _).2 hm] at hn; cases hn
          · next pid hp =>
            obtain ⟨_, _, h⟩ := bind_eq_ok h
            obtain ⟨_, _, h⟩ := bind_eq_ok h
            cases h
            exact .inl ⟨pat, pid, hu, (OMap.find?_iff _ _ _).1 hp, rfl⟩
  · next cat hb =>
    have hu : usablePat t = none := by simp [usablePat, hb]
    have hp : validPmt sid t = none := by simp [validPmt, hb]
    unfold handleCat at h
    split at h
    · next b =>
      simp only [Bool.not_eq_true'] at b
      cases h
      exact .inr (.inr (.inr (.inr ⟨hu, by simp [validCat, hb, b], hp, rfl⟩)))
    · next b =>
      simp only [Bool.not_eq_true', Bool.not_eq_false] at b
      cases h
      exact .inr (.inr (.inl ⟨cat, by simp [validCat, hb, b], hu, rfl⟩))
  · next pmt hb =>
    have hu : usablePat t = none := by simp [usablePat, hb]
    have hc : validCat t = none := by simp [validCat, hb]
    unfold handlePmt at h
    split at h
    · next b =>
      simp only [Bool.not_eq_true'] at b
      cases h
      exact .inr (.inr (.inr (.inr ⟨hu, hc, by simp [validPmt, hb, b], rfl⟩)))
    · next b =>
      simp only [Bool.not_eq_true', Bool.not_eq_false] at b
      split at h
      · next c =>
        simp only [bne_iff_ne] at c
        cases h
        exact .inr (.inr (.inr (.inr ⟨hu, hc, by simp [validPmt, hb, c], rfl⟩)))
      · next c =>
        simp only [bne_iff_ne, ne_eq, Decidable.not_not] at c
        cases h
        exact .inr (.inr (.inr (.inl ⟨pmt, by simp [validPmt, hb, b, c], hu, rfl⟩)))
  · next time hb =>
    unfold handleTot at h
    split at h
    · cases h
      exact .inr (.inr (.inr (.inr ⟨by simp [usablePat, hb], by simp [validCat, hb], by simp [validPmt, hb], rfl⟩)))
    · cases h
  · next b1 b2 b3 b4 =>
    cases h
    refine .inr (.inr (.inr (.inr ⟨?_, ?_, ?_, rfl⟩)))
    · unfold usablePat; split
      · next p hb => exact absurd hb (b1 p)
      · rfl
    · unfold validCat; split
      · next p hb => exact absurd hb (b2 p)
      · rfl
    · unfold validPmt; split
      · next p hb => exact absurd hb (b3 p)
      · rfl

/-- A usable PAT listing the service is handled. -/
theorem handle_reread {sid pid : Nat} {s : St} {t : Table} {pat : Pat} (hu : usablePat t = some pat)
    (hm : (sid, pid) ∈ pat.pmts.entries) :
    handleTable { sid := sid } s t = .ok (listed s pid (restrict sid pat)) := by
  unfold usablePat at hu
  split at hu
  · next p hb =>
    split at hu
    · next hc =>
      cases hu
      have hf : pat.pmts.find? sid = some pid := (OMap.find?_iff _ _ _).2 hm
      have hk := pat.pmts.filter_key hm
      have hf2 : (pat.pmts.filter (·.1 == sid)).find? sid = some pid := by
        rw [OMap.find?_iff, hk]; exact List.mem_singleton.2 rfl
      simp only [handleTable, hb, handlePat, hc.1, hc.2.1, pidPat, bne_self_eq_false, Bool.false_eq_true, if_false,
        Bool.not_true, beq_iff_eq, hc.2.2, hf, hf2, hk]
      rfl
    · cases hu
  · cases hu

theorem restrict_self {sid pid : Nat} {t : Pat} (h : t.pmts.entries = [(sid, pid)]) : restrict sid t = t := by
  have hk := t.pmts.filter_key (k := sid) (v := pid) (by rw [h]; exact List.mem_singleton.2 rfl)
  obtain ⟨a, c, ⟨l, sl⟩, d⟩ := t
  simp only at h
  subst h
  unfold restrict
  simp only at hk
  congr 1
  generalize OMap.filter _ _ = m at hk
  obtain ⟨l, sl⟩ := m
  simp only at hk
  subst hk
  rfl

/-- Whether a table can be handled does not depend on the state. -/
theorem handle_defined {sid : Nat} {s s' : St} {t : Table} (h : handleTable { sid := sid } s t = .ok s') (s2 : St) :
    ∃ s2', handleTable { sid := sid } s2 t = .ok s2' := by
  unfold handleTable at h ⊢
  split at h
  · next pat hb =>
    unfold handlePat at h ⊢
    split at h
    · next a => simp only [if_pos a]; exact ⟨_, rfl⟩
    · next a =>
      simp only [if_neg a]
      split at h
      · next b => simp only [if_pos b]; exact ⟨_, rfl⟩
      · next b =>
        simp only [if_neg b]
        split at h
        · next c => simp only [if_pos c]; exact ⟨_, rfl⟩
        · next c =>
          simp only [if_neg c]
          split at h
          · next hn => simp only [hn]; exact ⟨_, rfl⟩
          · next pid hp =>
            simp only [hp]
            obtain ⟨_, h1, h⟩ := bind_eq_ok h
            obtain ⟨_, h2, h⟩ := bind_eq_ok h
            simp only [h1, h2]
            exact ⟨_, rfl⟩
  · next cat hb =>
    unfold handleCat
    split
    · exact ⟨_, rfl⟩
    · exact ⟨_, rfl⟩
  · next pmt hb =>
    unfold handlePmt
    repeat' split
    all_goals exact ⟨_, rfl⟩
  · next time hb =>
    unfold handleTot at h ⊢
    split at h
    · next a => simp only [if_pos a]; exact ⟨_, rfl⟩
    · cases h
  · exact ⟨_, rfl⟩

theorem listed_eq {s s2 : St} (h : s2 = { s with demux := s2.demux }) (pid : Nat) (pat : Pat) :
    listed s2 pid pat = { listed s pid pat with demux := (listed s2 pid pat).demux } := by
  obtain ⟨a, b, c, d, e, f, g, i, j⟩ := s2
  cases h; rfl

theorem usable_tsId {t : Table} {pat : Pat} (hu : usablePat t = some pat) : pat.tsId ≠ 0 := by
  unfold usablePat at hu
  split at hu
  · split at hu
    · next h => cases hu; exact h.2.2
    · cases hu
  · cases hu

/-- One table. -/
theorem fine_handle {sid : Nat} {s s' : St} {t : Table} (hF : Fine sid s) (hc : Conforming sid t)
    (h : handleTable { sid := sid } s t = .ok s') : Fine sid s' := by
  rcases handle_cases h with ⟨pat, pid, hu, hm, rfl⟩ | ⟨_, rfl⟩ | ⟨_, _, _, rfl⟩ | ⟨_, _, _, rfl⟩ | ⟨_, _, _, rfl⟩
  · obtain ⟨h0, h1, _, h2⟩ := hc.1 pat hu pid hm
    exact fine_listed hF h0 h1 h2 (usable_tsId (pat := pat) hu) (pat.pmts.filter_key hm)
  · exact ⟨hF.watch, hF.pmt, hF.pat, fun _ => rfl⟩
  · exact ⟨hF.watch, hF.pmt, hF.pat, hF.err⟩
  · exact ⟨hF.watch, hF.pmt, hF.pat, hF.err⟩
  · exact hF

/-- A table does the same in both runs. -/
theorem handle_same {sid : Nat} {s s' s2 : St} {t : Table} (hS : Same sid s s2) (hc : Conforming sid t)
    (h : handleTable { sid := sid } s t = .ok s') :
    ∃ s2', handleTable { sid := sid } s2 t = .ok s2' ∧ Same sid s' s2' := by
  obtain ⟨s2', h2⟩ := handle_defined h s2
  refine ⟨s2', h2, ?_, fine_handle hS.one hc h, fine_handle hS.two hc h2⟩
  have he := hS.eq
  have key : ∀ {a b : Nat} {pat : Pat}, (sid, a) ∈ pat.pmts.entries → (sid, b) ∈ pat.pmts.entries → a = b := by
    intro a b pat ha hb
    have h1 := (OMap.find?_iff _ _ _).2 ha
    rw [(OMap.find?_iff _ _ _).2 hb] at h1
    cases h1; rfl
  rcases handle_cases h with ⟨pat, pid, hu, hm, rfl⟩ | ⟨hm, rfl⟩ | ⟨cat, hv, hu, rfl⟩ | ⟨pmt, hv, hu, rfl⟩ | ⟨hu, hv, hp, rfl⟩
  · rw [handle_reread hu hm] at h2
    cases h2
    exact listed_eq he _ _
  · rcases handle_cases h2 with ⟨pat, pid, hu', hm', rfl⟩ | ⟨_, rfl⟩ | ⟨_, _, hu', rfl⟩ | ⟨_, _, hu', rfl⟩ | ⟨hu', _, _, rfl⟩
    · obtain ⟨p, hp, hn⟩ := hm
      rw [hu'] at hp; cases hp
      exact absurd hm' (hn _)
    · rw [he]
    · exact absurd hm (not_missing hu')
    · exact absurd hm (not_missing hu')
    · exact absurd hm (not_missing hu')
  · rcases handle_cases h2 with ⟨pat, pid, hu', hm', rfl⟩ | ⟨hm, rfl⟩ | ⟨_, hv', hu', rfl⟩ | ⟨_, hv', hu', rfl⟩ | ⟨hu', hv', _, rfl⟩
    · rw [hu] at hu'; cases hu'
    · exact absurd hm (not_missing hu)
    · rw [hv] at hv'; cases hv'; rw [he]
    · unfold validPmt at hv'; unfold validCat at hv
      split at hv
      · next hb => rw [hb] at hv'; cases hv'
      · cases hv
    · rw [hv] at hv'; cases hv'
  · rcases handle_cases h2 with ⟨pat, pid, hu', hm', rfl⟩ | ⟨hm, rfl⟩ | ⟨_, hv', hu', rfl⟩ | ⟨_, hv', hu', rfl⟩ | ⟨hu', _, hv', rfl⟩
    · rw [hu] at hu'; cases hu'
    · exact absurd hm (not_missing hu)
    · unfold validPmt at hv; unfold validCat at hv'
      split at hv
      · next hb => rw [hb] at hv'; cases hv'
      · cases hv
    · rw [hv] at hv'; cases hv'; rw [he]
    · rw [hv] at hv'; cases hv'
  · rcases handle_cases h2 with ⟨pat, pid, hu', hm', rfl⟩ | ⟨hm, rfl⟩ | ⟨_, hv', hu', rfl⟩ | ⟨_, hv', hu', rfl⟩ | ⟨hu', _, hv', rfl⟩
    · rw [hu] at hu'; cases hu'
    · exact absurd hm (not_missing hu)
    · rw [hv] at hv'; cases hv'
    · rw [hp] at hv'; cases hv'
    · exact he

theorem same_mem {sid : Nat} {s s2 : St} (hS : Same sid s s2) (pid : Nat) : pid ∈ s2.demux ↔ pid ∈ s.demux := by
  rw [hS.one.watch, hS.two.watch, show s2.pmtPid = s.pmtPid by rw [hS.eq]]

/-- The tables of a packet do the same in both runs. -/
theorem feed_same {sid pid : Nat} : ∀ (ts : List Table) (s s' s2 : St) (log : List Table), Same sid s s2 →
    feedDemux St.demux (handleTable { sid := sid }) pid ts s = .ok (s', log) → (∀ t ∈ log, Conforming sid t) →
    ∃ s2', feedDemux St.demux (handleTable { sid := sid }) pid ts s2 = .ok (s2', log) ∧ Same sid s' s2'
  | [], s, s', s2, log, hS, h, _ => by cases h; exact ⟨s2, rfl, hS⟩
  | t :: ts, s, s', s2, log, hS, h, hc => by
    simp only [feedDemux] at h ⊢
    have hm : s2.demux.contains pid = s.demux.contains pid := by
      rw [Bool.eq_iff_iff, List.contains_iff_mem, List.contains_iff_mem]; exact same_mem hS pid
    rw [hm]
    split at h
    · next hw =>
      simp only [if_pos hw]
      obtain ⟨s1, h1, h⟩ := bind_eq_ok h
      obtain ⟨⟨s3, log1⟩, h2, h⟩ := bind_eq_ok h
      cases h
      obtain ⟨s4, h4, hS4⟩ := handle_same hS (hc t List.mem_cons_self) h1
      obtain ⟨s5, h5, hS5⟩ := feed_same ts s1 s3 s4 log1 hS4 h2 fun u hu => hc u (List.mem_cons_of_mem _ hu)
      exact ⟨s5, by rw [h4]; show (feedDemux _ _ _ ts s4 >>= fun x => _) = _; rw [h5]; rfl, hS5⟩
    · next hw =>
      simp only [if_neg hw]
      exact feed_same ts s s' s2 log hS h hc

/-- `s1` differs from `s` at most in what a PAT sets. -/
structure ByPat (sid : Nat) (s s1 : St) (log : List Table) : Prop where
  eq : s1 = { s with pmtPid := s1.pmtPid, demux := s1.demux, packetizer := s1.packetizer, psi := s1.psi,
                     done := s1.done, error := s1.error }
  fine : Fine sid s1
  none : (∀ u ∈ log, usablePat u = none) → s1 = s

theorem feed_byPat {sid pid : Nat} {ts log : List Table} {s s' : St} (hF : Fine sid s)
    (h : feedDemux St.demux (handleTable { sid := sid }) pid ts s = .ok (s', log))
    (hc : ∀ t ∈ log, Conforming sid t) (hn : ∀ t ∈ log, validCat t = none ∧ validPmt sid t = none) :
    ByPat sid s s' log := by
  have key := feedDemux_inv (watched := St.demux) (handle := handleTable { sid := sid }) (pid := pid)
    (fun s1 rs => (∀ t ∈ rs, Conforming sid t) → (∀ t ∈ rs, validCat t = none ∧ validPmt sid t = none) →
      ByPat sid s s1 rs) (by
    intro a t b rs ih _ _ h hc hn
    have ih := ih (fun u hu => hc u (List.mem_append_left _ hu)) (fun u hu => hn u (List.mem_append_left _ hu))
    have hct := hc t (List.mem_append_right _ (List.mem_singleton.2 rfl))
    have hnt := hn t (List.mem_append_right _ (List.mem_singleton.2 rfl))
    have hf := fine_handle ih.fine hct h
    rcases handle_cases h with ⟨pat, q, hu, hm, rfl⟩ | ⟨hm, rfl⟩ | ⟨cat, hv, hu, rfl⟩ | ⟨pmt, hv, hu, rfl⟩ | ⟨hu, hv, hp, rfl⟩
    · refine ⟨?_, hf, fun hno => ?_⟩
      · rw [ih.eq]; rfl
      · rw [hno t (List.mem_append_right _ (List.mem_singleton.2 rfl))] at hu; cases hu
    · refine ⟨?_, hf, fun hno => ?_⟩
      · rw [ih.eq]
      · exact absurd hm (not_missing (hno t (List.mem_append_right _ (List.mem_singleton.2 rfl))))
    · rw [hnt.1] at hv; cases hv
    · rw [hnt.2] at hv; cases hv
    · exact ⟨ih.eq, ih.fine, fun hno => ih.none fun u hu => hno u (List.mem_append_left _ hu)⟩)
    ts s s' log [] (fun _ _ => ⟨rfl, hF, fun _ => rfl⟩) h
  rw [List.nil_append] at key
  exact key hc hn

/-- The packets of the PAT on the second run. -/
theorem feed_pat {sid : Nat} {t : Pat} {s1 : St} (hp : s1.packetizer = some t) (hF1 : Fine sid s1) :
    ∀ (l : List Table) (s2 : St), Fine sid s2 →
    s1 = { s2 with pmtPid := s1.pmtPid, demux := s1.demux, packetizer := s1.packetizer, psi := s1.psi } →
    (∀ u ∈ l, u.sourcePid = 0 → u.valid = true ∧ u.body = .pat t) →
    (s2 = { s1 with demux := s2.demux } ∨ ∃ u ∈ l, u.sourcePid = 0) →
    ∃ s2' log, feedDemux St.demux (handleTable { sid := sid }) 0 l s2 = .ok (s2', log) ∧ Same sid s1 s2'
  | [], s2, hF, he, hl, hor => by
    rcases hor with h | ⟨u, hu, _⟩
    · exact ⟨s2, [], rfl, h, hF1, hF⟩
    · cases hu
  | u :: l, s2, hF, he, hl, hor => by
    have h0 : 0 ∈ s2.demux := (hF.watch 0).2 (.inl rfl)
    by_cases hu : u.sourcePid = 0
    · obtain ⟨hv, hb⟩ := hl u List.mem_cons_self hu
      obtain ⟨p1, p2, p3, p4⟩ := hF1.pat t hp
      have hus : usablePat u = some t := by simp [usablePat, hb, hu, hv, p1]
      have hmem : (sid, s1.pmtPid) ∈ t.pmts.entries := by rw [p2]; exact List.mem_singleton.2 rfl
      have hh := handle_reread (s := s2) hus hmem
      rw [restrict_self p2] at hh
      have hFl : Fine sid (listed s2 s1.pmtPid t) := fine_listed hF hF1.pmt.1 hF1.pmt.2 p3 p1 p2
      have e1 : listed s2 s1.pmtPid t = { s1 with demux := (listed s2 s1.pmtPid t).demux } := by
        obtain ⟨a, b, c, d, e, f, g, i, j⟩ := s1
        simp only at hp p4
        subst hp p4
        cases he
        rfl
      have hc : (u.sourcePid == 0 && (St.demux s2).contains 0) = true := by simp [hu, h0]
      obtain ⟨s2', log, h1, h2⟩ := feed_pat hp hF1 l (listed s2 s1.pmtPid t) hFl (by rw [e1])
        (fun v hv => hl v (List.mem_cons_of_mem _ hv)) (.inl e1)
      refine ⟨s2', u :: log, ?_, h2⟩
      simp only [feedDemux, if_pos hc, hh]
      show (feedDemux _ _ _ l (listed s2 s1.pmtPid t) >>= fun x => _) = _
      rw [h1]; rfl
    · have hc : ¬ ((u.sourcePid == 0 && (St.demux s2).contains 0) = true) := by simp [hu]
      simp only [feedDemux, if_neg hc]
      refine feed_pat hp hF1 l s2 hF he (fun v hv => hl v (List.mem_cons_of_mem _ hv)) ?_
      rcases hor with h | ⟨v, hv, h⟩
      · exact .inl h
      · rcases List.mem_cons.1 hv with rfl | hv
        · exact absurd h hu
        · exact .inr ⟨v, hv, h⟩

/-- The part of `step` after the demultiplexer. -/
def rest (s : St) (p : Packet) (log : List Table) : Except Fault (St × List Table × Act) :=
  if s.done then .ok (s, log, .stop)
  else if checkFilterForDrop s p.pid then .ok (s, log, .drop)
  else if p.pid == pidPat then
    match s.packetizer with
    | none => .error .assertFail
    | some t => .ok ({ s with generated := s.generated + 1 }, log, .send (.pat t s.generated))
  else do
    assertThat (p.pid != pidNull)
    .ok (s, log, .send (.orig p))

theorem step_rest {o : Opt} {s s1 : St} {i : Input} {log : List Table}
    (h : feedDemux St.demux (handleTable o) i.packet.pid i.tables s = .ok (s1, log)) :
    step o s i = rest s1 i.packet log := by
  unfold step; rw [h]; rfl

/-- What is passed on instead when the packet is `q`. -/
def renew (q : Packet) : Out → Out
  | .orig _ => .orig q
  | .pat t n => .pat t n

/-- After the demultiplexer, both runs do the same. -/
theorem rest_same {sid : Nat} {s s' s2 : St} {p q : Packet} {log log' log2 : List Table} {x : Out}
    (hS : Same sid s s2) (h : rest s p log = .ok (s', log', .send x)) (hq : q.pid = p.pid) :
    s'.done = false ∧ ∃ s2' y, rest s2 q log2 = .ok (s2', log2, .send y) ∧ Same sid s' s2' ∧
      y = renew q x ∧ (∀ p', x = .orig p' → p' = p) := by
  obtain ⟨h1, h2, h3⟩ := hS
  unfold rest at h ⊢
  have hc : checkFilterForDrop s2 q.pid = checkFilterForDrop s p.pid := by
    rw [hq, h1]; rfl
  have hd : s2.done = s.done := by rw [h1]
  have hp : s2.packetizer = s.packetizer := by rw [h1]
  have hg : s2.generated = s.generated := by rw [h1]
  rw [hc, hd, hp, hg, hq]
  split at h
  · cases h
  · next a =>
    rw [if_neg a]
    split at h
    · cases h
    · next b =>
      rw [if_neg b]
      split at h
      · next c =>
        rw [if_pos c]
        cases hk : s.packetizer with
        | none => rw [hk] at h; cases h
        | some t =>
          rw [hk] at h
          cases h
          refine ⟨by simpa using a, _, _, rfl, ⟨?_, ⟨h2.watch, h2.pmt, fun u e => h2.pat u (hk.trans e), h2.err⟩,
            ⟨h3.watch, h3.pmt, fun u e => h3.pat u ((hp.trans hk).trans e), fun e => hd.symm.trans (h3.err e)⟩⟩, rfl, by simp⟩
          obtain ⟨a1, b1, c1, d1, e1, f1, g1, i1, j1⟩ := s2
          cases h1; rfl
      · next c =>
        rw [if_neg c]
        obtain ⟨_, ha, h⟩ := bind_eq_ok h
        rw [ha]
        cases h
        exact ⟨by simpa using a, s2, _, rfl, ⟨h1, h2, h3⟩, rfl, fun p' e => by cases e; rfl⟩

theorem rest_pat {s s' : St} {p : Packet} {log log' : List Table} {t : Pat} {n : Nat}
    (h : rest s p log = .ok (s', log', .send (.pat t n))) : p.pid = 0 ∧ s.packetizer = some t ∧ log' = log ∧ s.done = false := by
  unfold rest at h
  split at h
  · cases h
  · next a =>
    split at h
    · cases h
    · split at h
      · next c =>
        simp only [beq_iff_eq, pidPat] at c
        cases hk : s.packetizer with
        | none => rw [hk] at h; cases h
        | some t =>
          rw [hk] at h
          cases h
          exact ⟨c, rfl, rfl, by simpa using a⟩
      · obtain ⟨_, _, h⟩ := bind_eq_ok h
        cases h

theorem rest_drop {s s' : St} {p : Packet} {log log' : List Table} (h : rest s p log = .ok (s', log', .drop)) :
    s' = s ∧ log' = log ∧ s.done = false ∧ p.pid ∉ s.psi := by
  unfold rest at h
  split at h
  · cases h
  · next a =>
    split at h
    · next b =>
      cases h
      refine ⟨rfl, rfl, by simpa using a, fun hm => ?_⟩
      unfold checkFilterForDrop at b
      simp [hm] at b
    · split at h
      · cases hk : s.packetizer with
        | none => rw [hk] at h; cases h
        | some t => rw [hk] at h; cases h
      · obtain ⟨_, _, h⟩ := bind_eq_ok h
        cases h

theorem feed_source {o : Opt} {pid : Nat} {ts log : List Table} {s s' : St}
    (h : feedDemux St.demux (handleTable o) pid ts s = .ok (s', log)) : ∀ t ∈ log, t.sourcePid = pid := by
  have key := feedDemux_inv (watched := St.demux) (handle := handleTable o) (pid := pid)
    (fun _ rs => ∀ t ∈ rs, t.sourcePid = pid) (by
      intro a t b rs ih hs _ _ u hu
      rcases List.mem_append.1 hu with hu | hu
      · exact ih u hu
      · rw [List.mem_singleton.1 hu]; exact hs) ts s s' log [] (by simp) h
  simpa using key

theorem usable_source {t : Table} {pat : Pat} (hu : usablePat t = some pat) : t.sourcePid = 0 := by
  unfold usablePat at hu
  split at hu
  · split at hu
    · next h => cases hu; exact h.1
    · cases hu
  · cases hu

theorem latest_of_mem {α : Type} {f : Table → Option α} {rs : List Table} {t : Table} {a : α} (ht : t ∈ rs)
    (hf : f t = some a) : ∃ b, latest f rs = some b := by
  unfold latest
  cases h : (rs.filterMap f).getLast? with
  | some b => exact ⟨b, rfl⟩
  | none =>
    rw [List.getLast?_eq_none_iff] at h
    have : a ∈ rs.filterMap f := List.mem_filterMap.2 ⟨t, ht, hf⟩
    rw [h] at this; cases this

/-- A dropped packet leaves the state alone. -/
theorem step_dropped {sid : Nat} {s s' : St} {i : Input} {log rs : List Table} (hF : Fine sid s)
    (hI : Inv { sid := sid } s rs)
    (h : step { sid := sid } s i = .ok (s', log, .drop)) (hc : ∀ t ∈ log, Conforming sid t)
    (hn : ∀ t ∈ log, validCat t = none ∧ validPmt sid t = none) : s' = s := by
  have hsp := step_spec hI h
  have h' := h
  unfold step at h'
  obtain ⟨⟨s1, log1⟩, hf, _⟩ := bind_eq_ok h'
  rw [step_rest hf] at h
  obtain ⟨rfl, rfl, hd, hp⟩ := rest_drop h
  refine (feed_byPat hF hf hc hn).none fun u hu => ?_
  cases he : usablePat u with
  | none => rfl
  | some pat =>
    obtain ⟨pat', hl⟩ := latest_of_mem (List.mem_append_right rs hu) he
    have h0 : i.packet.pid = 0 := (feed_source hf u hu).symm.trans (usable_source he)
    refine absurd rfl ((hsp.drop (by simp)).2 (.inl ⟨pat', hl, .inl ?_⟩))
    rw [h0]; simp [siPids]

theorem rest_log {s s' : St} {p : Packet} {log log' : List Table} {act : Act}
    (h : rest s p log = .ok (s', log', act)) : log' = log := by
  unfold rest at h
  repeat' split at h
  all_goals first | (cases h; done) | (cases h; rfl) | skip
  obtain ⟨_, _, h⟩ := bind_eq_ok h
  cases h; rfl

theorem step_split {o : Opt} {s s' : St} {i : Input} {log : List Table} {act : Act}
    (h : step o s i = .ok (s', log, act)) :
    ∃ s1, feedDemux St.demux (handleTable o) i.packet.pid i.tables s = .ok (s1, log) ∧
      rest s1 i.packet log = .ok (s', log, act) := by
  have h' := h
  unfold step at h'
  obtain ⟨⟨s1, log1⟩, hf, _⟩ := bind_eq_ok h'
  rw [step_rest hf] at h
  cases rest_log h
  exact ⟨s1, hf, h⟩

/-- One packet and the rest. -/
theorem run_sent {o : Opt} {s2 s2' f2 : St} {j : Input} {js : List Input} {log : List Table} {x : Out}
    {items2 : List Item} {l : List Out} (h1 : step o s2 j = .ok (s2', log, .send x))
    (h2 : run o s2' js = .ok (f2, items2)) (h3 : sent items2 = l) (h4 : ∀ it ∈ items2, ∃ x, it.act = .send x)
    (h5 : items2.length = l.length) :
    ∃ f2 items2, run o s2 (j :: js) = .ok (f2, items2) ∧
      sent items2 = x :: l ∧ (∀ it ∈ items2, ∃ x, it.act = .send x) ∧ items2.length = (x :: l).length := by
  refine ⟨f2, ⟨j.packet, log, .send x⟩ :: items2, ?_, ?_, ?_, by simp [h5]⟩
  · have : run o s2 (j :: js) = (if Act.send x = Act.stop then .ok (s2', [⟨j.packet, log, .send x⟩])
        else (run o s2' js >>= fun z => .ok (z.1, ⟨j.packet, log, .send x⟩ :: z.2))) := by
      simp only [run, h1]; rfl
    rw [this, if_neg (by simp), h2]; rfl
  · rw [sent_cons, h3]; rfl
  · intro it hit
    rcases List.mem_cons.1 hit with rfl | hit
    · exact ⟨x, rfl⟩
    · exact h4 it hit

/-- The second run passes everything on. -/
theorem run_again {sid : Nat} {fields : Out → Packet} (hp : ∀ t n, (fields (.pat t n)).pid = 0) :
    ∀ (is : List Input) (items : List Item) (ts : List (List Table)), Again is items ts →
    ∀ (s f s2 : St) (rs : List Table), Same sid s s2 → Inv { sid := sid } s rs → s.done = false →
      run { sid := sid } s is = .ok (f, items) → (∀ t ∈ received items, Conforming sid t) → Carried sid items →
      (∀ p, Out.orig p ∈ sent items → fields (.orig p) = p) →
      ∃ f2 items2, run { sid := sid } s2 (reread fields (sent items) ts) = .ok (f2, items2) ∧
        sent items2 = sent items ∧ (∀ it ∈ items2, ∃ x, it.act = .send x) ∧ items2.length = (sent items).length := by
  intro is items ts ha
  induction ha with
  | nil =>
    intro s f s2 rs hS hI hd0 hr hc hk hq
    exact ⟨s2, [], rfl, rfl, by simp, rfl⟩
  | @drop i is it items ts hact _ ih =>
    intro s f s2 rs hS hI hd0 hr hc hk hq
    obtain ⟨s1, log, act, h1, ⟨ha, _, he⟩ | ⟨ha, rest, h2, he⟩⟩ := run_cons hr
    · cases he; rw [ha] at hact; cases hact
    · cases he
      simp only at hact
      subst hact
      have hcl : ∀ t ∈ log, Conforming sid t := fun t ht => hc t (List.mem_flatMap.2 ⟨_, List.mem_cons_self, ht⟩)
      have hnl : ∀ t ∈ log, validCat t = none ∧ validPmt sid t = none := by
        intro t ht
        refine ⟨?_, ?_⟩
        · cases e : validCat t with
          | none => rfl
          | some c =>
            obtain ⟨p, hp⟩ := hk _ List.mem_cons_self ⟨t, ht, .inl (by rw [e]; simp)⟩
            cases hp
        · cases e : validPmt sid t with
          | none => rfl
          | some c =>
            obtain ⟨p, hp⟩ := hk _ List.mem_cons_self ⟨t, ht, .inr (by rw [e]; simp)⟩
            cases hp
      have hse := step_dropped hS.one hI h1 hcl hnl
      subst hse
      rw [sent_cons]
      exact ih s1 f s2 _ hS (step_spec hI h1).inv hd0 h2
        (fun t ht => hc t (by
          obtain ⟨a, ha, hb⟩ := List.mem_flatMap.1 ht
          exact List.mem_flatMap.2 ⟨a, List.mem_cons_of_mem _ ha, hb⟩))
        (fun a ha => hk a (List.mem_cons_of_mem _ ha)) (fun p hp => hq p (by rw [sent_cons]; exact hp))
  | @orig i is it items ts p hact _ ih =>
    intro s f s2 rs hS hI hd0 hr hc hk hq
    obtain ⟨s1, log, act, h1, ⟨ha, _, he⟩ | ⟨ha, rest, h2, he⟩⟩ := run_cons hr
    · cases he; rw [ha] at hact; cases hact
    · cases he
      simp only at hact
      subst hact
      have hcl : ∀ t ∈ log, Conforming sid t := fun t ht => hc t (List.mem_flatMap.2 ⟨_, List.mem_cons_self, ht⟩)
      obtain ⟨s3, hf, hre⟩ := step_split h1
      obtain ⟨s4, hf2, hS4⟩ := feed_same _ s s3 s2 log hS hf hcl
      rw [sent_cons]
      have hpp : p = i.packet := ((step_spec hI h1).orig p rfl).1
      have hfi : fields (.orig p) = i.packet := (hq p (by rw [sent_cons]; exact List.mem_cons_self)).trans hpp
      obtain ⟨hd5, s5, y, h5, hS5, hy, _⟩ := rest_same (q := i.packet) (log2 := log) hS4 hre rfl
      obtain ⟨f2, items2, k1, k2, k3, k4⟩ := ih s1 f s5 _ hS5 (step_spec hI h1).inv hd5 h2
        (fun t ht => hc t (by
          obtain ⟨a, ha, hb⟩ := List.mem_flatMap.1 ht
          exact List.mem_flatMap.2 ⟨a, List.mem_cons_of_mem _ ha, hb⟩))
        (fun a ha => hk a (List.mem_cons_of_mem _ ha)) (fun p hp => hq p (by rw [sent_cons]; exact List.mem_cons_of_mem _ hp))
      have hx : y = .orig p := by rw [hy, hpp]; rfl
      subst hx
      exact run_sent (j := ⟨fields (.orig p), i.tables⟩) (by rw [hfi, step_rest (by exact hf2)]; exact h5) k1 k2 k3 k4
  | @pat i is it items ts t n l hact hl hu _ ih =>
    intro s f s2 rs hS hI hd0 hr hc hk hq
    obtain ⟨s1, log, act, h1, ⟨ha, _, he⟩ | ⟨ha, rest, h2, he⟩⟩ := run_cons hr
    · cases he; rw [ha] at hact; cases hact
    · cases he
      simp only at hact
      subst hact
      have hcl : ∀ t ∈ log, Conforming sid t := fun t ht => hc t (List.mem_flatMap.2 ⟨_, List.mem_cons_self, ht⟩)
      have hnl : ∀ t ∈ log, validCat t = none ∧ validPmt sid t = none := by
        intro t ht
        refine ⟨?_, ?_⟩
        · cases e : validCat t with
          | none => rfl
          | some c =>
            obtain ⟨p, hp⟩ := hk _ List.mem_cons_self ⟨t, ht, .inl (by rw [e]; simp)⟩
            cases hp
        · cases e : validPmt sid t with
          | none => rfl
          | some c =>
            obtain ⟨p, hp⟩ := hk _ List.mem_cons_self ⟨t, ht, .inr (by rw [e]; simp)⟩
            cases hp
      obtain ⟨s3, hf, hre⟩ := step_split h1
      obtain ⟨hp0, hpk, _, hdn⟩ := rest_pat hre
      have hB := feed_byPat hS.one hf hcl hnl
      have hs2 : s3 = { s2 with pmtPid := s3.pmtPid, demux := s3.demux, packetizer := s3.packetizer, psi := s3.psi } := by
        have e1 := hB.eq
        have e2 : s3.error = s.error := by
          have : ∀ u : St, Fine sid u → u.done = false → u.error = false := by
            intro u hu hd
            cases e : u.error with
            | false => rfl
            | true => rw [hu.err e] at hd; cases hd
          rw [this s3 hB.fine hdn, this s hS.one hd0]
        have e3 : s3.done = s.done := by rw [hdn, hd0]
        rw [e2, e3] at e1
        rw [hS.eq]
        exact e1
      have hor : s2 = { s3 with demux := s2.demux } ∨ ∃ u ∈ l, u.sourcePid = 0 := by
        by_cases hex : ∃ u ∈ log, usablePat u ≠ none
        · exact .inr (hu hex)
        · left
          rw [hB.none fun u hu => Decidable.not_not.1 fun hne => hex ⟨u, hu, hne⟩]
          exact hS.eq
      obtain ⟨s4, log2, hf2, hS4⟩ := feed_pat hpk hB.fine l s2 hS.two hs2 hl hor
      rw [sent_cons]
      obtain ⟨hd5, s5, y, h5, hS5, hy, _⟩ := rest_same (q := fields (.pat t n)) (log2 := log2) hS4 hre
        ((hp t n).trans hp0.symm)
      obtain ⟨f2, items2, k1, k2, k3, k4⟩ := ih s1 f s5 _ hS5 (step_spec hI h1).inv hd5 h2
        (fun t ht => hc t (by
          obtain ⟨a, ha, hb⟩ := List.mem_flatMap.1 ht
          exact List.mem_flatMap.2 ⟨a, List.mem_cons_of_mem _ ha, hb⟩))
        (fun a ha => hk a (List.mem_cons_of_mem _ ha)) (fun p hp => hq p (by rw [sent_cons]; exact List.mem_cons_of_mem _ hp))
      have hx : y = .pat t n := hy
      subst hx
      exact run_sent (j := ⟨fields (.pat t n), l⟩) (by rw [step_rest (by rw [hp]; exact hf2)]; exact h5) k1 k2 k3 k4

end Mirakc.ServiceFilter

namespace Mirakc.Main
open Mirakc.Spec.Main Mirakc.Spec.Pipeline Mirakc.Spec.ServiceFilter
open Mirakc.Pipeline (Codec)

/-- The packets passed on are packets of the stream. -/
theorem sent_from {o : ServiceFilter.Opt} {is : List Input} {f : ServiceFilter.St} {items : List ServiceFilter.Item}
    (h : ServiceFilter.run o (ServiceFilter.init o) is = .ok (f, items)) (p : Packet)
    (hp : ServiceFilter.Out.orig p ∈ sent items) : ∃ i ∈ is, p = i.packet := by
  obtain ⟨it, hit, hs⟩ := List.mem_filterMap.1 hp
  obtain ⟨pre, post, rfl⟩ := List.append_of_mem hit
  obtain ⟨s1, s2, i, h1, h2, h3, _, _, hsp⟩ := (ServiceFilter.run_spec _ _ _ [] _ (ServiceFilter.inv_init o) h).2 pre it post rfl
  have ha : it.act = .send (.orig p) := by
    unfold sentOf at hs
    split at hs
    · next x e => cases hs; exact e
    · cases hs
  exact ⟨i, List.mem_of_getElem? h2, (hsp.orig p ha).1⟩

theorem mem_seen {P Q : Type} {f : Nat → Q → P} : ∀ {l : List Q} {n : Nat} {x : P}, x ∈ seen f n l →
    ∃ k, ∃ q ∈ l, x = f k q
  | [], _, _, h => by cases h
  | q :: l, n, x, h => by
    rcases List.mem_cons.1 h with rfl | h
    · exact ⟨n, q, List.mem_cons_self, rfl⟩
    · obtain ⟨k, q', hq, e⟩ := mem_seen h
      exact ⟨k, q', List.mem_cons_of_mem _ hq, e⟩

theorem again_length {is : List Input} {items : List ServiceFilter.Item} {ts : List (List Table)} (h : Again is items ts) :
    ts.length = (sent items).length ∧ ∀ it ∈ items, it.act ≠ .stop := by
  induction h with
  | nil => exact ⟨rfl, by simp⟩
  | drop ha _ ih =>
    refine ⟨by rw [ServiceFilter.sent_cons, sentOf, ha]; exact ih.1, fun it hit => ?_⟩
    rcases List.mem_cons.1 hit with rfl | hit
    · rw [ha]; simp
    · exact ih.2 it hit
  | orig ha _ ih =>
    refine ⟨by rw [ServiceFilter.sent_cons, sentOf, ha]; simp [ih.1], fun it hit => ?_⟩
    rcases List.mem_cons.1 hit with rfl | hit
    · rw [ha]; simp
    · exact ih.2 it hit
  | pat ha _ _ _ ih =>
    refine ⟨by rw [ServiceFilter.sent_cons, sentOf, ha]; simp [ih.1], fun it hit => ?_⟩
    rcases List.mem_cons.1 hit with rfl | hit
    · rw [ha]; simp
    · exact ih.2 it hit

theorem seen_reread (c : Codec) (tabs : Nat → List Table) : ∀ (os : List ServiceFilter.Out) (ts : List (List Table)) (n : Nat),
    ts.length = os.length → (∀ k l, ts[k]? = some l → tabs (n + k) = l) →
    seen (arrived c tabs) n (os.map (serviceBytes c)) = reread (fun x => c.packet (serviceBytes c x)) os ts
  | [], [], _, _, _ => rfl
  | x :: os, l :: ts, n, hl, h => by
    have h0 := h 0 l rfl
    simp only [List.map_cons, seen, reread, List.zipWith_cons_cons, arrived]
    rw [Nat.add_zero] at h0
    rw [h0, seen_reread c tabs os ts (n + 1) (by simpa using hl) fun k l' hk => by
      rw [show n + 1 + k = n + (k + 1) by omega]; exact h (k + 1) l' (by simpa using hk)]
    rfl
  | [], _ :: _, _, hl, _ => by cases hl
  | _ :: _, [], _, hl, _ => by cases hl

/-- No PAT without the service was received unless the filter stopped. -/
theorem no_missing {sid : Nat} {is : List Input} {f : ServiceFilter.St} {items : List ServiceFilter.Item}
    (h : ServiceFilter.run { sid := sid } (ServiceFilter.init { sid := sid }) is = .ok (f, items))
    (hn : ∀ it ∈ items, it.act ≠ .stop) : ¬ ∃ t ∈ received items, Missing sid t := by
  rintro ⟨t, ht, hm⟩
  have hI := (ServiceFilter.run_spec _ _ _ [] _ (ServiceFilter.inv_init _) h).1
  have hd := ServiceFilter.run_done _ _ _ _ rfl h hn
  rw [hI.done.2 ⟨t, by simpa using ht, .inl hm⟩] at hd
  cases hd

/-- A test for `Again`. -/
def again : List Input → List ServiceFilter.Item → List (List Table) → Bool
  | [], [], [] => true
  | i :: is, it :: items, ts =>
    match it.act, ts with
    | .drop, ts => again is items ts
    | .send (.orig _), l :: ts => decide (l = i.tables) && again is items ts
    | .send (.pat t _), l :: ts => l.all (fun u => u.sourcePid != 0 || (u.valid && decide (u.body = .pat t))) &&
      (!it.handled.any (fun u => (usablePat u).isSome) || l.any (fun u => u.sourcePid == 0)) && again is items ts
    | _, _ => false
  | _, _, _ => false

theorem again_sound : ∀ {is : List Input} {items : List ServiceFilter.Item} {ts : List (List Table)},
    again is items ts = true → Again is items ts
  | [], [], [], _ => .nil
  | i :: is, it :: items, ts, h => by
    unfold again at h
    split at h
    · next ha => exact .drop ha (again_sound h)
    · next p l ts ha =>
      simp only [Bool.and_eq_true, decide_eq_true_eq] at h
      obtain ⟨rfl, h⟩ := h
      exact .orig ha (again_sound h)
    · next t n l ts ha =>
      simp only [Bool.and_eq_true, List.all_eq_true, Bool.or_eq_true, bne_iff_ne, decide_eq_true_eq,
        Bool.not_eq_true', List.any_eq_true, beq_iff_eq] at h
      refine .pat ha (fun u hu h0 => ?_) (fun ⟨u, hu, hs⟩ => ?_) (again_sound h.2)
      · rcases h.1.1 u hu with h1 | h1
        · exact absurd h0 h1
        · exact h1
      · rcases h.1.2 with h1 | h1
        · have : (it.handled.any fun u => (usablePat u).isSome) = true :=
            List.any_eq_true.2 ⟨u, hu, by cases e : usablePat u with | none => exact absurd e hs | some _ => rfl⟩
          rw [h1] at this; cases this
        · exact h1
    · cases h
  | [], _ :: _, _, h => by cases h
  | _ :: _, [], _, h => by cases h
  | [], [], _ :: _, h => by cases h

end Mirakc.Main

namespace Mirakc.Main
open Mirakc.Pipeline Mirakc.Spec Mirakc.Spec.Main Mirakc.Spec.Pipeline Mirakc.Spec.ServiceFilter

/-- Behind the filter only what it passes on matters. -/
theorem foldP_sent {σ : Type} {o : ServiceFilter.Opt} (snk : Sink ServiceFilter.Out σ) :
    ∀ (is : List Input) (s f : ServiceFilter.St) (items : List ServiceFilter.Item) (rs : List Table) (d : σ),
      ServiceFilter.Inv o s rs → s.error = false → ServiceFilter.run o s is = .ok (f, items) →
      (∀ it ∈ items, it.act ≠ .stop) →
      (foldP (ServiceFilter.sink o snk) is (s, d)).map (fun r => (r.1.error, r.2)) =
        (foldP snk (sent items) d).map (fun d => (false, d))
  | [], s, f, items, rs, d, hI, he, h, hn => by
    cases h
    show Except.ok (s.error, d) = Except.ok (false, d)
    rw [he]
  | i :: is, s, f, items, rs, d, hI, he, h, hn => by
    obtain ⟨s1, log, act, h1, ⟨ha, _, rfl⟩ | ⟨ha, rest, h2, rfl⟩⟩ := ServiceFilter.run_cons h
    · exact absurd ha (hn _ List.mem_cons_self)
    · have hsp := ServiceFilter.step_spec hI h1
      have he1 : s1.error = false := by
        cases e : s1.error with
        | false => rfl
        | true =>
          obtain ⟨t, ht, hm⟩ := hsp.inv.error.1 e
          exact absurd (hsp.stop.2 ⟨t, ht, .inl hm⟩) ha
      have ih := fun d => foldP_sent snk is s1 f rest _ d hsp.inv he1 h2
        (fun it hit => hn it (List.mem_cons_of_mem _ hit))
      rw [ServiceFilter.sent_cons]
      cases act with
      | stop => exact absurd rfl ha
      | drop =>
        have hh : (ServiceFilter.sink o snk).handle (s, d) i = .ok (true, s1, d) := by
          simp only [ServiceFilter.sink, h1]; rfl
        have e1 : foldP (ServiceFilter.sink o snk) (i :: is) (s, d) = foldP (ServiceFilter.sink o snk) is (s1, d) := by
          simp only [foldP, hh]; rfl
        rw [e1]
        exact ih d
      | send x =>
        have hh : (ServiceFilter.sink o snk).handle (s, d) i =
            (snk.handle d x >>= fun r => Except.ok (r.1, s1, r.2)) := by
          simp only [ServiceFilter.sink, h1]; rfl
        have e1 : foldP (ServiceFilter.sink o snk) (i :: is) (s, d) = ((snk.handle d x >>= fun r => Except.ok (r.1, s1, r.2)) >>=
            fun y => if y.1 = true then foldP (ServiceFilter.sink o snk) is y.2 else .ok y.2) := by
          simp only [foldP, hh]
        have e2 : foldP snk ((sentOf ⟨i.packet, log, .send x⟩).toList ++ sent rest) d = (snk.handle d x >>=
            fun y => if y.1 = true then foldP snk (sent rest) y.2 else .ok y.2) := rfl
        rw [e1, e2]
        cases snk.handle d x with
        | error e => rfl
        | ok r =>
          obtain ⟨ok, d1⟩ := r
          cases ok with
          | true => exact ih d1
          | false => show Except.ok (s1.error, d1) = Except.ok (false, d1); rw [he1]

theorem around_sent {σ : Type} {sid : Nat} (snk : Sink ServiceFilter.Out σ) {is : List Input} {f : ServiceFilter.St}
    {items : List ServiceFilter.Item} (d : σ)
    (h : ServiceFilter.run { sid := sid } (ServiceFilter.init { sid := sid }) is = .ok (f, items))
    (hn : ∀ it ∈ items, it.act ≠ .stop) :
    (around (ServiceFilter.sink { sid := sid } snk) (ServiceFilter.init { sid := sid }, d)
      (foldP (ServiceFilter.sink { sid := sid } snk) is)).map (fun r => (r.1, r.2.2)) =
    around snk d (foldP snk (sent items)) := by
  have key := fun d => foldP_sent snk is _ f items [] d (ServiceFilter.inv_init { sid := sid }) rfl h hn
  unfold around
  change Except.map _ ((snk.start d >>= fun r => Except.ok (r.1, ServiceFilter.init { sid := sid }, r.2)) >>= fun x => _) = _
  cases snk.start d with
  | error e => rfl
  | ok r =>
    obtain ⟨ok, d1⟩ := r
    cases ok with
    | false => rfl
    | true =>
      show Except.map _ (foldP (ServiceFilter.sink { sid := sid } snk) is (ServiceFilter.init { sid := sid }, d1) >>= fun x => _) =
        (foldP snk (sent items) d1 >>= fun x => _)
      have k := key d1
      cases hl : foldP (ServiceFilter.sink { sid := sid } snk) is (ServiceFilter.init { sid := sid }, d1) with
      | error e =>
        cases hr : foldP snk (sent items) d1 with
        | error e' => rw [hl, hr] at k; cases k; rfl
        | ok d2 => rw [hl, hr] at k; cases k
      | ok r =>
        obtain ⟨s1, d2⟩ := r
        cases hr : foldP snk (sent items) d1 with
        | error e' => rw [hl, hr] at k; cases k
        | ok d3 =>
          rw [hl, hr] at k
          have ke : s1.error = false ∧ d2 = d3 := by
            have := Except.ok.inj k
            exact ⟨congrArg Prod.fst this, congrArg Prod.snd this⟩
          obtain ⟨ke, rfl⟩ := ke
          show Except.map _ ((snk.finish d2 >>= fun d => Except.ok (s1, d)) >>= fun x => _) = (snk.finish d2 >>= fun x => _)
          cases snk.finish d2 with
          | error e => rfl
          | ok d4 =>
            show Except.ok ((ServiceFilter.sink { sid := sid } snk).exitCode (s1, d4), d4) = Except.ok (snk.exitCode d4, d4)
            have : (ServiceFilter.sink { sid := sid } snk).exitCode (s1, d4) = snk.exitCode d4 := by
              simp only [ServiceFilter.sink, ke]
              split <;> rfl
            rw [this]

/-- Two streams with the same output of the filter. -/
theorem feed_sent {w : World} {ps : List (List UInt8)} (hr : Reads w ps) {sid : Nat} {f : ServiceFilter.St}
    {items : List ServiceFilter.Item}
    (h : ServiceFilter.run { sid := sid } (ServiceFilter.init { sid := sid }) (seen (input w.codec w.tables) 0 ps) = .ok (f, items))
    (hn : ∀ it ∈ items, it.act ≠ .stop) {σ : Type} (snk : Sink ServiceFilter.Out σ) (d : σ)
    {β : Type} (k : Nat × σ → Except Stop β) :
    (feed w (via (input w.codec w.tables) (ServiceFilter.sink { sid := sid } snk)) (0, ServiceFilter.init { sid := sid }, d)
      >>= fun r => k (r.1, r.2.2.2)) = ((around snk d (foldP snk (sent items))).mapError .fault >>= k) := by
  have h1 := feed_around hr (input w.codec w.tables) (ServiceFilter.sink { sid := sid } snk)
    (ServiceFilter.init { sid := sid }, d) (fun r => k (r.1, r.2.2))
  refine h1.trans ?_
  rw [← around_sent snk d h hn]
  cases around (ServiceFilter.sink { sid := sid } snk) (ServiceFilter.init { sid := sid }, d)
    (foldP (ServiceFilter.sink { sid := sid } snk) (seen (input w.codec w.tables) 0 ps)) <;> rfl

end Mirakc.Main
