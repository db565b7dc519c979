import Verif.Spec.PcrSyncAborts
import Verif.Proof.PcrSynchronizerWatch
import Verif.Proof.Demux
import Verif.Proof.StopsAt
import Verif.Proof.Pcr
/-
Which tables sync-clocks looks at, and when it terminates abnormally, for arbitrary streams.
-/
namespace Mirakc.PcrSynchronizer
open Mirakc.Spec Mirakc.Spec.PcrSynchronizer

theorem listed_iff {o : Opt} {l : List Ev} {sid pid : Nat} : Listed o l sid pid ↔ (sid, pid) ∈ services o l := by
  unfold Listed services
  cases latestPat l with
  | none => simp
  | some pat =>
    simp only [Option.some.injEq, exists_eq_left', List.mem_filter, decide_eq_true_eq]
    rw [OMap.find?_iff]
    exact And.comm

theorem services_none {o : Opt} {l : List Ev} {e : Ev} (h : patOf e = none) :
    services o (l ++ [e]) = services o l := by
  unfold services
  rw [latestPat_snoc, h]

theorem services_nodup {o : Opt} {l : List Ev} (p : Nat × Nat → Bool) :
    (((services o l).filter p).map (·.1)).Nodup := by
  unfold services
  cases latestPat l with
  | none => simp
  | some pat =>
    refine List.pairwise_map.2 (((pat.pmts.sorted.filter _).filter _).imp ?_)
    intro a b h
    exact Nat.ne_of_lt h

theorem saysAV_iff {sdt : Sdt} {sid : Nat} :
    saysAV sdt sid = true ↔ ∃ x, sdt.services.find? sid = some x ∧ AudioVideo x.serviceType := by
  unfold saysAV AudioVideo
  cases sdt.services.find? sid with
  | none => simp
  | some x => simp only [Option.any_some, List.contains_iff_mem, Option.some.injEq, exists_eq_left']

theorem av_eq (sdt : Sdt) : av sdt = fun e => saysAV sdt e.1 := by
  funext e
  rw [Bool.eq_iff_iff, av_iff, saysAV_iff]

theorem clockPid_none {o : Opt} {l : List Ev} {e : Ev} (h : patOf e = none)
    (hp : ∀ pid x, pmtOf e = some (pid, x) → ¬ Listed o l x.serviceId pid) (sid : Nat) :
    clockPid o (l ++ [e]) sid = clockPid o l sid := by
  unfold clockPid
  rw [pmts_snoc h]
  cases he : pmtOf e with
  | none => simp
  | some y => simp [hp y.1 y.2 he]

theorem clockPid_pmt {o : Opt} {l : List Ev} {e : Ev} (h : patOf e = none) {pid : Nat} {x : Pmt}
    (hp : pmtOf e = some (pid, x)) (hl : Listed o l x.serviceId pid) (sid : Nat) :
    clockPid o (l ++ [e]) sid = if sid = x.serviceId then some x.pcrPid else clockPid o l sid := by
  unfold clockPid
  rw [pmts_snoc h, hp]
  simp only [if_pos hl, List.filter_append]
  by_cases hs : sid = x.serviceId
  · simp [hs]
  · simp [hs, Ne.symm hs]

theorem clockPid_listed {o : Opt} {l : List Ev} {sid : Nat} (h : clockPid o l sid ≠ none) :
    ∃ pid, Listed o l sid pid := by
  obtain ⟨x, hx, rfl⟩ := clock_of.1 h
  obtain ⟨pid, _, h1⟩ := mem_pmts.1 hx
  exact ⟨pid, h1⟩

theorem expected_none {o : Opt} {l : List Ev} {e : Ev} (h : patOf e = none) :
    expected o (l ++ [e]) = expected o l +
      (match sdtOf e with | some x => ((services o l).filter fun e => saysAV x e.1).length | none => 0) := by
  unfold expected
  rw [sdts_none h, services_none h]
  cases sdtOf e <;> simp

theorem expected_pat {o : Opt} {l : List Ev} {e : Ev} {pat : Pat} (h : patOf e = some pat) :
    expected o (l ++ [e]) = 0 := by
  unfold expected
  rw [sdts_pat h]
  rfl

theorem expected_empty {o : Opt} {l : List Ev} (h : services o l = []) : expected o l = 0 := by
  unfold expected
  rw [h]
  induction sdts l with
  | nil => rfl
  | cons a b ih => simpa using ih

theorem hasAV_snoc {l : List Ev} {e : Ev} (h : patOf e = none) {sid : Nat} :
    HasAudioVideo (l ++ [e]) sid ↔ HasAudioVideo l sid ∨ ∃ x, sdtOf e = some x ∧ saysAV x sid = true := by
  unfold HasAudioVideo
  rw [sdts_none h]
  simp only [List.mem_append, ← saysAV_iff]
  cases sdtOf e with
  | none => simp
  | some x =>
    simp only [List.mem_singleton, Option.some.injEq, exists_eq_left']
    constructor
    · rintro ⟨y, hy | rfl, k⟩
      · exact .inl ⟨y, hy, k⟩
      · exact .inr k
    · rintro (⟨y, hy, k⟩ | k)
      · exact ⟨y, .inl hy, k⟩
      · exact ⟨x, .inr rfl, k⟩

/-- A PMT of a service listed, on its PID. -/
def Accepted (o : Opt) (l : List Ev) (e : Ev) : Prop :=
  ∃ pid x, pmtOf e = some (pid, x) ∧ Listed o l x.serviceId pid

theorem complete_none {o : Opt} {l : List Ev} {e : Ev} (h : patOf e = none) :
    Complete o (l ++ [e]) ↔ Complete o l ∨ (Accepted o l e ∧ known o (l ++ [e]) = expected o (l ++ [e])) := by
  constructor
  · rintro ⟨a, e', b, he, hb, h1, h2⟩
    rcases List.eq_nil_or_concat b with rfl | ⟨b', y, rfl⟩
    · obtain ⟨rfl, h3⟩ := List.append_inj' he rfl
      cases h3
      exact .inr ⟨h1, h2⟩
    · rw [List.concat_eq_append] at he hb
      rw [← List.cons_append, ← List.append_assoc] at he
      obtain ⟨rfl, h3⟩ := List.append_inj' he rfl
      rw [List.filterMap_append] at hb
      exact .inl ⟨a, e', b', rfl, (List.append_eq_nil_iff.1 hb).1, h1, h2⟩
  · rintro (⟨a, e', b, rfl, hb, h1⟩ | ⟨h1, h2⟩)
    · exact ⟨a, e', b ++ [e], by simp, by rw [List.filterMap_append, hb]; simp [h], h1⟩
    · exact ⟨l, e, [], by simp, rfl, h1, h2⟩

theorem complete_pat {o : Opt} {l : List Ev} {e : Ev} {pat : Pat} (h : patOf e = some pat) :
    ¬ Complete o (l ++ [e]) := by
  rintro ⟨a, e', b, he, hb, ⟨pid, x, h1, _⟩, _⟩
  rcases List.eq_nil_or_concat b with rfl | ⟨b', y, rfl⟩
  · obtain ⟨rfl, h3⟩ := List.append_inj' he rfl
    cases h3
    rw [(kinds_pat h).2.2] at h1
    cases h1
  · rw [List.concat_eq_append] at he hb
    rw [← List.cons_append, ← List.append_assoc] at he
    obtain ⟨rfl, h3⟩ := List.append_inj' he rfl
    cases h3
    rw [List.filterMap_append] at hb
    simp [h] at hb

theorem listed_same {o : Opt} {a : List Ev} {sid pid : Nat} : ∀ (b : List Ev), b.filterMap patOf = [] →
    (Listed o (a ++ b) sid pid ↔ Listed o a sid pid) := by
  intro b hb
  unfold Listed latestPat
  rw [List.filterMap_append, hb, List.append_nil]

theorem complete_listed {o : Opt} {l : List Ev} (h : Complete o l) : ∃ sid pid, Listed o l sid pid := by
  obtain ⟨a, e, b, rfl, hb, ⟨pid, x, h1, h2⟩, _⟩ := h
  refine ⟨x.serviceId, pid, (listed_same (e :: b) ?_).2 h2⟩
  have : patOf e = none := none_of_not fun p hp => by
    rw [(kinds_pat hp).2.2] at h1
    cases h1
  rw [List.filterMap_cons, this]
  exact hb

/-- No PAT that was replaced placed a PMT on the PID. -/
def Kept (o : Opt) (l : List Ev) (pid : Nat) : Prop :=
  ∀ a e b, l = a ++ e :: b → patOf e ≠ none → ∀ sid, ¬ Listed o a sid pid

theorem kept_snoc {o : Opt} {l : List Ev} {e : Ev} {pid : Nat} :
    Kept o (l ++ [e]) pid ↔ Kept o l pid ∧ (patOf e ≠ none → ∀ sid, ¬ Listed o l sid pid) := by
  constructor
  · intro h
    exact ⟨fun a e' b he => h a e' (b ++ [e]) (by simp [he]), h l e [] (by simp)⟩
  · rintro ⟨h1, h2⟩ a e' b he
    rcases List.eq_nil_or_concat b with rfl | ⟨b', y, rfl⟩
    · obtain ⟨rfl, h3⟩ := List.append_inj' he rfl
      cases h3
      exact h2
    · rw [List.concat_eq_append, ← List.cons_append, ← List.append_assoc] at he
      obtain ⟨rfl, h3⟩ := List.append_inj' he rfl
      exact h1 a e' b' rfl

/-- What the state means, exactly. -/
structure Full (o : Opt) (s : St) (l : List Ev) : Prop where
  entries : s.pmtPids.entries = services o l
  demux : ∀ x, x ∈ s.demux ↔ Watched o l x
  count : s.pmtCount = expected o l
  clocks : ∀ sid, s.pcrPidMap.find? sid = clockPid o l sid

theorem Full.listed {o : Opt} {s : St} {l : List Ev} (h : Full o s l) {sid pid : Nat} :
    s.pmtPids.find? sid = some pid ↔ Listed o l sid pid := by
  rw [OMap.find?_iff, listed_iff, h.entries]

theorem size_known {o : Opt} {l : List Ev} {m : OMap Nat} (h : ∀ sid, m.find? sid = clockPid o l sid) :
    m.size = known o l := by
  have hsub : ∀ k, k ∈ m.keys ↔ k ∈ ((services o l).filter fun e => (clockPid o l e.1).isSome).map (·.1) := by
    intro k
    rw [OMap.mem_keys, List.mem_map]
    constructor
    · rintro ⟨v, hv⟩
      rw [h] at hv
      obtain ⟨pid, hl⟩ := clockPid_listed (o := o) (l := l) (sid := k) (by simp [hv])
      exact ⟨(k, pid), List.mem_filter.2 ⟨listed_iff.1 hl, by simp [hv]⟩, rfl⟩
    · rintro ⟨⟨sid, pid⟩, hm, rfl⟩
      obtain ⟨_, hs⟩ := List.mem_filter.1 hm
      rw [Option.isSome_iff_exists] at hs
      obtain ⟨v, hv⟩ := hs
      exact ⟨v, by rw [h]; exact hv⟩
  have := (length_eq_iff (OMap.keys_nodup m) (services_nodup (o := o) (l := l) _)
    (fun k hk => (hsub k).1 hk)).2 (fun k hk => (hsub k).2 hk)
  rw [OMap.size_eq, this, List.length_map]
  rfl

theorem full_init (o : Opt) : Full o {} [] := by
  refine ⟨rfl, fun x => ?_, rfl, fun _ => rfl⟩
  have hc : ¬ Complete o [] := by
    rintro ⟨a, e, b, h, _⟩
    simp at h
  simp only [Watched, Listed, latestPat, pidPat, hc, List.mem_singleton]
  simp

theorem full_pat {o : Opt} {s : St} {l : List Ev} {t : Table} {pat : Pat} (hF : Full o s l)
    (he : patOf (.tab t) = some pat) : Full o (handlePat o s t pat) (l ++ [.tab t]) := by
  obtain ⟨t', e, hp, hv, hb, hts⟩ := patOf_some.1 he
  cases e
  have hserv : services o (l ++ [.tab t]) = (pat.pmts.filter fun e => isSelected o e.1).entries := by
    unfold services
    rw [latestPat_snoc, he]
    simp only [OMap.filter]
    congr 1
    funext e
    rw [Bool.eq_iff_iff, decide_eq_true_iff, selected_iff]
  have hav : ∀ sid, ¬ HasAudioVideo (l ++ [.tab t]) sid := by
    rintro sid ⟨x, hx, _⟩
    rw [sdts_pat he] at hx
    simp at hx
  have hclock : ∀ sid, clockPid o (l ++ [.tab t]) sid = none := by
    intro sid
    simp [clockPid, pmts_pat he]
  have hwatch : ∀ x, Watched o (l ++ [.tab t]) x ↔
      x = 0x11 ∨ (x = 0 ∧ Kept o l x ∧ ∀ sid, ¬ Listed o l sid x) := by
    intro x
    have h0 := kept_snoc (o := o) (l := l) (e := .tab t) (pid := x)
    unfold Kept at h0
    unfold Watched
    rw [h0, latestPat_snoc, he]
    simp only [hav, and_false, exists_false, false_or, complete_pat he, ne_eq, reduceCtorEq, not_false_eq_true,
      and_true, true_implies]
    rfl
  unfold handlePat
  simp only [hp, hv, pidPat, bne_self_eq_false, Bool.false_eq_true, if_false, Bool.not_true, beq_iff_eq, hts]
  by_cases hempty : s.pmtPids.entries = []
  · -- no service was selected
    have hno : ∀ sid pid, ¬ Listed o l sid pid := by
      intro sid pid hl
      rw [listed_iff, ← hF.entries, hempty] at hl
      simp at hl
    have hse : services o l = [] := by rw [← hF.entries]; exact hempty
    have hfin : Full o { s with
        pmtPids := pat.pmts.filter fun e => isSelected o e.1, demux := s.demux.add pidSdt } (l ++ [.tab t]) := by
      refine ⟨hserv.symm, fun x => ?_, ?_, fun sid => ?_⟩
      · rw [hwatch]
        show x ∈ PidSet.add s.demux 0x11 ↔ _
        simp only [PidSet.add, List.mem_cons]
        rw [hF.demux]
        constructor
        · rintro (h | h | h | h | h)
          · exact .inl h
          · obtain ⟨sid, h, _⟩ := h
            exact absurd h (hno _ _)
          · exact .inl h.1
          · obtain ⟨sid, pid, h⟩ := complete_listed h.2
            exact absurd h (hno _ _)
          · exact .inr ⟨h.1, h.2, fun sid => hno _ _⟩
        · rintro (h | h)
          · exact .inl h
          · exact .inr (.inr (.inr (.inr ⟨h.1, h.2.1⟩)))
      · show s.pmtCount = _
        rw [hF.count, expected_pat he, expected_empty hse]
      · show s.pcrPidMap.find? sid = _
        rw [hF.clocks, hclock]
        refine none_of_not fun v hv => ?_
        obtain ⟨pid, h⟩ := clockPid_listed (o := o) (l := l) (sid := sid) (by simp [hv])
        exact hno _ _ h
    have e1 : s.pmtPids.entries.isEmpty = true := by rw [hempty]; rfl
    simp only [e1, Bool.not_true, Bool.false_eq_true, if_false]
    split
    · exact ⟨hfin.entries, hfin.demux, hfin.count, hfin.clocks⟩
    · exact ⟨hfin.entries, hfin.demux, hfin.count, hfin.clocks⟩
  · have hfin : Full o { resetStates s with
        pmtPids := pat.pmts.filter fun e => isSelected o e.1
        demux := (resetStates s).demux.add pidSdt } (l ++ [.tab t]) := by
      refine ⟨hserv.symm, fun x => ?_, ?_, fun sid => ?_⟩
      · rw [hwatch]
        show x ∈ PidSet.add (((s.pmtPids.entries.map (·.2)).foldl PidSet.remove (s.demux.remove 0x14)).remove 0x11) 0x11 ↔ _
        simp only [PidSet.add, List.mem_cons, mem_remove, mem_removes]
        rw [hF.demux, hF.entries]
        have hl : x ∉ (services o l).map (·.2) ↔ ∀ sid, ¬ Listed o l sid x := by
          constructor
          · intro h sid k
            exact h (List.mem_map.2 ⟨(sid, x), listed_iff.1 k, rfl⟩)
          · rintro h k
            obtain ⟨⟨sid, pid⟩, k1, rfl⟩ := List.mem_map.1 k
            exact h sid (listed_iff.2 k1)
        rw [hl]
        constructor
        · rintro (h | ⟨⟨⟨h, h2⟩, h3⟩, h4⟩)
          · exact .inl h
          · rcases h with ⟨sid, h, _⟩ | h | h | h
            · exact absurd h (h3 sid)
            · exact absurd h.1 h4
            · exact absurd h.1 h2
            · exact .inr ⟨h.1, h.2, h3⟩
        · rintro (h | ⟨h1, h2, h3⟩)
          · exact .inl h
          · exact .inr ⟨⟨⟨.inr (.inr (.inr ⟨h1, h2⟩)), by omega⟩, h3⟩, by omega⟩
      · rw [expected_pat he]; rfl
      · rw [hclock]; exact OMap.find?_empty _
    have e1 : s.pmtPids.entries.isEmpty = false := isEmpty_false hempty
    simp only [e1, Bool.not_false, if_true]
    split
    · exact ⟨hfin.entries, hfin.demux, hfin.count, hfin.clocks⟩
    · exact ⟨hfin.entries, hfin.demux, hfin.count, hfin.clocks⟩

/-- `Watched` after something else than a PAT. -/
theorem watched_none {o : Opt} {l : List Ev} {e : Ev} (h : patOf e = none) {x : Nat} :
    Watched o (l ++ [e]) x ↔ Watched o l x ∨
      (∃ sid, Listed o l sid x ∧ ∃ y, sdtOf e = some y ∧ saysAV y sid = true) ∨
      (x = 0x14 ∧ Accepted o l e ∧ known o (l ++ [e]) = expected o (l ++ [e])) := by
  have h0 := kept_snoc (o := o) (l := l) (e := e) (pid := x)
  unfold Kept at h0
  unfold Watched
  rw [h0, complete_none h, latestPat_snoc, h]
  simp only [listed_none h, hasAV_snoc h, ne_eq, not_true_eq_false, false_implies, and_true]
  constructor
  · rintro (⟨sid, k1, k2 | k2⟩ | k | ⟨k1, k2 | k2⟩ | k)
    · exact .inl (.inl ⟨sid, k1, k2⟩)
    · exact .inr (.inl ⟨sid, k1, k2⟩)
    · exact .inl (.inr (.inl k))
    · exact .inl (.inr (.inr (.inl ⟨k1, k2⟩)))
    · exact .inr (.inr ⟨k1, k2⟩)
    · exact .inl (.inr (.inr (.inr k)))
  · rintro ((⟨sid, k1, k2⟩ | k | ⟨k1, k2⟩ | k) | ⟨sid, k1, k2⟩ | ⟨k1, k2⟩)
    · exact .inl ⟨sid, k1, .inl k2⟩
    · exact .inr (.inl k)
    · exact .inr (.inr (.inl ⟨k1, .inl k2⟩))
    · exact .inr (.inr (.inr k))
    · exact .inl ⟨sid, k1, .inr k2⟩
    · exact .inr (.inr (.inl ⟨k1, .inr k2⟩))

/-- Something that changes nothing. -/
theorem full_same {o : Opt} {s s' : St} {l : List Ev} {e : Ev} (hF : Full o s l) (h : patOf e = none)
    (h2 : sdtOf e = none) (h3 : ¬ Accepted o l e) (e1 : s'.pmtPids = s.pmtPids) (e2 : s'.demux = s.demux)
    (e3 : s'.pmtCount = s.pmtCount) (e4 : s'.pcrPidMap = s.pcrPidMap) : Full o s' (l ++ [e]) := by
  refine ⟨by rw [e1, services_none h]; exact hF.entries, fun x => ?_, ?_, fun sid => ?_⟩
  · rw [e2, hF.demux, watched_none h]
    simp [h2, h3]
  · rw [e3, hF.count, expected_none h, h2]; rfl
  · rw [e4, hF.clocks, clockPid_none h]
    exact fun pid x hp hl => h3 ⟨pid, x, hp, hl⟩

theorem full_table {o : Opt} {s s' : St} {l : List Ev} {t : Table} (hF : Full o s l)
    (h : handleTable o s t = .ok s') : Full o s' (l ++ [.tab t]) := by
  obtain ⟨s1, h1, h2⟩ := effect_of (o := o) (s := s) (t := t)
  rw [h] at h1
  cases h1
  cases h2 with
  | pat he k => subst k; exact full_pat hF he
  | ignore k1 k2 k3 k4 =>
    exact full_same hF k1 k2 (by rintro ⟨_, _, h, _⟩; rw [k4] at h; cases h) rfl rfl rfl rfl
  | @sdt x _ k1 k2 k3 k4 k5 =>
    subst k5
    rw [countPmts_eq]
    have hna : ¬ Accepted o l (.tab t) := by rintro ⟨_, _, h, _⟩; rw [k4] at h; cases h
    refine ⟨by rw [services_none k2]; exact hF.entries, fun p => ?_, ?_, fun sid => ?_⟩
    · rw [watched_none k2]
      show p ∈ (s.pmtPids.entries.filter (av x)).foldl (fun d e => d.add e.2) s.demux ↔ _
      rw [mem_adds, hF.demux, hF.entries, av_eq]
      simp only [List.mem_filter, k1, Option.some.injEq, exists_eq_left', hna, false_and, and_false, or_false,
        listed_iff]
    · show s.pmtCount + (s.pmtPids.entries.filter (av x)).length = _
      rw [expected_none k2, k1, hF.count, hF.entries, av_eq]
    · show s.pcrPidMap.find? sid = _
      rw [hF.clocks, clockPid_none k2]
      exact fun pid x hp hl => hna ⟨pid, x, hp, hl⟩
  | tot k1 k2 k3 k4 k5 =>
    subst k5
    exact full_same hF k2 k3 (by rintro ⟨_, _, h, _⟩; rw [k4] at h; cases h) rfl rfl rfl rfl
  | @pmt x _ k1 k2 k3 k4 k5 =>
    rcases k5 with ⟨k5, rfl⟩ | ⟨k5, rfl⟩
    · have hl := hF.listed.1 k5
      obtain ⟨a1, _, a3, _, _, _, _, _, _, _, a11, a12⟩ := accept_fields s x
      have hclock : ∀ sid, (s.pcrPidMap.set x.serviceId x.pcrPid).find? sid = clockPid o (l ++ [.tab t]) sid := by
        intro sid
        rw [OMap.find?_set, clockPid_pmt k2 k1 hl, hF.clocks]
      have hexp : expected o (l ++ [.tab t]) = expected o l := by rw [expected_none k2, k3]; rfl
      refine ⟨by rw [a1, services_none k2]; exact hF.entries, fun p => ?_, ?_, fun sid => by rw [a3, hclock]⟩
      · rw [a12, watched_none k2, hF.demux, size_known hclock, hF.count, hexp]
        have ha : Accepted o l (.tab t) := ⟨_, _, k1, hl⟩
        simp [k3, ha]
      · rw [a11, hexp]; exact hF.count
    · refine full_same hF k2 k3 ?_ rfl rfl rfl rfl
      rintro ⟨pid, y, h, hl⟩
      rw [k1] at h
      cases h
      exact k5 (hF.listed.2 hl)

/-- The tables of a packet. -/
theorem feed_exact {o : Opt} {s : St} {l : List Ev} (hF : Full o s l) (ht : Tabs o s l) (pid : Nat)
    (ts : List Table) : ∃ s' log, feedDemux St.demux (handleTable o) pid ts s = .ok (s', log) ∧
      Handed (fun rs => Watched o (l ++ rs.map .tab)) pid [] ts log ∧ Full o s' (l ++ log.map .tab) ∧
      Tabs o s' (l ++ log.map .tab) := by
  obtain ⟨log, h1, h2⟩ := feedDemux_exact (watched := St.demux) (handle := handleTable o) (pid := pid)
    (W := fun rs => Watched o (l ++ rs.map .tab)) (bad := fun _ _ => False)
    (fun s rs => Full o s (l ++ rs.map .tab) ∧ Tabs o s (l ++ rs.map .tab))
    (fun s rs h => h.1.demux pid)
    (fun s t s' rs hI hs hw h => by
      have hd : t.sourcePid ∈ s.demux := by rw [hs]; exact (hI.1.demux pid).2 hw
      exact ⟨by simpa using full_table hI.1 h, by simpa using tabs_table hI.2 hd h⟩)
    (fun s t rs _ _ _ => by
      obtain ⟨s', h1, _⟩ := effect_of (o := o) (s := s) (t := t)
      simp [h1]) ts s [] ⟨by simpa using hF, by simpa using ht⟩
  rcases h2 with ⟨s', h2, h3, _⟩ | ⟨_, h2⟩
  · exact ⟨s', log, h2, h1, by simpa using h3.1, by simpa using h3.2⟩
  · obtain ⟨_, _, _, _, h⟩ := h2
    exact absurd h id

theorem full_pkt {o : Opt} {s s' : St} {l : List Ev} {p : Packet} (hF : Full o s l)
    (e1 : s'.pmtPids = s.pmtPids) (e2 : s'.demux = s.demux) (e3 : s'.pmtCount = s.pmtCount)
    (e4 : s'.pcrPidMap = s.pcrPidMap) : Full o s' (l ++ [.pkt p]) :=
  full_same hF (patOf_pkt p) (sdtOf_pkt p) (by rintro ⟨_, _, h, _⟩; cases h) e1 e2 e3 e4

/-- A packet that is processed. -/
theorem step_full {o : Opt} {s s' : St} {l : List Ev} {i : Input} {out : List Table} {more : Bool} (hF : Full o s l)
    (ht : Tabs o s l) (h : step o s i = .ok (s', out, more)) :
    TablesOf o l i out ∧ Full o s' (l ++ (out.map .tab ++ [.pkt i.packet])) := by
  unfold step at h
  unfold TablesOf
  simp only at h
  split at h
  · next hn =>
    rw [if_pos (by simpa [pidNull] using hn)]
    cases h
    exact ⟨rfl, full_pkt hF rfl rfl rfl rfl⟩
  · next hn =>
    rw [if_neg (by simpa [pidNull] using hn)]
    obtain ⟨s1, log, h1, h2, h3, _⟩ := feed_exact hF ht i.packet.pid i.tables
    rw [h1] at h
    simp only [ok_bind] at h
    rw [← List.append_assoc]
    split at h
    · cases h
      exact ⟨h2, full_pkt h3 rfl rfl rfl rfl⟩
    · split at h
      · split at h
        · cases h
          exact ⟨h2, full_pkt h3 rfl rfl rfl rfl⟩
        · obtain ⟨_, _, h⟩ := bind_eq_ok h
          split at h
          · cases h
            exact ⟨h2, full_pkt h3 rfl rfl rfl rfl⟩
          · cases h
            exact ⟨h2, full_pkt h3 rfl rfl rfl rfl⟩
      · cases h
        exact ⟨h2, full_pkt h3 rfl rfl rfl rfl⟩

theorem reach_full {o : Opt} {items : List (Line Input (List Table))} {s : St}
    (h : Reach (step o) {} items s) : Full o s (log items) := by
  induction h with
  | nil => exact full_init o
  | @snoc items s i s' a more h1 h2 h3 ih =>
    rw [log_snoc]
    exact (step_full ih ((reach_spec h1).1 h2).2 h3).2

theorem tablesOf_unique {o : Opt} {l : List Ev} {i : Input} {a b : List Table} (ha : TablesOf o l i a)
    (hb : TablesOf o l i b) : a = b := by
  unfold TablesOf at ha hb
  split at ha
  · rw [if_pos (by assumption)] at hb
    rw [ha, hb]
  · rw [if_neg (by assumption)] at hb
    exact ha.unique hb

theorem formatPcr_error {v : Int} : (∃ f, formatPcr v = .error f) ↔ ¬ (0 ≤ v ∧ v < 2 ^ 33 * 300) := by
  unfold formatPcr
  rw [show (2 : Int) ^ 33 * 300 = 2576980377600 by decide, ← isValidPcr_iff]
  cases hv : isValidPcr v with
  | true =>
    simp only [assert_true, ok_bind]
    simp
  | false => exact iff_of_true ⟨_, rfl⟩ (by simp)

/-- A packet makes sync-clocks fail exactly as specified. -/
theorem step_exact {o : Opt} {s : St} {l : List Ev} (hF : Full o s l) (ht : Tabs o s l) (i : Input) :
    (∃ f, step o s i = .error f) ↔ Unsyncable o l i := by
  unfold step
  by_cases hn : i.packet.pid = 0x1FFF
  · refine iff_of_false ?_ ?_
    · simp [pidNull, hn]
    · rintro ⟨ts, _, _, h, _⟩
      exact h.1.1 hn
  · simp only [pidNull, beq_iff_eq, hn, if_false]
    obtain ⟨s1, log, h1, h2, h3, ht1⟩ := feed_exact hF ht i.packet.pid i.tables
    have hT : TablesOf o l i log := by
      unfold TablesOf
      rw [if_neg hn]
      exact h2
    have hun : Unsyncable o l i ↔ ¬ NothingSelected o (l ++ log.map .tab) ∧
        Looked o (l ++ log.map .tab) i.packet.pid ∧ (∀ v, ¬ Captured o (l ++ log.map .tab) i.packet.pid v) ∧
        ∃ v, i.packet.pcr = some v ∧ ¬ (0 ≤ v ∧ v < 2 ^ 33 * 300) := by
      constructor
      · rintro ⟨ts, k, h⟩
        rw [tablesOf_unique hT k]
        exact h
      · exact fun h => ⟨log, hT, h⟩
    rw [hun, ← ht1.doneIff, h1]
    simp only [ok_bind]
    by_cases hd : s1.done = true
    · refine iff_of_false ?_ ?_
      · simp [hd]
      · exact fun h => h.1 hd
    · have hr := ht1.running (by simpa using hd)
      have hcap : (∀ v, ¬ Captured o (l ++ log.map .tab) i.packet.pid v) ↔ s1.pcrMap.find? i.packet.pid = none := by
        constructor
        · intro h
          exact none_of_not fun v hv => h v ((hr.captured _ _).1 hv)
        · intro h v hv
          rw [(hr.captured _ _).2 hv] at h
          cases h
      rw [looked_iff hr, hcap, if_neg hd]
      by_cases hc : (s1.started && s1.pcrPids.contains i.packet.pid && (s1.pcrMap.find? i.packet.pid).isNone) = true
      · rw [if_pos hc]
        simp only [Bool.and_eq_true, List.contains_iff_mem, Option.isNone_iff_eq_none] at hc
        cases hp : i.packet.pcr with
        | none => simp
        | some v =>
          simp only [Option.some.injEq, exists_eq_left']
          rw [← formatPcr_error]
          cases formatPcr v with
          | error f => exact iff_of_true ⟨f, rfl⟩ ⟨hd, hc.1, hc.2, f, rfl⟩
          | ok u =>
            simp only [ok_bind]
            refine iff_of_false ?_ ?_
            · split
              · rintro ⟨_, h⟩; cases h
              · rintro ⟨_, h⟩; cases h
            · rintro ⟨_, _, _, f, h⟩
              cases h
      · rw [if_neg hc]
        simp only [Bool.and_eq_true, List.contains_iff_mem, Option.isNone_iff_eq_none] at hc
        refine iff_of_false ?_ ?_
        · rintro ⟨_, h⟩; cases h
        · rintro ⟨_, h1, h2, _⟩
          exact hc ⟨h1, h2⟩

theorem aborts {o : Opt} {is : List Input} : Aborts (sink o) { st := {} } is ↔
    StopsAt (sink o) {} (fun items i => Unsyncable o (log items) i) is := by
  refine aborts_iff _ (fun s => ?_) (fun items s h1 h2 i => ?_) is
  · unfold finish
    split
    · exact ⟨_, rfl⟩
    · exact ⟨_, rfl⟩
  · exact step_exact (reach_full h1) ((reach_spec h1).1 h2).2 i

end Mirakc.PcrSynchronizer
