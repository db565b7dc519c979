import Verif.Proof.PcrSynchronizer
/-
Which tables sync-clocks looks at, in streams whose PMTs have PIDs of their own.
-/
set_option linter.unusedSimpArgs false
namespace Mirakc.PcrSynchronizer
open Mirakc.Spec Mirakc.Spec.PcrSynchronizer

theorem sdts_none {l : List Ev} {e : Ev} (h : patOf e = none) :
    sdts (l ++ [e]) = sdts l ++ (match sdtOf e with | some x => [x] | none => []) := by
  unfold sdts
  rw [sincePat_snoc, h]
  simp only [List.filterMap_append]
  congr 1
  cases hs : sdtOf e <;> simp [hs]

theorem sdts_pat {l : List Ev} {e : Ev} {pat : Pat} (h : patOf e = some pat) : sdts (l ++ [e]) = [] := by
  unfold sdts
  rw [sincePat_snoc, h]
  rfl

structure Rest (o : Opt) (s : St) (l : List Ev) : Prop where
  sdtW : latestPat l ≠ none → 0x11 ∈ s.demux
  pmtW : ∀ sid x, Listed o l sid x → HasAudioVideo l sid → x ∈ s.demux
  count : s.pmtCount = ((sdts l).map fun x => (s.pmtPids.entries.filter (av x)).length).sum
  noSdt : sdts l = [] ∨ latestPat l = none → 0x14 ∉ s.demux ∧ s.started = false
  known : ∀ sdt, sdts l = [sdt] → (0x14 ∈ s.demux ∨ s.started = true) → PmtsKnown o l
  totW : ∀ sdt, sdts l = [sdt] → (∃ sid pid, Listed o l sid pid ∧ HasAudioVideo l sid) → PmtsKnown o l →
    0x14 ∈ s.demux

structure Cnt (o : Opt) (s : St) (l : List Ev) : Prop where
  base : 0 ∈ s.demux
  pmtsOk : ∀ sid pid, s.pmtPids.find? sid = some pid → pid ≠ 0 ∧ pid ≠ 0x11 ∧ pid ≠ 0x14
  rest : s.done = false → Rest o s l

theorem clock_of {o : Opt} {l : List Ev} {sid : Nat} :
    clockPid o l sid ≠ none ↔ ∃ x ∈ pmts o l, x.serviceId = sid := by
  unfold clockPid
  rw [ne_eq, Option.map_eq_none_iff, List.getLast?_eq_none_iff, List.filter_eq_nil_iff]
  constructor
  · intro h
    refine Classical.byContradiction fun k => h fun x hx hs => k ⟨x, hx, by simpa using hs⟩
  · rintro ⟨x, hx, hs⟩ h
    exact h x hx (by simpa using hs)

theorem mem_pmts {o : Opt} {l : List Ev} {x : Pmt} :
    x ∈ pmts o l ↔ ∃ pid, (pid, x) ∈ (sincePat l).filterMap pmtOf ∧ Listed o l x.serviceId pid := by
  unfold pmts
  rw [List.mem_filterMap]
  constructor
  · rintro ⟨⟨pid, y⟩, h1, h2⟩
    simp only at h2
    split at h2
    · next h3 => cases h2; exact ⟨pid, h1, h3⟩
    · cases h2
  · rintro ⟨pid, h1, h2⟩
    exact ⟨(pid, x), h1, by simp [h2]⟩

theorem latestPat_mem {l : List Ev} {pat : Pat} (h : latestPat l = some pat) :
    ∃ e ∈ l, patOf e = some pat := by
  unfold latestPat at h
  have := List.mem_of_getLast? h
  exact List.mem_filterMap.1 this

theorem regular_listed {o : Opt} {l : List Ev} (hg : Regular o l) {sid pid : Nat} (h : Listed o l sid pid) :
    (pid ≠ 0 ∧ pid ≠ 0x11 ∧ pid ≠ 0x14) ∧ ∀ sid', Listed o l sid' pid → sid' = sid := by
  obtain ⟨h1, pat, h2, h3⟩ := h
  obtain ⟨e, he, hp⟩ := latestPat_mem h2
  obtain ⟨k1, k2⟩ := hg.1 e he pat hp
  refine ⟨?_, ?_⟩
  · have := k1 sid pid h1 h3
    simp only [List.mem_cons, List.not_mem_nil, or_false] at this
    grind
  · rintro sid' ⟨m1, pat', m2, m3⟩
    rw [h2] at m2; cases m2
    exact k2 sid' sid pid m1 h1 m3 h3

/-- Only services with audio or video have a clock. -/
theorem clock_av {o : Opt} {s : St} {l : List Ev} (hr : Run o s l) (hg : Regular o l) {sid : Nat}
    (h : clockPid o l sid ≠ none) : (∃ pid, Listed o l sid pid) ∧ HasAudioVideo l sid := by
  obtain ⟨x, hx, rfl⟩ := clock_of.1 h
  obtain ⟨pid, h1, h2⟩ := mem_pmts.1 hx
  obtain ⟨⟨g1, g2, g3⟩, g4⟩ := regular_listed hg h2
  refine ⟨⟨pid, h2⟩, ?_⟩
  rcases hr.source pid x h1 with k | k | k | ⟨sid, k1, k2⟩
  · exact absurd k g1
  · exact absurd k g2
  · exact absurd k g3
  · rw [← g4 sid k1]; exact k2

theorem hasAV_one {l : List Ev} {sdt : Sdt} (h : sdts l = [sdt]) {sid pid : Nat} :
    HasAudioVideo l sid ↔ av sdt (sid, pid) = true := by
  unfold HasAudioVideo
  rw [h, av_iff]
  simp

theorem size_iff {o : Opt} {s : St} {l : List Ev} {sdt : Sdt} (hr : Run o s l) (hg : Regular o l)
    (h1 : sdts l = [sdt])
    (h2 : s.pmtCount = ((sdts l).map fun x => (s.pmtPids.entries.filter (av x)).length).sum) :
    s.pcrPidMap.size = s.pmtCount ↔ PmtsKnown o l := by
  rw [h2, h1, OMap.size_eq]
  simp only [List.map_cons, List.map_nil, List.sum_cons, List.sum_nil, Nat.add_zero]
  rw [← List.length_map (f := fun e : Nat × Nat => e.1)]
  have hm : ∀ sid, sid ∈ (s.pmtPids.entries.filter (av sdt)).map (fun e : Nat × Nat => e.1) ↔
      ∃ pid, Listed o l sid pid ∧ HasAudioVideo l sid := by
    intro sid
    rw [List.mem_map]
    constructor
    · rintro ⟨⟨sid', pid⟩, k1, rfl⟩
      obtain ⟨k1, k2⟩ := List.mem_filter.1 k1
      exact ⟨pid, (hr.pids _ _).1 ((OMap.find?_iff _ _ _).2 k1), (hasAV_one h1).2 k2⟩
    · rintro ⟨pid, k1, k2⟩
      exact ⟨(sid, pid), List.mem_filter.2 ⟨(OMap.find?_iff _ _ _).1 ((hr.pids _ _).2 k1), (hasAV_one h1).1 k2⟩,
        rfl⟩
  have hk : ∀ sid, sid ∈ s.pcrPidMap.keys ↔ clockPid o l sid ≠ none := by
    intro sid
    rw [OMap.mem_keys, hr.clocks]
    cases clockPid o l sid <;> simp
  rw [length_eq_iff (OMap.keys_nodup _)]
  · constructor
    · intro k sid pid m1 m2
      exact (hk sid).1 (k ((hm sid).2 ⟨pid, m1, m2⟩))
    · intro k sid hs
      obtain ⟨pid, m1, m2⟩ := (hm sid).1 hs
      exact (hk sid).2 (k sid pid m1 m2)
  · have := OMap.keys_nodup s.pmtPids
    exact this.sublist (List.Sublist.map _ List.filter_sublist)
  · intro sid hs
    obtain ⟨⟨pid, m1⟩, m2⟩ := clock_av hr hg ((hk sid).1 hs)
    exact (hm sid).2 ⟨pid, m1, m2⟩

theorem clock_mono {o : Opt} {l : List Ev} {e : Ev} (h : patOf e = none) {sid : Nat}
    (hc : clockPid o l sid ≠ none) : clockPid o (l ++ [e]) sid ≠ none := by
  obtain ⟨x, h1, h2⟩ := clock_of.1 hc
  refine clock_of.2 ⟨x, ?_, h2⟩
  rw [pmts_snoc h]
  exact List.mem_append.2 (.inl h1)

theorem hasAV_same {l : List Ev} {e : Ev} (h : patOf e = none) (hs : sdtOf e = none) {sid : Nat} :
    HasAudioVideo (l ++ [e]) sid ↔ HasAudioVideo l sid := by
  unfold HasAudioVideo
  rw [sdts_none h, hs, List.append_nil]

theorem known_mono {o : Opt} {l : List Ev} {e : Ev} (h : patOf e = none) (hs : sdtOf e = none)
    (hk : PmtsKnown o l) : PmtsKnown o (l ++ [e]) := fun sid pid h1 h2 =>
  clock_mono h (hk sid pid ((listed_none h).1 h1) ((hasAV_same h hs).1 h2))

theorem known_same {o : Opt} {l : List Ev} {e : Ev} (h : patOf e = none) (hs : sdtOf e = none)
    (hp : pmts o (l ++ [e]) = pmts o l) (hk : PmtsKnown o (l ++ [e])) : PmtsKnown o l := fun sid pid h1 h2 => by
  have := hk sid pid ((listed_none h).2 h1) ((hasAV_same h hs).2 h2)
  unfold clockPid at this ⊢
  rwa [hp] at this

theorem regular_prefix {o : Opt} {a b : List Ev} (h : Regular o (a ++ b)) : Regular o a :=
  ⟨fun e he => h.1 e (by simp [he]), fun t ht => h.2 t (by simp [ht])⟩

theorem cnt_init (o : Opt) : Cnt o {} [] := by
  refine ⟨by simp [pidPat], by simp [OMap.find?_empty], fun _ => ⟨by simp [latestPat], ?_, rfl,
    by simp [pidPat], ?_, ?_⟩⟩
  · intro sid x h
    obtain ⟨_, p, h, _⟩ := h
    simp [latestPat] at h
  · intro sdt h; simp [sdts, sincePat] at h
  · intro sdt h; simp [sdts, sincePat] at h

/-- An event that leaves the watched PIDs and the collected PMTs alone. -/
theorem rest_same {o : Opt} {s s' : St} {l : List Ev} {e : Ev} (hs : Rest o s l)
    (h1 : patOf e = none) (h2 : sdtOf e = none) (hp : pmts o (l ++ [e]) = pmts o l)
    (e1 : s'.demux = s.demux) (e2 : s'.pmtPids = s.pmtPids) (e3 : s'.pmtCount = s.pmtCount)
    (e4 : s'.started = s.started) : Rest o s' (l ++ [e]) := by
  have hsd : sdts (l ++ [e]) = sdts l := by rw [sdts_none h1, h2, List.append_nil]
  have hlp : latestPat (l ++ [e]) = latestPat l := by rw [latestPat_snoc, h1]
  refine ⟨?_, ?_, ?_, ?_, ?_, ?_⟩
  · rw [hlp, e1]; exact hs.sdtW
  · intro sid x k1 k2
    rw [e1]; exact hs.pmtW sid x ((listed_none h1).1 k1) ((hasAV_same h1 h2).1 k2)
  · rw [e3, e2, hsd]; exact hs.count
  · rw [hsd, hlp, e1, e4]; exact hs.noSdt
  · intro sdt k1 k2
    rw [hsd] at k1; rw [e1, e4] at k2
    exact known_mono h1 h2 (hs.known sdt k1 k2)
  · rintro sdt k1 ⟨sid, pid, k2, k3⟩ k4
    rw [hsd] at k1; rw [e1]
    exact hs.totW sdt k1 ⟨sid, pid, (listed_none h1).1 k2, (hasAV_same h1 h2).1 k3⟩ (known_same h1 h2 hp k4)

theorem cnt_pat {o : Opt} {s : St} {l : List Ev} {t : Table} {pat : Pat} (hc : Cnt o s l) (ht : Tabs o s l)
    (hg : Regular o (l ++ [.tab t])) (he : patOf (.tab t) = some pat) :
    Cnt o (handlePat o s t pat) (l ++ [.tab t]) := by
  obtain ⟨t', e, hp, hv, hb, hts⟩ := patOf_some.1 he
  cases e
  obtain ⟨q1, q2, q3⟩ := kinds_pat he
  have hok : ∀ sid pid, (pat.pmts.filter fun e => isSelected o e.1).find? sid = some pid →
      pid ≠ 0 ∧ pid ≠ 0x11 ∧ pid ≠ 0x14 := by
    intro sid pid h
    obtain ⟨h1, h2⟩ := (OMap.find?_filter _ _ _ _).1 h
    have := (hg.1 _ (by simp) pat he).1 sid pid (selected_iff.1 h2) h1
    simp only [List.mem_cons, List.not_mem_nil, or_false] at this
    grind
  have hav : ∀ sid, ¬ HasAudioVideo (l ++ [.tab t]) sid := by
    rintro sid ⟨x, hx, _⟩
    rw [sdts_pat he] at hx; simp at hx
  have fresh : ∀ s' : St, 0x11 ∈ s'.demux → s'.pmtCount = 0 → 0x14 ∉ s'.demux → s'.started = false →
      Rest o s' (l ++ [.tab t]) := by
    intro s' k1 k2 k3 k4
    refine ⟨fun _ => k1, fun sid x _ h => absurd h (hav sid), by rw [sdts_pat he]; exact k2, fun _ => ⟨k3, k4⟩,
      ?_, ?_⟩
    · intro sdt h; rw [sdts_pat he] at h; cases h
    · intro sdt h; rw [sdts_pat he] at h; cases h
  unfold handlePat
  rw [if_neg (by simp [hp, pidPat]), if_neg (by simp [hv]), if_neg (by simp [hts])]
  by_cases hne : s.pmtPids.entries = []
  · simp only [hne, List.isEmpty_nil, Bool.not_true, Bool.false_eq_true, if_false]
    have hd14 : s.done = false → 0x14 ∉ s.demux ∧ s.started = false ∧ s.pmtCount = 0 := by
      intro hd
      have hlat : latestPat l = none :=
        Classical.byContradiction fun h => (ht.running hd).some_listed h hne
      obtain ⟨k1, k2⟩ := (hc.rest hd).noSdt (.inr hlat)
      refine ⟨k1, k2, ?_⟩
      rw [(hc.rest hd).count, hne]
      generalize sdts l = L
      induction L with
      | nil => rfl
      | cons a b ih => simpa using ih
    by_cases hse : (pat.pmts.filter fun e => isSelected o e.1).entries = []
    · simp only [hse, List.isEmpty_nil, if_true]
      refine ⟨?_, hok, by simp⟩
      simp only [PidSet.add, List.mem_cons]; exact .inr hc.base
    · have hsee : (pat.pmts.filter fun e => isSelected o e.1).entries.isEmpty = false := by
        cases h : (pat.pmts.filter fun e => isSelected o e.1).entries with
        | nil => exact absurd h hse
        | cons => rfl
      simp only [hsee, Bool.false_eq_true, if_false]
      refine ⟨?_, hok, fun hd => ?_⟩
      · simp only [PidSet.add, List.mem_cons]; exact .inr hc.base
      · obtain ⟨k1, k2, k3⟩ := hd14 hd
        refine fresh _ ?_ k3 ?_ k2
        · simp [PidSet.add, pidSdt]
        · simp [PidSet.add, pidSdt, k1]
  · have hnee : s.pmtPids.entries.isEmpty = false := by
      cases h : s.pmtPids.entries with
      | nil => exact absurd h hne
      | cons => rfl
    have hd0 : 0 ∈ (resetStates s).demux := by
      simp only [resetStates, mem_remove, mem_removes]
      refine ⟨⟨⟨hc.base, by simp [pidTot]⟩, ?_⟩, by simp [pidSdt]⟩
      intro h
      obtain ⟨⟨sid, pid⟩, h1, h2⟩ := List.mem_map.1 h
      simp only at h2
      exact (hc.pmtsOk sid pid ((OMap.find?_iff _ _ _).2 h1)).1 h2
    have hd14 : 0x14 ∉ (resetStates s).demux := by
      simp only [resetStates, mem_remove, mem_removes]
      rintro ⟨⟨⟨_, h⟩, _⟩, _⟩
      exact h rfl
    simp only [hnee, Bool.not_false, if_true]
    by_cases hse : (pat.pmts.filter fun e => isSelected o e.1).entries = []
    · simp only [hse, List.isEmpty_nil, if_true]
      refine ⟨?_, hok, by simp⟩
      simp only [PidSet.add, List.mem_cons]; exact .inr hd0
    · have hsee : (pat.pmts.filter fun e => isSelected o e.1).entries.isEmpty = false := by
        cases h : (pat.pmts.filter fun e => isSelected o e.1).entries with
        | nil => exact absurd h hse
        | cons => rfl
      simp only [hsee, Bool.false_eq_true, if_false]
      refine ⟨?_, hok, fun hd => ?_⟩
      · simp only [PidSet.add, List.mem_cons]; exact .inr hd0
      · refine fresh _ ?_ rfl ?_ rfl
        · simp [PidSet.add, pidSdt]
        · simp only [PidSet.add, List.mem_cons, not_or]
          exact ⟨by simp [pidSdt], hd14⟩

theorem cnt_table {o : Opt} {s s' : St} {l : List Ev} {t : Table} (hc : Cnt o s l) (ht : Tabs o s l)
    (hg : Regular o (l ++ [.tab t])) (hw : t.sourcePid ∈ s.demux) (h : handleTable o s t = .ok s') :
    Cnt o s' (l ++ [.tab t]) := by
  have ht' := tabs_table ht hw h
  have hg0 := regular_prefix hg
  obtain ⟨s1, h1, h2⟩ := effect_of (o := o) (s := s) (t := t)
  rw [h] at h1
  cases h1
  cases h2 with
  | pat he e => subst e; exact cnt_pat hc ht hg he
  | ignore k1 k2 k3 k4 =>
    exact ⟨hc.base, hc.pmtsOk, fun hd => rest_same (hc.rest hd) k1 k2 (pmts_same k1 k4) rfl rfl rfl rfl⟩
  | @sdt x _ k1 k2 k3 k4 k5 =>
    have hsd : sdts (l ++ [.tab t]) = sdts l ++ [x] := by rw [sdts_none k2, k1]
    have hlp : latestPat (l ++ [.tab t]) = latestPat l := by rw [latestPat_snoc, k2]
    have hpm := pmts_same (o := o) (l := l) k2 k4
    rw [countPmts_eq] at k5
    subst k5
    have hmem : ∀ p, p ∈ List.foldl (fun d e => PidSet.add d e.2) s.demux
        (s.pmtPids.entries.filter (av x)) → p ∈ s.demux ∨ ∃ sid, s.pmtPids.find? sid = some p := by
      intro p hp
      rcases mem_adds.1 hp with hp | ⟨sid, hp⟩
      · exact .inl hp
      · exact .inr ⟨sid, (OMap.find?_iff _ _ _).2 (List.mem_filter.1 hp).1⟩
    have h14 : 0x14 ∈ List.foldl (fun d e => PidSet.add d e.2) s.demux
        (s.pmtPids.entries.filter (av x)) ↔ 0x14 ∈ s.demux := by
      refine ⟨fun hp => ?_, fun hp => mem_adds.2 (.inl hp)⟩
      rcases hmem _ hp with hp | ⟨sid, hp⟩
      · exact hp
      · exact absurd rfl (hc.pmtsOk _ _ hp).2.2
    refine ⟨mem_adds.2 (.inl hc.base), hc.pmtsOk, fun hd => ?_⟩
    have hs := hc.rest hd
    have hr := ht.running hd
    refine ⟨fun hl => mem_adds.2 (.inl (hs.sdtW (hlp ▸ hl))), ?_, ?_, ?_, ?_, ?_⟩
    · rintro sid p m1 ⟨y, m2, m3⟩
      have m1 := (listed_none k2).1 m1
      rw [hsd] at m2
      rcases List.mem_append.1 m2 with m2 | m2
      · exact mem_adds.2 (.inl (hs.pmtW sid p m1 ⟨y, m2, m3⟩))
      · simp only [List.mem_singleton] at m2
        subst m2
        exact mem_adds.2 (.inr ⟨sid, List.mem_filter.2 ⟨(OMap.find?_iff _ _ _).1 ((hr.pids _ _).2 m1),
          av_iff.2 m3⟩⟩)
    · show s.pmtCount + _ = _
      rw [hsd, hs.count]
      simp
    · rintro (k | k)
      · rw [hsd] at k; simp at k
      · obtain ⟨m1, m2⟩ := hs.noSdt (.inr (hlp ▸ k))
        exact ⟨fun hm => m1 (h14.1 hm), m2⟩
    · intro sdt m1 m2
      rw [hsd] at m1
      have : sdts l = [] := by
        cases hl : sdts l with
        | nil => rfl
        | cons a b => rw [hl] at m1; simp at m1
      obtain ⟨n1, n2⟩ := hs.noSdt (.inl this)
      rcases m2 with m2 | m2
      · exact absurd (h14.1 m2) n1
      · rw [show s.started = true from m2] at n2; cases n2
    · rintro sdt m1 ⟨sid, pid, m2, m3⟩ m4
      rw [hsd] at m1
      have hnil : sdts l = [] := by
        cases hl : sdts l with
        | nil => rfl
        | cons a b => rw [hl] at m1; simp at m1
      have hcl := m4 sid pid m2 m3
      unfold clockPid at hcl
      rw [hpm] at hcl
      obtain ⟨_, y, hy, _⟩ := clock_av hr hg0 (sid := sid) hcl
      rw [hnil] at hy; simp at hy
  | @tot x _ k1 k2 k3 k4 k5 =>
    subst k5
    refine ⟨hc.base, hc.pmtsOk, fun hd => ?_⟩
    have hs := hc.rest hd
    have hsrc : t.sourcePid = 0x14 := hg.2 t (by simp) (by rw [k1]; simp)
    have h14 : 0x14 ∈ s.demux := hsrc ▸ hw
    have hsd : sdts (l ++ [.tab t]) = sdts l := by rw [sdts_none k2, k3, List.append_nil]
    have hlp : latestPat (l ++ [.tab t]) = latestPat l := by rw [latestPat_snoc, k2]
    refine ⟨fun hl => hs.sdtW (hlp ▸ hl), ?_, by rw [hsd]; exact hs.count, ?_, ?_, fun _ _ _ _ => h14⟩
    · intro sid p m1 m2
      exact hs.pmtW sid p ((listed_none k2).1 m1) ((hasAV_same k2 k3).1 m2)
    · intro k
      rw [hsd, hlp] at k
      exact absurd h14 (hs.noSdt k).1
    · intro sdt m1 _
      rw [hsd] at m1
      exact known_mono k2 k3 (hs.known sdt m1 (.inl h14))
  | @pmt x _ k1 k2 k3 k4 k5 =>
    rcases k5 with ⟨k5, rfl⟩ | ⟨k5, rfl⟩
    · obtain ⟨a1, a2, a3, a4, a5, a6, a7, a8, a9, a10, a11, a12⟩ := accept_fields s x
      refine ⟨(a12 0).2 (.inl hc.base), by rw [a1]; exact hc.pmtsOk, fun hd => ?_⟩
      have hr' := ht'.running hd
      have hs := hc.rest (a9 ▸ hd)
      have hsd : sdts (l ++ [.tab t]) = sdts l := by rw [sdts_none k2, k3, List.append_nil]
      have hlp : latestPat (l ++ [.tab t]) = latestPat l := by rw [latestPat_snoc, k2]
      have hcount : (accept s x).pmtCount =
          ((sdts (l ++ [.tab t])).map fun y => ((accept s x).pmtPids.entries.filter (av y)).length).sum := by
        rw [hsd, a1, a11]; exact hs.count
      refine ⟨fun hl => (a12 _).2 (.inl (hs.sdtW (hlp ▸ hl))), ?_, hcount, ?_, ?_, ?_⟩
      · intro sid p m1 m2
        exact (a12 _).2 (.inl (hs.pmtW sid p ((listed_none k2).1 m1) ((hasAV_same k2 k3).1 m2)))
      · rintro k
        rw [hsd, hlp] at k
        have hr := ht.running (a9 ▸ hd)
        have hlist : Listed o l x.serviceId t.sourcePid := (hr.pids _ _).1 k5
        rcases k with k | k
        · -- a PMT is watched only after an SDT
          obtain ⟨⟨g1, g2, g3⟩, _⟩ := regular_listed hg0 hlist
          rcases hr.watch _ hw with m | m | m | ⟨sid, _, y, m, _⟩
          · exact absurd m g1
          · exact absurd m g2
          · exact absurd m g3
          · rw [k] at m; simp at m
        · obtain ⟨_, p, m, _⟩ := hlist
          rw [k] at m; cases m
      · intro sdt m1 m2
        rw [a5] at m2
        by_cases hz : (s.pcrPidMap.set x.serviceId x.pcrPid).size = s.pmtCount
        · refine (size_iff hr' hg m1 hcount).1 ?_
          rw [a3, a11]; exact hz
        · refine known_mono k2 k3 (hs.known sdt (hsd ▸ m1) ?_)
          rcases m2 with m2 | m2
          · rcases (a12 _).1 m2 with m2 | ⟨_, m2⟩
            · exact .inl m2
            · exact absurd m2 hz
          · exact .inr m2
      · intro sdt m1 _ m3
        refine (a12 _).2 (.inr ⟨rfl, ?_⟩)
        have := (size_iff hr' hg m1 hcount).2 m3
        rw [a3, a11] at this
        exact this
    · refine ⟨hc.base, hc.pmtsOk, fun hd => ?_⟩
      refine rest_same (hc.rest hd) k2 k3 ?_ rfl rfl rfl rfl
      rw [pmts_snoc k2, k1]
      simp only
      rw [if_neg (fun k => k5 (((ht.running hd).pids _ _).2 k)), List.append_nil]

theorem cnt_feed {o : Opt} {s s' : St} {l : List Ev} {pid : Nat} {ts out : List Table} (hc : Cnt o s l)
    (ht : Tabs o s l) (h : feedDemux St.demux (handleTable o) pid ts s = .ok (s', out))
    (hg : Regular o (l ++ out.map .tab)) : Cnt o s' (l ++ out.map .tab) := by
  have := feedDemux_inv (pid := pid) (watched := St.demux) (handle := handleTable o)
    (fun s rs => Tabs o s (l ++ rs.map .tab) ∧ (Regular o (l ++ rs.map .tab) → Cnt o s (l ++ rs.map .tab))) (by
      rintro s t s' rs ⟨hI, hJ⟩ h1 h2 h3
      have hw : t.sourcePid ∈ s.demux := by rw [h1]; exact h2
      have := tabs_table hI hw h3
      refine ⟨by simpa using this, fun hg => ?_⟩
      have hg' : Regular o (l ++ rs.map .tab ++ [.tab t]) := by simpa using hg
      have := cnt_table (hJ (regular_prefix hg')) hI hg' hw h3
      simpa using this) ts s s' out [] (by simpa using ⟨ht, fun _ => hc⟩) h
  exact this.2 (by simpa using hg)

theorem cnt_step {o : Opt} {s s' : St} {l : List Ev} {i : Input} {out : List Table} {more : Bool}
    (hc : Cnt o s l) (ht : Tabs o s l) (hd : s.done = false) (h : step o s i = .ok (s', out, more))
    (hg : Regular o (l ++ (out.map .tab ++ [.pkt i.packet]))) :
    (more = true → Cnt o s' (l ++ (out.map .tab ++ [.pkt i.packet]))) ∧
    (more = false → NothingSelected o (l ++ (out.map .tab ++ [.pkt i.packet])) ∨
      Rest o s' (l ++ (out.map .tab ++ [.pkt i.packet]))) := by
  have same : ∀ {s1 s2 : St} {l' : List Ev}, Rest o s1 l' → s2.demux = s1.demux → s2.pmtPids = s1.pmtPids →
      s2.pmtCount = s1.pmtCount → s2.started = s1.started → Rest o s2 (l' ++ [.pkt i.packet]) := by
    intro s1 s2 l' hs e1 e2 e3 e4
    exact rest_same hs (patOf_pkt _) (sdtOf_pkt _) (pmts_same (patOf_pkt _) (pmtOf_pkt _)) e1 e2 e3 e4
  unfold step at h
  simp only at h
  rw [← List.append_assoc] at hg ⊢
  split at h
  · cases h
    refine ⟨fun _ => ⟨hc.base, hc.pmtsOk, fun _ => ?_⟩, by simp⟩
    simpa using same (hc.rest hd) rfl rfl rfl rfl
  · obtain ⟨⟨s1, log1⟩, h1, h2⟩ := bind_eq_ok h
    clear h
    have ht1 := tabs_feed ht h1
    simp only at h2
    split at h2
    · next hd1 =>
      cases h2
      exact ⟨by simp, fun _ => .inl ((nothing_none (patOf_pkt _)).2 (ht1.doneIff.1 hd1))⟩
    · next hd1 =>
      have hd1 : s1.done = false := by simpa using hd1
      split at h2
      · split at h2
        · cases h2
          have hc1 := cnt_feed hc ht h1 (regular_prefix hg)
          exact ⟨fun _ => ⟨hc1.base, hc1.pmtsOk, fun _ => same (hc1.rest hd1) rfl rfl rfl rfl⟩, by simp⟩
        · obtain ⟨_, _, h3⟩ := bind_eq_ok h2
          clear h2
          split at h3
          · cases h3
            have hc1 := cnt_feed hc ht h1 (regular_prefix hg)
            exact ⟨by simp, fun _ => .inr (same (hc1.rest hd1) rfl rfl rfl rfl)⟩
          · cases h3
            have hc1 := cnt_feed hc ht h1 (regular_prefix hg)
            exact ⟨fun _ => ⟨hc1.base, hc1.pmtsOk, fun _ => same (hc1.rest hd1) rfl rfl rfl rfl⟩, by simp⟩
      · cases h2
        have hc1 := cnt_feed hc ht h1 (regular_prefix hg)
        exact ⟨fun _ => ⟨hc1.base, hc1.pmtsOk, fun _ => same (hc1.rest hd1) rfl rfl rfl rfl⟩, by simp⟩

theorem reach_cnt {o : Opt} {items : List (Line Input (List Table))} {s : St}
    (h : Reach (step o) {} items s) (hg : Regular o (log items)) :
    ((∀ x ∈ items, x.more = true) → Cnt o s (log items)) ∧
    ((∃ x, items.getLast? = some x ∧ x.more = false) → NothingSelected o (log items) ∨ Rest o s (log items)) := by
  induction h with
  | nil => exact ⟨fun _ => cnt_init o, by simp⟩
  | @snoc items s i s' a more h1 h2 h3 ih =>
    rw [log_snoc] at hg ⊢
    have hc := (ih (regular_prefix hg)).1 h2
    obtain ⟨hd, ht⟩ := (reach_spec h1).1 h2
    obtain ⟨k1, k2⟩ := cnt_step hc ht hd h3 hg
    constructor
    · intro hm
      exact k1 (hm ⟨i, a, more⟩ (by simp))
    · rintro ⟨x, hx, hm⟩
      simp at hx
      subst hx
      exact k2 hm

/-! ### Tables handed over -/

theorem table_demux {o : Opt} {s s' : St} {t : Table} (h : handleTable o s t = .ok s')
    (hp : patOf (.tab t) = none) {x : Nat} (hx : x ∈ s.demux) : x ∈ s'.demux := by
  obtain ⟨s1, h1, h2⟩ := effect_of (o := o) (s := s) (t := t)
  rw [h] at h1
  cases h1
  cases h2 with
  | pat he _ => rw [hp] at he; cases he
  | ignore => exact hx
  | sdt _ _ _ _ k5 => subst k5; rw [countPmts_eq]; exact mem_adds.2 (.inl hx)
  | tot _ _ _ _ k5 => subst k5; exact hx
  | @pmt y _ _ _ _ _ k5 =>
    rcases k5 with ⟨_, rfl⟩ | ⟨_, rfl⟩
    · obtain ⟨_, _, _, _, _, _, _, _, _, _, _, a12⟩ := accept_fields s y
      exact (a12 x).2 (.inl hx)
    · exact hx

theorem pat_source {t : Table} (h : t.sourcePid ≠ 0) : patOf (.tab t) = none :=
  none_of_not fun p hp => by
    obtain ⟨_, e, h1, _⟩ := patOf_some.1 hp
    cases e; exact h h1

/-- The tables of a PID that is watched are handed over. -/
theorem feed_all {o : Opt} {pid : Nat} (h0 : pid ≠ 0) : ∀ (ts : List Table) (s s' : St) (out : List Table),
    pid ∈ s.demux → feedDemux St.demux (handleTable o) pid ts s = .ok (s', out) →
    out = ts.filter (·.sourcePid == pid) := by
  intro ts
  induction ts with
  | nil =>
    intro s s' out _ h
    simp only [feedDemux, Except.ok.injEq, Prod.mk.injEq] at h
    simp [h.2.symm]
  | cons t ts ih =>
    intro s s' out hw h
    simp only [feedDemux] at h
    by_cases ht : t.sourcePid = pid
    · rw [if_pos (by simp [ht, hw])] at h
      obtain ⟨s1, h1, h⟩ := bind_eq_ok h
      obtain ⟨⟨s2, out2⟩, h2, h3⟩ := bind_eq_ok h
      clear h
      cases h3
      rw [List.filter_cons_of_pos (by simp [ht]),
        ← ih s1 s2 out2 (table_demux h1 (pat_source (ht ▸ h0)) hw) h2]
    · rw [if_neg (by simp [ht])] at h
      rw [List.filter_cons_of_neg (by simp [ht])]
      exact ih s s' out hw h

/-- PATs are handed over. -/
theorem feed_pat {o : Opt} : ∀ (ts : List Table) (s s' : St) (l : List Ev) (out : List Table),
    Tabs o s l → Cnt o s l → feedDemux St.demux (handleTable o) 0 ts s = .ok (s', out) →
    Regular o (l ++ out.map .tab) → out = ts.filter (·.sourcePid == 0) := by
  intro ts
  induction ts with
  | nil =>
    intro s s' l out _ _ h _
    simp only [feedDemux, Except.ok.injEq, Prod.mk.injEq] at h
    simp [h.2.symm]
  | cons t ts ih =>
    intro s s' l out ht hc h hg
    simp only [feedDemux] at h
    by_cases htp : t.sourcePid = 0
    · rw [if_pos (by simp [htp, hc.base])] at h
      obtain ⟨s1, h1, h⟩ := bind_eq_ok h
      obtain ⟨⟨s2, out2⟩, h2, h3⟩ := bind_eq_ok h
      clear h
      cases h3
      have hg' : Regular o (l ++ [.tab t] ++ out2.map .tab) := by simpa using hg
      have hw : t.sourcePid ∈ s.demux := by rw [htp]; exact hc.base
      have ht1 := tabs_table ht hw h1
      have hc1 := cnt_table hc ht (regular_prefix hg') hw h1
      rw [List.filter_cons_of_pos (by simp [htp]), ← ih s1 s2 _ out2 ht1 hc1 h2 hg']
    · rw [if_neg (by simp [htp])] at h
      rw [List.filter_cons_of_neg (by simp [htp])]
      exact ih s s' l out ht hc h hg

/-- The tables that a step hands over. -/
theorem step_feed {o : Opt} {s s' : St} {i : Input} {out : List Table} {more : Bool}
    (h : step o s i = .ok (s', out, more)) (hp : i.packet.pid ≠ 0x1FFF) :
    ∃ s1, feedDemux St.demux (handleTable o) i.packet.pid i.tables s = .ok (s1, out) ∧
      s'.demux = s1.demux := by
  unfold step at h
  simp only at h
  rw [if_neg (by simpa [pidNull] using hp)] at h
  obtain ⟨⟨s1, log1⟩, h1, h2⟩ := bind_eq_ok h
  clear h
  simp only at h2
  split at h2
  · cases h2; exact ⟨_, h1, rfl⟩
  · split at h2
    · split at h2
      · cases h2; exact ⟨_, h1, rfl⟩
      · obtain ⟨_, _, h3⟩ := bind_eq_ok h2
        clear h2
        split at h3
        · cases h3; exact ⟨_, h1, rfl⟩
        · cases h3; exact ⟨_, h1, rfl⟩
    · cases h2; exact ⟨_, h1, rfl⟩

theorem step_demux {o : Opt} {s s' : St} {i : Input} {out : List Table} {more : Bool}
    (h : step o s i = .ok (s', out, more)) (hn : (out.map Ev.tab).filterMap patOf = []) {x : Nat}
    (hx : x ∈ s.demux) : x ∈ s'.demux := by
  by_cases hp : i.packet.pid = 0x1FFF
  · unfold step at h
    simp only at h
    rw [if_pos (by simpa [pidNull] using hp)] at h
    cases h; exact hx
  · obtain ⟨s1, h1, h2⟩ := step_feed h hp
    rw [h2]
    refine feedDemux_inv (pid := i.packet.pid) (watched := St.demux) (handle := handleTable o)
      (fun s rs => (rs.map Ev.tab).filterMap patOf = [] → x ∈ s.demux) ?_ _ _ _ _ [] (fun _ => hx) h1
      (by simpa using hn)
    intro s t s' rs hI _ _ k3 k4
    rw [List.map_append, List.filterMap_append, List.append_eq_nil_iff] at k4
    refine table_demux k3 ?_ (hI k4.1)
    have := k4.2
    simp only [List.map_cons, List.map_nil, List.filterMap_cons, List.filterMap_nil] at this
    cases hpt : patOf (.tab t) with
    | none => rfl
    | some p => simp [hpt] at this

theorem reach_demux {o : Opt} {items : List (Line Input (List Table))} {s : St}
    (h : Reach (step o) {} items s) :
    ∀ (a b : List (Line Input (List Table))), items = a ++ b → (log b).filterMap patOf = [] →
      ∀ s1, Reach (step o) {} a s1 → ∀ x ∈ s1.demux, x ∈ s.demux := by
  induction h with
  | nil =>
    intro a b e _ s1 h1 x hx
    have : a = [] := (List.append_eq_nil_iff.1 e.symm).1
    subst this
    rw [Reach.unique h1 _ .nil] at hx
    exact hx
  | @snoc items s i s' y more h1 h2 h3 ih =>
    intro a b e hb s1 hs x hx
    rcases List.eq_nil_or_concat b with rfl | ⟨b', z, rfl⟩
    · rw [List.append_nil] at e
      subst e
      rw [Reach.unique hs _ (.snoc h1 h2 h3)] at hx
      exact hx
    · rw [List.concat_eq_append, ← List.append_assoc] at e
      rw [List.concat_eq_append, log_snoc, List.filterMap_append, List.append_eq_nil_iff] at hb
      obtain ⟨e1, e2⟩ := List.append_inj' e rfl
      simp only [List.cons.injEq, and_true] at e2
      subst e2
      refine step_demux h3 ?_ (ih a b' e1 hb.1 s1 hs x hx)
      have := hb.2
      rw [List.filterMap_append, List.append_eq_nil_iff] at this
      exact this.1

/-! ### The result -/

theorem mem_clocks {s : St} {e : ClockEntry} : e ∈ clocks s ↔
    ∃ pcr, s.pcrPidMap.find? e.sid = some e.pid ∧ s.pcrMap.find? e.pid = some pcr ∧
      e = { nid := s.nid, tsid := s.tsid, sid := e.sid, pid := e.pid, pcr := pcr, time := jstToUnix s.time } := by
  unfold clocks
  rw [List.mem_filterMap]
  constructor
  · rintro ⟨⟨sid, pid⟩, h1, h2⟩
    simp only at h2
    split at h2
    · cases h2
    · next pcr hp =>
      cases h2
      exact ⟨pcr, (OMap.find?_iff _ _ _).2 h1, hp, rfl⟩
  · rintro ⟨pcr, h1, h2, h3⟩
    refine ⟨(e.sid, e.pid), (OMap.find?_iff _ _ _).1 h1, ?_⟩
    simp only [h2]
    rw [← h3]

theorem clocks_sorted (s : St) : (clocks s).Pairwise (fun a b => a.sid < b.sid) := by
  unfold clocks
  refine List.pairwise_filterMap.2 (s.pcrPidMap.sorted.imp ?_)
  rintro ⟨k1, v1⟩ ⟨k2, v2⟩ h e1 he1 e2 he2
  simp only at he1 he2
  split at he1
  · cases he1
  · split at he2
    · cases he2
    · cases he1; cases he2; exact h

theorem clocks_empty {s : St} (h : s.pcrMap.entries = []) : clocks s = [] := by
  cases hc : clocks s with
  | nil => rfl
  | cons e l =>
    obtain ⟨pcr, _, h2, _⟩ := mem_clocks.1 (show e ∈ clocks s by simp [hc])
    rw [(OMap.entries_nil_iff _).1 h] at h2; cases h2

theorem step_total {o : Opt} {s : St} {i : Input} (h : ∀ v, i.packet.pcr = some v → 0 ≤ v ∧ v < 2576980377600) :
    ∃ s' a more, step o s i = .ok (s', a, more) := by
  unfold step
  simp only
  split
  · exact ⟨_, _, _, rfl⟩
  · obtain ⟨⟨s1, out⟩, h1, _⟩ := feedDemux_total (pid := i.packet.pid) (watched := St.demux)
      (handle := handleTable o) (fun _ => True) (fun _ => True) (by
        intro s t _ _ _ _
        obtain ⟨s', k, _⟩ := effect_of (o := o) (s := s) (t := t)
        exact ⟨s', k, trivial⟩) i.tables s (fun _ _ => trivial) trivial
    rw [h1]
    simp only [ok_bind]
    split
    · exact ⟨_, _, _, rfl⟩
    · split
      · split
        · exact ⟨_, _, _, rfl⟩
        · next pcr hp =>
          obtain ⟨k1, k2⟩ := h pcr hp
          have : ∃ x, formatPcr pcr = .ok x := by
            unfold formatPcr
            have hv : isValidPcr pcr = true := by
              have e : maxPcr = 2576980377599 := by decide
              simp only [isValidPcr, e, Bool.and_eq_true, decide_eq_true_eq]; omega
            rw [hv]
            exact ⟨_, rfl⟩
          obtain ⟨x, hx⟩ := this
          rw [hx]
          simp only [ok_bind]
          split
          · exact ⟨_, _, _, rfl⟩
          · exact ⟨_, _, _, rfl⟩
      · exact ⟨_, _, _, rfl⟩

theorem synced_of_eval {o : Opt} {is : List Input} {code : Nat} {items : List (Line Input (List Table))}
    {out : Option (List ClockEntry)}
    (h : checkRun (sink o) { st := {} } is
      (fun c h => decide (c = code ∧ h.items = items ∧ h.st.out = out)) = true) :
    ∃ h, Synced o is code h ∧ h.items = items ∧ h.st.out = out := by
  obtain ⟨c, s, h1, h2⟩ := ran_of_check h
  obtain ⟨rfl, h3, h4⟩ := of_decide_eq_true h2
  exact ⟨s, h1, h3, h4⟩

end Mirakc.PcrSynchronizer
