import Verif.Spec.PcrSynchronizer
import Verif.Proof.History
import Verif.Proof.OMap
/-
The state of sync-clocks as a function of what was received.
-/
set_option linter.unusedSimpArgs false
namespace Mirakc.PcrSynchronizer
open Mirakc.Spec Mirakc.Spec.PcrSynchronizer

/-! ### What was received -/

theorem patOf_some {e : Ev} {p : Pat} : patOf e = some p ↔
    ∃ t : Table, e = .tab t ∧ t.sourcePid = 0 ∧ t.valid = true ∧ t.body = .pat p ∧ p.tsId ≠ 0 := by
  constructor
  · intro h
    unfold patOf at h
    split at h
    · split at h
      · cases h
      · cases h
        next h0 => exact ⟨_, rfl, rfl, rfl, rfl, h0⟩
    · cases h
  · rintro ⟨⟨a, b, c, d⟩, rfl, h1, h2, h3, h4⟩
    simp only at h1 h2 h3
    subst h1 h2 h3
    simp [patOf, h4]

theorem sdtOf_some {e : Ev} {x : Sdt} : sdtOf e = some x ↔
    ∃ t : Table, e = .tab t ∧ t.valid = true ∧ t.body = .sdt x := by
  constructor
  · intro h
    unfold sdtOf at h
    split at h
    · cases h; exact ⟨_, rfl, rfl, rfl⟩
    · cases h
  · rintro ⟨⟨a, b, c, d⟩, rfl, h1, h2⟩
    simp only at h1 h2
    subst h1 h2
    rfl

theorem totOf_some {e : Ev} {x : Int} : totOf e = some x ↔
    ∃ t : Table, e = .tab t ∧ t.valid = true ∧ t.body = .tot x := by
  constructor
  · intro h
    unfold totOf at h
    split at h
    · cases h; exact ⟨_, rfl, rfl, rfl⟩
    · cases h
  · rintro ⟨⟨a, b, c, d⟩, rfl, h1, h2⟩
    simp only at h1 h2
    subst h1 h2
    rfl

theorem pmtOf_some {e : Ev} {pid : Nat} {x : Pmt} : pmtOf e = some (pid, x) ↔
    ∃ t : Table, e = .tab t ∧ t.sourcePid = pid ∧ t.valid = true ∧ t.body = .pmt x := by
  constructor
  · intro h
    unfold pmtOf at h
    split at h
    · cases h; exact ⟨_, rfl, rfl, rfl, rfl⟩
    · cases h
  · rintro ⟨⟨a, b, c, d⟩, rfl, h1, h2, h3⟩
    simp only at h1 h2 h3
    subst h1 h2 h3
    rfl

theorem patOf_pkt (p : Packet) : patOf (.pkt p) = none := rfl
theorem sdtOf_pkt (p : Packet) : sdtOf (.pkt p) = none := rfl
theorem totOf_pkt (p : Packet) : totOf (.pkt p) = none := rfl
theorem pmtOf_pkt (p : Packet) : pmtOf (.pkt p) = none := rfl

theorem none_of_not {α : Type} {x : Option α} (h : ∀ a, x ≠ some a) : x = none := by
  cases x with
  | none => rfl
  | some a => exact absurd rfl (h a)

/-- A table is of one kind only. -/
theorem kinds_pat {e : Ev} {p : Pat} (h : patOf e = some p) :
    sdtOf e = none ∧ totOf e = none ∧ pmtOf e = none := by
  obtain ⟨t, rfl, _, _, hb, _⟩ := patOf_some.1 h
  refine ⟨none_of_not fun x hx => ?_, none_of_not fun x hx => ?_, none_of_not fun x hx => ?_⟩
  · obtain ⟨_, e, _, h2⟩ := sdtOf_some.1 hx; cases e; rw [hb] at h2; cases h2
  · obtain ⟨_, e, _, h2⟩ := totOf_some.1 hx; cases e; rw [hb] at h2; cases h2
  · obtain ⟨_, e, _, _, h2⟩ := pmtOf_some.1 hx; cases e; rw [hb] at h2; cases h2

theorem latestPat_snoc (l : List Ev) (e : Ev) :
    latestPat (l ++ [e]) = match patOf e with | some p => some p | none => latestPat l := by
  unfold latestPat
  rw [List.filterMap_append]
  cases h : patOf e with
  | none => simp [h]
  | some p => simp [h]

theorem latestPat_none {l : List Ev} : latestPat l = none ↔ l.filterMap patOf = [] := by
  unfold latestPat; exact List.getLast?_eq_none_iff

theorem sincePat_snoc (l : List Ev) (e : Ev) :
    sincePat (l ++ [e]) = match patOf e with | some _ => [] | none => sincePat l ++ [e] := by
  unfold sincePat
  rw [List.reverse_append]
  cases h : patOf e with
  | none => simp [h]
  | some p => simp [h]

theorem filterMap_congr' {α β : Type} {f g : α → Option β} {l : List α} (h : ∀ x, f x = g x) :
    l.filterMap f = l.filterMap g := by rw [show f = g from funext h]

theorem sinceChange_none {l : List Ev} {e : Ev} (h : patOf e = none) :
    sinceChange (l ++ [e]) = sinceChange l ++ [e] := by
  unfold sinceChange
  rw [List.filterMap_append, show List.filterMap patOf [e] = [] by simp [h], List.append_nil,
    sincePat_snoc, h]
  split <;> rfl

theorem sinceChange_first {l : List Ev} {e : Ev} {p : Pat} (h : patOf e = some p)
    (hl : l.filterMap patOf = []) : sinceChange (l ++ [e]) = l ++ [e] := by
  unfold sinceChange
  rw [List.filterMap_append, hl]
  simp [h]

theorem sinceChange_next {l : List Ev} {e : Ev} {p : Pat} (h : patOf e = some p)
    (hl : l.filterMap patOf ≠ []) : sinceChange (l ++ [e]) = [] := by
  unfold sinceChange
  have : 0 < (l.filterMap patOf).length := List.length_pos_iff.2 hl
  rw [List.filterMap_append, show List.filterMap patOf [e] = [p] by simp [h], if_neg, sincePat_snoc, h]
  simp only [List.length_append, List.length_singleton]
  omega

theorem listed_none {o : Opt} {l : List Ev} {e : Ev} (h : patOf e = none) {sid pid : Nat} :
    Listed o (l ++ [e]) sid pid ↔ Listed o l sid pid := by
  unfold Listed
  rw [latestPat_snoc, h]

theorem listed_pat {o : Opt} {l : List Ev} {e : Ev} {p : Pat} (h : patOf e = some p) {sid pid : Nat} :
    Listed o (l ++ [e]) sid pid ↔ Selected o sid ∧ p.pmts.find? sid = some pid := by
  unfold Listed
  rw [latestPat_snoc, h]
  simp

theorem pmts_pat {o : Opt} {l : List Ev} {e : Ev} {p : Pat} (h : patOf e = some p) :
    pmts o (l ++ [e]) = [] := by
  unfold pmts
  rw [sincePat_snoc, h]
  rfl

theorem pmts_snoc {o : Opt} {l : List Ev} {e : Ev} (h : patOf e = none) :
    pmts o (l ++ [e]) = pmts o l ++
      (match pmtOf e with
        | some (pid, x) => if Listed o l x.serviceId pid then [x] else []
        | none => []) := by
  unfold pmts
  rw [sincePat_snoc, h]
  simp only [List.filterMap_append]
  congr 1
  · apply filterMap_congr'
    rintro ⟨pid, x⟩
    simp only [listed_none h]
  · cases hp : pmtOf e with
    | none => simp [hp]
    | some y =>
      obtain ⟨pid, x⟩ := y
      simp only [List.filterMap_cons, List.filterMap_nil, hp, listed_none h]
      by_cases hl : Listed o l x.serviceId pid
      · simp [hl]
      · simp [hl]

theorem pmts_same {o : Opt} {l : List Ev} {e : Ev} (h : patOf e = none) (hp : pmtOf e = none) :
    pmts o (l ++ [e]) = pmts o l := by
  rw [pmts_snoc h, hp, List.append_nil]

theorem isClock_mono {o : Opt} {l : List Ev} {e : Ev} (h : patOf e = none) {pid : Nat}
    (hc : IsClock o l pid) : IsClock o (l ++ [e]) pid := by
  obtain ⟨h1, x, h2, h3⟩ := hc
  refine ⟨h1, x, ?_, h3⟩
  rw [pmts_snoc h]
  exact List.mem_append.2 (.inl h2)

theorem isClock_append {o : Opt} {a : List Ev} {pid : Nat} (hc : IsClock o a pid) :
    ∀ b : List Ev, b.filterMap patOf = [] → IsClock o (a ++ b) pid := by
  intro b
  induction b generalizing a with
  | nil => intro _; simpa using hc
  | cons e b ih =>
    intro h
    rw [List.filterMap_cons] at h
    cases he : patOf e with
    | some p => simp [he] at h
    | none =>
      simp only [he] at h
      have := ih (isClock_mono he hc) h
      simpa using this

/-! ### PCRs captured -/

theorem captured_isClock {o : Opt} {l : List Ev} {pid : Nat} {v : Int} (h : Captured o l pid v) :
    IsClock o l pid := by
  obtain ⟨a, p, b, rfl, hb, _, _, hl, _⟩ := h
  exact isClock_append hl.1 _ (by simpa [patOf_pkt] using hb)

theorem captured_tab {o : Opt} {l : List Ev} {t : Table} (h : patOf (.tab t) = none) {pid : Nat} {v : Int} :
    Captured o (l ++ [.tab t]) pid v ↔ Captured o l pid v := by
  constructor
  · rintro ⟨a, p, b, e, hb, h1, h2, h3, h4⟩
    rcases List.eq_nil_or_concat b with rfl | ⟨b', y, rfl⟩
    · have := congrArg List.getLast? e
      simp at this
    · rw [List.concat_eq_append] at e hb
      rw [show a ++ Ev.pkt p :: (b' ++ [y]) = (a ++ Ev.pkt p :: b') ++ [y] by simp] at e
      obtain ⟨e1, _⟩ := List.append_inj' e rfl
      refine ⟨a, p, b', e1, ?_, h1, h2, h3, h4⟩
      rw [List.filterMap_append, List.append_eq_nil_iff] at hb
      exact hb.1
  · rintro ⟨a, p, b, rfl, hb, h1, h2, h3, h4⟩
    exact ⟨a, p, b ++ [.tab t], by simp, by simp [List.filterMap_append, hb, h], h1, h2, h3, h4⟩

theorem captured_pat {o : Opt} {l : List Ev} {e : Ev} {x : Pat} (h : patOf e = some x) {pid : Nat} {v : Int} :
    ¬ Captured o (l ++ [e]) pid v := by
  rintro ⟨a, p, b, eq, hb, _⟩
  rcases List.eq_nil_or_concat b with rfl | ⟨b', y, rfl⟩
  · have := congrArg List.getLast? eq
    simp at this
    rw [this] at h; cases h
  · rw [List.concat_eq_append] at eq hb
    rw [show a ++ Ev.pkt p :: (b' ++ [y]) = (a ++ Ev.pkt p :: b') ++ [y] by simp] at eq
    obtain ⟨_, e1⟩ := List.append_inj' eq rfl
    simp only [List.cons.injEq, and_true] at e1
    subst e1
    simp [List.filterMap_append, h] at hb

/-- If some PCR was looked at, there is a first one. -/
theorem captured_of_looked {o : Opt} {pid : Nat} : ∀ (n : Nat) (a : List Ev) (p : Packet) (b : List Ev),
    a.length ≤ n → b.filterMap patOf = [] → p.pid = pid → p.pcr ≠ none → Looked o a pid →
    ∃ v, Captured o (a ++ .pkt p :: b) pid v := by
  intro n
  induction n with
  | zero =>
    intro a p b hn hb h1 h2 h3
    have : a = [] := List.eq_nil_of_length_eq_zero (by omega)
    subst this
    obtain ⟨⟨_, x, hx, _⟩, _⟩ := h3
    simp [pmts, sincePat] at hx
  | succ n ih =>
    intro a p b hn hb h1 h2 h3
    by_cases hf : ∃ a1 q a2, a = a1 ++ .pkt q :: a2 ∧ a2.filterMap patOf = [] ∧ q.pid = pid ∧ q.pcr ≠ none ∧
        Looked o a1 pid
    · obtain ⟨a1, q, a2, rfl, k1, k2, k3, k4⟩ := hf
      obtain ⟨v, hv⟩ := ih a1 q (a2 ++ .pkt p :: b) (by simp at hn; omega)
        (by rw [List.filterMap_append, k1, List.filterMap_cons, patOf_pkt]; exact hb) k2 k3 k4
      exact ⟨v, by simpa using hv⟩
    · cases hv : p.pcr with
      | none => exact absurd hv h2
      | some v =>
        refine ⟨v, a, p, b, rfl, hb, h1, hv, h3, ?_⟩
        intro a1 q a2 e k1 k2 k3 k4
        exact hf ⟨a1, q, a2, e, k1, k2, k3, k4⟩

theorem captured_pkt {o : Opt} {l : List Ev} {p : Packet} {pid : Nat} {v : Int} :
    Captured o (l ++ [.pkt p]) pid v ↔ Captured o l pid v ∨
      (p.pid = pid ∧ p.pcr = some v ∧ Looked o l pid ∧ ∀ w, ¬ Captured o l pid w) := by
  constructor
  · rintro ⟨a, q, b, e, hb, h1, h2, h3, h4⟩
    rcases List.eq_nil_or_concat b with rfl | ⟨b', y, rfl⟩
    · obtain ⟨rfl, e1⟩ := List.append_inj' e rfl
      cases e1
      refine .inr ⟨h1, h2, h3, ?_⟩
      rintro w ⟨a1, q, a2, e, k1, k2, k3, k4, _⟩
      exact h4 a1 q a2 e k1 k2 (by simp [k3]) k4
    · rw [List.concat_eq_append] at e hb
      rw [show a ++ Ev.pkt q :: (b' ++ [y]) = (a ++ Ev.pkt q :: b') ++ [y] by simp] at e
      obtain ⟨e1, _⟩ := List.append_inj' e rfl
      refine .inl ⟨a, q, b', e1, ?_, h1, h2, h3, h4⟩
      rw [List.filterMap_append, List.append_eq_nil_iff] at hb
      exact hb.1
  · rintro (⟨a, q, b, rfl, hb, h1, h2, h3, h4⟩ | ⟨h1, h2, h3, h4⟩)
    · exact ⟨a, q, b ++ [.pkt p], by simp, by simp [List.filterMap_append, hb, patOf_pkt], h1, h2, h3, h4⟩
    · refine ⟨l, p, [], rfl, rfl, h1, h2, h3, ?_⟩
      intro a1 q a2 e k1 k2 k3 k4
      obtain ⟨w, hw⟩ := captured_of_looked _ a1 q a2 (Nat.le_refl _) k1 k2 k3 k4
      exact h4 w (e ▸ hw)

/-! ### The state -/

/-- What the state means while the command is at work. -/
structure Run (o : Opt) (s : St) (l : List Ev) : Prop where
  pids : ∀ sid pid, s.pmtPids.find? sid = some pid ↔ Listed o l sid pid
  some_listed : latestPat l ≠ none → s.pmtPids.entries ≠ []
  clocks : ∀ sid, s.pcrPidMap.find? sid = clockPid o l sid
  nodup : s.pcrPids.Nodup
  isClock : ∀ p, p ∈ s.pcrPids ↔ IsClock o l p
  started : s.started = true ↔ (sinceChange l).filterMap totOf ≠ []
  captured : ∀ pid v, s.pcrMap.find? pid = some v ↔ Captured o l pid v
  ids : (s.nid, s.tsid) =
    (((sinceChange l).filterMap sdtOf).getLast?.map fun x => (x.onetwId, x.tsId)).getD (0, 0)
  /-- The PIDs of PMTs that are watched are those of services with audio or video. -/
  watch : ∀ x ∈ s.demux, x = 0 ∨ x = 0x11 ∨ x = 0x14 ∨ ∃ sid, Listed o l sid x ∧ HasAudioVideo l sid
  /-- PMTs came from such PIDs. -/
  source : ∀ pid x, (pid, x) ∈ (sincePat l).filterMap pmtOf →
    pid = 0 ∨ pid = 0x11 ∨ pid = 0x14 ∨ ∃ sid, Listed o l sid pid ∧ HasAudioVideo l sid

/-- What the state means between the tables of a packet. -/
structure Tabs (o : Opt) (s : St) (l : List Ev) : Prop where
  time : s.time = (l.filterMap totOf).getLast?.getD 0
  out : s.out = none
  demux : ∀ x ∈ s.demux, x = 0 ∨ x = 0x11 ∨ x = 0x14 ∨ ∃ sid, s.pmtPids.find? sid = some x
  pids : ∀ sid pid, s.pmtPids.find? sid = some pid ↔ Listed o l sid pid
  running : s.done = false → Run o s l
  notAll : s.done = false → ¬ AllCaptured o l
  doneIff : s.done = true ↔ NothingSelected o l
  empty : s.done = true → s.pcrMap.entries = []

theorem selected_iff {o : Opt} {sid : Nat} : isSelected o sid = true ↔ Selected o sid := by
  unfold isSelected Selected
  cases o.sids <;> cases o.xsids <;> simp <;> grind

theorem tabs_init (o : Opt) : Tabs o {} [] := by
  refine ⟨rfl, rfl, by simp [pidPat], by simp [OMap.find?_empty, Listed, latestPat], fun _ => ?_, ?_,
    by simp [NothingSelected], by simp⟩
  refine ⟨?_, by simp [latestPat], ?_, List.nodup_nil, ?_, by simp [sinceChange], ?_,
    rfl, by simp [pidPat], by simp [sincePat]⟩
  · intro sid pid
    simp [OMap.find?_empty, Listed, latestPat]
  · intro sid; rfl
  · intro p
    simp [IsClock, pmts, sincePat]
  · intro pid v
    simp only [OMap.find?_empty, reduceCtorEq, false_iff]
    rintro ⟨a, p, b, e, _⟩
    simp at e
  · rintro _ ⟨⟨pid, _, x, hx, _⟩, _⟩
    simp [pmts, sincePat] at hx

theorem mem_remove {s : PidSet} {p x : Nat} : x ∈ s.remove p ↔ x ∈ s ∧ x ≠ p := by
  simp [PidSet.remove, List.mem_filter]

theorem mem_removes {l : List Nat} {s : PidSet} {x : Nat} : x ∈ l.foldl PidSet.remove s ↔ x ∈ s ∧ x ∉ l := by
  induction l generalizing s with
  | nil => simp
  | cons p l ih => rw [List.foldl_cons, ih, mem_remove]; simp [and_assoc]

theorem lastTot_snoc {l : List Ev} {e : Ev} (h : totOf e = none) :
    (l ++ [e]).filterMap totOf = l.filterMap totOf := by
  simp [List.filterMap_append, h]

/-- The state after a PAT, whatever came before. -/
theorem run_fresh {o : Opt} {l : List Ev} {e : Ev} {pat : Pat} {s : St} (he : patOf e = some pat)
    (h1 : s.pmtPids = pat.pmts.filter fun e => isSelected o e.1) (h2 : s.pmtPids.entries ≠ [])
    (h3 : s.pcrPidMap.entries = []) (h4 : s.pcrPids = []) (h5 : s.pcrMap.entries = [])
    (h6 : s.started = true ↔ (sinceChange (l ++ [e])).filterMap totOf ≠ [])
    (h7 : (s.nid, s.tsid) = (((sinceChange (l ++ [e])).filterMap sdtOf).getLast?.map
      fun x => (x.onetwId, x.tsId)).getD (0, 0))
    (h8 : ∀ x ∈ s.demux, x = 0 ∨ x = 0x11 ∨ x = 0x14) : Run o s (l ++ [e]) := by
  refine ⟨?_, fun _ => h2, ?_, by rw [h4]; exact List.nodup_nil, ?_, h6, ?_, h7, ?_, ?_⟩
  · intro sid pid
    rw [h1, OMap.find?_filter, selected_iff, listed_pat he]
    exact And.comm
  · intro sid
    rw [(OMap.entries_nil_iff _).1 h3]
    simp [clockPid, pmts_pat he]
  · intro p
    rw [h4]
    simp [IsClock, pmts_pat he]
  · intro pid v
    rw [(OMap.entries_nil_iff _).1 h5]
    simp [captured_pat he]
  · intro x hx
    rcases h8 x hx with h | h | h
    · exact .inl h
    · exact .inr (.inl h)
    · exact .inr (.inr (.inl h))
  · intro pid x hx
    rw [sincePat_snoc, he] at hx
    simp at hx

theorem notAll_pat {o : Opt} {l : List Ev} {e : Ev} {pat : Pat} (he : patOf e = some pat) :
    ¬ AllCaptured o (l ++ [e]) := by
  rintro ⟨⟨pid, _, x, hx, _⟩, _⟩
  rw [pmts_pat he] at hx
  simp at hx

theorem nothing_none {o : Opt} {l : List Ev} {e : Ev} (h : patOf e = none) :
    NothingSelected o (l ++ [e]) ↔ NothingSelected o l := by
  unfold NothingSelected
  rw [List.filterMap_append, show List.filterMap patOf [e] = [] by simp [h], List.append_nil]

theorem nothing_pat {o : Opt} {l : List Ev} {e : Ev} {pat : Pat} (h : patOf e = some pat) :
    NothingSelected o (l ++ [e]) ↔
      SelectsNone o pat ∨ ∃ pat', latestPat l = some pat' ∧ SelectsNone o pat' := by
  unfold NothingSelected latestPat
  rw [List.filterMap_append, show List.filterMap patOf [e] = [pat] by simp [h], List.reverse_append,
    ← List.head?_reverse]
  cases (l.filterMap patOf).reverse with
  | nil => simp
  | cons a b => simp

theorem nothing_pats {o : Opt} {l : List Ev} (h : NothingSelected o l) : latestPat l ≠ none := by
  intro k
  obtain ⟨pat, h1, _⟩ := h
  rw [latestPat_none.1 k] at h1
  simp at h1

theorem isEmpty_false {α : Type} {l : List α} (h : l ≠ []) : l.isEmpty = false := by
  cases l with
  | nil => exact absurd rfl h
  | cons => rfl

/-- A PAT. -/
theorem tabs_pat {o : Opt} {s : St} {l : List Ev} {t : Table} {pat : Pat} (ht : Tabs o s l)
    (he : patOf (.tab t) = some pat) :
    ∃ s', handleTable o s t = .ok s' ∧ Tabs o s' (l ++ [.tab t]) := by
  obtain ⟨t', e, hp, hv, hb, hts⟩ := patOf_some.1 he
  cases e
  obtain ⟨q1, q2, q3⟩ := kinds_pat he
  have htime : ((l ++ [Ev.tab t]).filterMap totOf) = l.filterMap totOf := lastTot_snoc q2
  have hpids : ∀ sid pid, (pat.pmts.filter fun e => isSelected o e.1).find? sid = some pid ↔
      Listed o (l ++ [.tab t]) sid pid := by
    intro sid pid
    rw [OMap.find?_filter, selected_iff, listed_pat he]
    exact And.comm
  have hnone : (pat.pmts.filter fun e => isSelected o e.1).entries = [] ↔ SelectsNone o pat := by
    rw [OMap.entries_nil_iff]
    constructor
    · intro hse sid pid hf hsel
      have := hse sid
      rw [(OMap.find?_filter _ _ sid pid).2 ⟨hf, selected_iff.2 hsel⟩] at this
      cases this
    · intro h sid
      refine none_of_not fun pid hv => ?_
      obtain ⟨k1, k2⟩ := (OMap.find?_filter _ _ sid pid).1 hv
      exact h sid pid k1 (selected_iff.1 k2)
  have hprev : ∀ pat', latestPat l = some pat' → (s.pmtPids.entries = [] ↔ SelectsNone o pat') := by
    intro pat' hl
    rw [OMap.entries_nil_iff]
    constructor
    · intro hse sid pid hf hsel
      have := hse sid
      rw [(ht.pids sid pid).2 ⟨hsel, pat', hl, hf⟩] at this
      cases this
    · intro h sid
      refine none_of_not fun pid hv => ?_
      obtain ⟨k1, p, k2, k3⟩ := (ht.pids sid pid).1 hv
      rw [hl] at k2; cases k2
      exact h sid pid k3 k1
  unfold handleTable
  rw [hb]
  refine ⟨_, rfl, ?_⟩
  unfold handlePat
  rw [if_neg (by simp [hp, pidPat]), if_neg (by simp [hv]), if_neg (by simp [hts])]
  by_cases hne : s.pmtPids.entries = []
  · -- nothing to reset
    have hdemux : ∀ x ∈ s.demux, x = 0 ∨ x = 0x11 ∨ x = 0x14 := by
      intro x hx
      rcases ht.demux x hx with h | h | h | ⟨sid, h⟩
      · exact .inl h
      · exact .inr (.inl h)
      · exact .inr (.inr h)
      · rw [(OMap.entries_nil_iff _).1 hne] at h; cases h
    have hdemux' : ∀ x ∈ s.demux.add pidSdt, x = 0 ∨ x = 0x11 ∨ x = 0x14 := by
      intro x hx
      simp only [PidSet.add, List.mem_cons] at hx
      rcases hx with rfl | hx
      · exact .inr (.inl rfl)
      · exact hdemux x hx
    have hdemux2 : ∀ x ∈ s.demux.add pidSdt, x = 0 ∨ x = 0x11 ∨ x = 0x14 ∨
        ∃ sid, (pat.pmts.filter fun e => isSelected o e.1).find? sid = some x := by
      intro x hx
      rcases hdemux' x hx with h | h | h
      · exact .inl h
      · exact .inr (.inl h)
      · exact .inr (.inr (.inl h))
    have hfirst : s.done = false → latestPat l = none := fun hd =>
      Classical.byContradiction fun h => (ht.running hd).some_listed h hne
    have hpm : latestPat l = none → pmts o l = [] := by
      intro hlat
      unfold pmts
      rw [List.filterMap_eq_nil_iff]
      rintro ⟨pid, x⟩ _
      simp [Listed, hlat]
    have hmap : s.pcrMap.entries = [] := by
      cases hd : s.done with
      | true => exact ht.empty hd
      | false =>
        rw [OMap.entries_nil_iff]
        intro k
        refine none_of_not fun v hv => ?_
        obtain ⟨_, x, hx, _⟩ := captured_isClock (((ht.running hd).captured k v).1 hv)
        rw [hpm (hfirst hd)] at hx
        simp at hx
    simp only [hne, List.isEmpty_nil, Bool.not_true, Bool.false_eq_true, if_false]
    by_cases hse : (pat.pmts.filter fun e => isSelected o e.1).entries = []
    · simp only [hse, List.isEmpty_nil, if_true]
      refine ⟨by rw [htime]; exact ht.time, ht.out, hdemux2, hpids, by simp, by simp, ?_, fun _ => hmap⟩
      exact ⟨fun _ => (nothing_pat he).2 (.inl (hnone.1 hse)), fun _ => rfl⟩
    · simp only [isEmpty_false hse, Bool.false_eq_true, if_false]
      refine ⟨by rw [htime]; exact ht.time, ht.out, hdemux2, hpids, fun hd => ?_,
        fun _ => notAll_pat he, ?_, ht.empty⟩
      · -- the first PAT
        have hr := ht.running hd
        have hlat := hfirst hd
        have hpats := latestPat_none.1 hlat
        have hsc : sinceChange l = l := by simp [sinceChange, hpats]
        have hpm := hpm hlat
        refine run_fresh he rfl hse ?_ ?_ hmap ?_ ?_ hdemux'
        · rw [OMap.entries_nil_iff]
          intro k
          show s.pcrPidMap.find? k = none
          rw [hr.clocks]
          simp [clockPid, hpm]
        · show s.pcrPids = []
          cases hc : s.pcrPids with
          | nil => rfl
          | cons p q =>
            obtain ⟨_, x, hx, _⟩ := (hr.isClock p).1 (by simp [hc])
            rw [hpm] at hx; simp at hx
        · rw [sinceChange_first he hpats, htime]
          show s.started = true ↔ _
          rw [hr.started, hsc]
        · rw [sinceChange_first he hpats]
          show (s.nid, s.tsid) = _
          rw [hr.ids, hsc]
          simp [List.filterMap_append, q1]
      · show s.done = true ↔ _
        rw [nothing_pat he]
        constructor
        · intro hd
          obtain ⟨pat', hl⟩ := Option.ne_none_iff_exists'.1 (nothing_pats (ht.doneIff.1 hd))
          exact .inr ⟨pat', hl, (hprev pat' hl).1 hne⟩
        · rintro (k | ⟨pat', k1, _⟩)
          · exact absurd (hnone.2 k) hse
          · cases hd : s.done with
            | true => rfl
            | false => rw [hfirst hd] at k1; cases k1
  · -- reset
    have hlatest : ∃ pat', latestPat l = some pat' := by
      cases hl : latestPat l with
      | some p => exact ⟨p, rfl⟩
      | none =>
        exfalso
        apply hne
        rw [OMap.entries_nil_iff]
        intro k
        refine none_of_not fun v hv => ?_
        obtain ⟨_, p, hp, _⟩ := (ht.pids k v).1 hv
        rw [hl] at hp; cases hp
    have hpats : l.filterMap patOf ≠ [] := by
      intro h
      obtain ⟨p, hp⟩ := hlatest
      rw [latestPat_none.2 h] at hp; cases hp
    have hno : ¬ ∃ pat', latestPat l = some pat' ∧ SelectsNone o pat' := by
      rintro ⟨p, k1, k2⟩
      exact hne ((hprev p k1).2 k2)
    have hdemux : ∀ x ∈ (resetStates s).demux, x = 0 := by
      intro x hx
      simp only [resetStates, mem_remove, mem_removes] at hx
      obtain ⟨⟨⟨h1, h2⟩, h3⟩, h4⟩ := hx
      rcases ht.demux x h1 with h | h | h | ⟨sid, h⟩
      · exact h
      · exact absurd h h4
      · exact absurd h h2
      · exact absurd (List.mem_map.2 ⟨(sid, x), (OMap.find?_iff _ _ _).1 h, rfl⟩) h3
    have hdemux' : ∀ x ∈ (resetStates s).demux.add pidSdt, x = 0 ∨ x = 0x11 ∨ x = 0x14 := by
      intro x hx
      simp only [PidSet.add, List.mem_cons] at hx
      rcases hx with rfl | hx
      · exact .inr (.inl rfl)
      · exact .inl (hdemux x hx)
    have hdemux2 : ∀ x ∈ (resetStates s).demux.add pidSdt, x = 0 ∨ x = 0x11 ∨ x = 0x14 ∨
        ∃ sid, (pat.pmts.filter fun e => isSelected o e.1).find? sid = some x := by
      intro x hx
      rcases hdemux' x hx with h | h | h
      · exact .inl h
      · exact .inr (.inl h)
      · exact .inr (.inr (.inl h))
    simp only [isEmpty_false hne, Bool.not_false, if_true]
    by_cases hse : (pat.pmts.filter fun e => isSelected o e.1).entries = []
    · simp only [hse, List.isEmpty_nil, if_true]
      refine ⟨by rw [htime]; exact ht.time, ht.out, hdemux2, hpids, by simp, by simp, ?_, fun _ => rfl⟩
      exact ⟨fun _ => (nothing_pat he).2 (.inl (hnone.1 hse)), fun _ => rfl⟩
    · simp only [isEmpty_false hse, Bool.false_eq_true, if_false]
      refine ⟨by rw [htime]; exact ht.time, ht.out, hdemux2, hpids, fun _ => ?_,
        fun _ => notAll_pat he, ?_, fun hd => by simp [resetStates] at hd⟩
      · refine run_fresh he rfl hse rfl rfl rfl ?_ ?_ hdemux'
        · rw [sinceChange_next he hpats]
          simp [resetStates]
        · rw [sinceChange_next he hpats]
          rfl
      · show false = true ↔ _
        rw [nothing_pat he]
        constructor
        · intro h; cases h
        · rintro (k | k)
          · exact absurd (hnone.2 k) hse
          · exact absurd k hno

/-! ### Other tables -/

theorem audioVideo_iff {n : Nat} : isAudioVideoService n = true ↔ AudioVideo n := by
  unfold isAudioVideoService AudioVideo
  split <;> simp_all

/-- The SDT says that the service is one with audio or video. -/
def av (sdt : Sdt) (e : Nat × Nat) : Bool :=
  match sdt.services.find? e.1 with
  | none => false
  | some x => isAudioVideoService x.serviceType

theorem av_iff {sdt : Sdt} {e : Nat × Nat} :
    av sdt e = true ↔ ∃ x, sdt.services.find? e.1 = some x ∧ AudioVideo x.serviceType := by
  unfold av
  cases h : sdt.services.find? e.1 with
  | none => simp
  | some x => simp [audioVideo_iff]

theorem countPmts_eq (sdt : Sdt) : ∀ (es : List (Nat × Nat)) (s : St), countPmts sdt es s =
    { s with
      pmtCount := s.pmtCount + (es.filter (av sdt)).length
      demux := (es.filter (av sdt)).foldl (fun d e => d.add e.2) s.demux } := by
  intro es
  induction es with
  | nil => intro s; rfl
  | cons e es ih =>
    obtain ⟨sid, pid⟩ := e
    intro s
    unfold countPmts
    cases h : sdt.services.find? sid with
    | none =>
      simp only
      rw [ih, List.filter_cons_of_neg (by simp [av, h])]
    | some x =>
      simp only
      by_cases hx : isAudioVideoService x.serviceType = true
      · rw [if_neg (by simp [hx]), ih, List.filter_cons_of_pos (by simp [av, h, hx])]
        simp only [List.length_cons, List.foldl_cons]
        congr 1
        omega
      · rw [if_pos (by simp [hx]), ih, List.filter_cons_of_neg (by simp [av, h, hx])]

theorem mem_adds {es : List (Nat × Nat)} {d : PidSet} {x : Nat} :
    x ∈ es.foldl (fun d e => PidSet.add d e.2) d ↔ x ∈ d ∨ ∃ sid, (sid, x) ∈ es := by
  induction es generalizing d with
  | nil => simp
  | cons e es ih =>
    rw [List.foldl_cons, ih]
    simp only [PidSet.add, List.mem_cons]
    constructor
    · rintro ((rfl | h) | ⟨sid, h⟩)
      · exact .inr ⟨e.1, .inl rfl⟩
      · exact .inl h
      · exact .inr ⟨sid, .inr h⟩
    · rintro (h | ⟨sid, (h | h)⟩)
      · exact .inl (.inr h)
      · exact .inl (.inl (by rw [← h]))
      · exact .inr ⟨sid, h⟩

theorem hasAV_mono {l : List Ev} {e : Ev} (h : patOf e = none) {sid : Nat} (ha : HasAudioVideo l sid) :
    HasAudioVideo (l ++ [e]) sid := by
  obtain ⟨sdt, h1, h2⟩ := ha
  refine ⟨sdt, ?_, h2⟩
  unfold sdts at h1 ⊢
  rw [sincePat_snoc, h]
  simp only [List.filterMap_append]
  exact List.mem_append.2 (.inl h1)

theorem notAll_tab {o : Opt} {l : List Ev} {t : Table} (h : patOf (.tab t) = none)
    (hn : ¬ AllCaptured o l) : ¬ AllCaptured o (l ++ [.tab t]) := by
  rintro ⟨⟨pid, h1⟩, h2⟩
  apply hn
  obtain ⟨v, hv⟩ := h2 pid h1
  refine ⟨⟨pid, captured_isClock ((captured_tab h).1 hv)⟩, fun p hp => ?_⟩
  obtain ⟨w, hw⟩ := h2 p (isClock_mono h hp)
  exact ⟨w, (captured_tab h).1 hw⟩

/-- A table that is not a PMT. -/
theorem run_tab {o : Opt} {s s' : St} {l : List Ev} {t : Table} (hr : Run o s l)
    (h : patOf (.tab t) = none) (hp : pmtOf (.tab t) = none)
    (e1 : s'.pmtPids = s.pmtPids) (e2 : s'.pcrPidMap = s.pcrPidMap) (e3 : s'.pcrPids = s.pcrPids)
    (e4 : s'.pcrMap = s.pcrMap)
    (h1 : s'.started = true ↔ (sinceChange (l ++ [.tab t])).filterMap totOf ≠ [])
    (h2 : (s'.nid, s'.tsid) = (((sinceChange (l ++ [.tab t])).filterMap sdtOf).getLast?.map
      fun x => (x.onetwId, x.tsId)).getD (0, 0))
    (h3 : ∀ x ∈ s'.demux, x = 0 ∨ x = 0x11 ∨ x = 0x14 ∨
      ∃ sid, Listed o (l ++ [.tab t]) sid x ∧ HasAudioVideo (l ++ [.tab t]) sid) :
    Run o s' (l ++ [.tab t]) := by
  have hpm := pmts_same (o := o) (l := l) h hp
  refine ⟨?_, ?_, ?_, by rw [e3]; exact hr.nodup, ?_, h1, ?_, h2, h3, ?_⟩
  · intro sid pid
    rw [e1, listed_none h]; exact hr.pids sid pid
  · rw [latestPat_snoc, h, e1]; exact hr.some_listed
  · intro sid
    rw [e2, hr.clocks]
    simp only [clockPid, hpm]
  · intro p
    rw [e3, hr.isClock]
    simp only [IsClock, hpm]
  · intro pid v
    rw [e4, captured_tab h]; exact hr.captured pid v
  · intro pid x hx
    rw [sincePat_snoc, h] at hx
    simp only [List.filterMap_append, List.filterMap_cons, hp, List.filterMap_nil, List.append_nil] at hx
    rcases hr.source pid x hx with k | k | k | ⟨sid, k1, k2⟩
    · exact .inl k
    · exact .inr (.inl k)
    · exact .inr (.inr (.inl k))
    · exact .inr (.inr (.inr ⟨sid, (listed_none h).2 k1, hasAV_mono h k2⟩))

/-- The watched PIDs stay explained. -/
theorem watch_mono {o : Opt} {s : St} {l : List Ev} {e : Ev} (hr : Run o s l) (h : patOf e = none) :
    ∀ x ∈ s.demux, x = 0 ∨ x = 0x11 ∨ x = 0x14 ∨
      ∃ sid, Listed o (l ++ [e]) sid x ∧ HasAudioVideo (l ++ [e]) sid := by
  intro x hx
  rcases hr.watch x hx with k | k | k | ⟨sid, k1, k2⟩
  · exact .inl k
  · exact .inr (.inl k)
  · exact .inr (.inr (.inl k))
  · exact .inr (.inr (.inr ⟨sid, (listed_none h).2 k1, hasAV_mono h k2⟩))

/-- A table that is ignored. -/
theorem tabs_ignore {o : Opt} {s : St} {l : List Ev} {t : Table} (ht : Tabs o s l)
    (h1 : patOf (.tab t) = none) (h2 : sdtOf (.tab t) = none) (h3 : totOf (.tab t) = none)
    (h4 : pmtOf (.tab t) = none) : Tabs o s (l ++ [.tab t]) := by
  refine ⟨by rw [lastTot_snoc h3]; exact ht.time, ht.out, ht.demux, fun sid pid => by rw [listed_none h1]; exact ht.pids sid pid, fun hd => ?_,
    fun hd => notAll_tab h1 (ht.notAll hd), by rw [nothing_none h1]; exact ht.doneIff, ht.empty⟩
  have hr := ht.running hd
  refine run_tab hr h1 h4 rfl rfl rfl rfl ?_ ?_ (watch_mono hr h1)
  · rw [sinceChange_none h1, lastTot_snoc h3]; exact hr.started
  · rw [sinceChange_none h1, List.filterMap_append]
    simp only [List.filterMap_cons, h2, List.filterMap_nil, List.append_nil]
    exact hr.ids

/-- A TOT. -/
theorem tabs_tot {o : Opt} {s : St} {l : List Ev} {t : Table} {x : Int} (ht : Tabs o s l)
    (h : totOf (.tab t) = some x) (h1 : patOf (.tab t) = none) (h2 : sdtOf (.tab t) = none)
    (h4 : pmtOf (.tab t) = none) :
    Tabs o { s with time := x, started := true } (l ++ [.tab t]) := by
  refine ⟨?_, ht.out, ht.demux, fun sid pid => by rw [listed_none h1]; exact ht.pids sid pid, fun hd => ?_,
    fun hd => notAll_tab h1 (ht.notAll hd), by rw [nothing_none h1]; exact ht.doneIff, ht.empty⟩
  · simp [List.filterMap_append, h]
  have hr := ht.running hd
  refine run_tab hr h1 h4 rfl rfl rfl rfl ?_ ?_ (fun x hx => watch_mono hr h1 x hx)
  · rw [sinceChange_none h1, List.filterMap_append]
    simp [h]
  · rw [sinceChange_none h1, List.filterMap_append]
    simp only [List.filterMap_cons, h2, List.filterMap_nil, List.append_nil]
    exact hr.ids

/-- An SDT. -/
theorem tabs_sdt {o : Opt} {s : St} {l : List Ev} {t : Table} {x : Sdt} (ht : Tabs o s l)
    (h : sdtOf (.tab t) = some x) (h1 : patOf (.tab t) = none) (h3 : totOf (.tab t) = none)
    (h4 : pmtOf (.tab t) = none) :
    Tabs o (countPmts x s.pmtPids.entries { s with nid := x.onetwId, tsid := x.tsId }) (l ++ [.tab t]) := by
  rw [countPmts_eq]
  refine ⟨by rw [lastTot_snoc h3]; exact ht.time, ht.out, ?_, fun sid pid => by rw [listed_none h1]; exact ht.pids sid pid, fun hd => ?_,
    fun hd => notAll_tab h1 (ht.notAll hd), by rw [nothing_none h1]; exact ht.doneIff, ht.empty⟩
  · intro p hp
    rcases mem_adds.1 hp with hp | ⟨sid, hp⟩
    · exact ht.demux p hp
    · exact .inr (.inr (.inr ⟨sid, (OMap.find?_iff _ _ _).2 (List.mem_filter.1 hp).1⟩))
  have hr := ht.running hd
  refine run_tab hr h1 h4 rfl rfl rfl rfl ?_ ?_ ?_
  · rw [sinceChange_none h1, lastTot_snoc h3]; exact hr.started
  · rw [sinceChange_none h1, List.filterMap_append]
    simp [h]
  · intro p hp
    rcases mem_adds.1 hp with hp | ⟨sid, hp⟩
    · exact watch_mono hr h1 p hp
    · obtain ⟨m1, m2⟩ := List.mem_filter.1 hp
      refine .inr (.inr (.inr ⟨sid, (listed_none h1).2 ((hr.pids _ _).1 ((OMap.find?_iff _ _ _).2 m1)), x, ?_,
        av_iff.1 m2⟩))
      unfold sdts
      rw [sincePat_snoc, h1]
      simp [List.filterMap_append, h]

/-- What `HandlePmt` does with a PMT that is accepted. -/
def accept (s : St) (x : Pmt) : St :=
  let s := { s with pcrPidMap := s.pcrPidMap.set x.serviceId x.pcrPid }
  let s :=
    if x.pcrPid != pidNull && !s.pcrPids.contains x.pcrPid then { s with pcrPids := x.pcrPid :: s.pcrPids }
    else s
  if s.pcrPidMap.size == s.pmtCount then { s with demux := s.demux.add pidTot } else s

theorem accept_fields (s : St) (x : Pmt) :
    (accept s x).pmtPids = s.pmtPids ∧ (accept s x).pcrMap = s.pcrMap ∧
    (accept s x).pcrPidMap = s.pcrPidMap.set x.serviceId x.pcrPid ∧
    (accept s x).pcrPids =
      (if x.pcrPid ≠ 0x1FFF ∧ x.pcrPid ∉ s.pcrPids then x.pcrPid :: s.pcrPids else s.pcrPids) ∧
    (accept s x).started = s.started ∧ (accept s x).nid = s.nid ∧ (accept s x).tsid = s.tsid ∧
    (accept s x).time = s.time ∧ (accept s x).done = s.done ∧ (accept s x).out = s.out ∧
    (accept s x).pmtCount = s.pmtCount ∧
    ∀ p, p ∈ (accept s x).demux ↔ p ∈ s.demux ∨
      p = 0x14 ∧ (s.pcrPidMap.set x.serviceId x.pcrPid).size = s.pmtCount := by
  unfold accept
  by_cases h1 : x.pcrPid ≠ 0x1FFF ∧ x.pcrPid ∉ s.pcrPids
  · have e : (x.pcrPid != pidNull && !s.pcrPids.contains x.pcrPid) = true := by
      simp [pidNull, h1]
    simp only [e, if_true, if_pos h1]
    by_cases h2 : (s.pcrPidMap.set x.serviceId x.pcrPid).size = s.pmtCount
    · simp [h2, PidSet.add, pidTot]
      intro p; exact or_comm
    · simp [h2]
  · have e : (x.pcrPid != pidNull && !s.pcrPids.contains x.pcrPid) = false := by
      simp [pidNull]; simpa using h1
    simp only [e, if_false, if_neg h1, Bool.false_eq_true]
    by_cases h2 : (s.pcrPidMap.set x.serviceId x.pcrPid).size = s.pmtCount
    · simp [h2, PidSet.add, pidTot]
      intro p; exact or_comm
    · simp [h2]

/-- A PMT of a service that is listed, on its PID. -/
theorem tabs_pmt {o : Opt} {s : St} {l : List Ev} {t : Table} {pid : Nat} {x : Pmt} (ht : Tabs o s l)
    (hw : pid ∈ s.demux)
    (h : pmtOf (.tab t) = some (pid, x)) (h1 : patOf (.tab t) = none) (h2 : sdtOf (.tab t) = none)
    (h3 : totOf (.tab t) = none) :
    (s.pmtPids.find? x.serviceId = some pid → Tabs o (accept s x) (l ++ [.tab t])) ∧
    (s.pmtPids.find? x.serviceId ≠ some pid → Tabs o s (l ++ [.tab t])) := by
  have hsrc : ∀ hr : Run o s l, ∀ p y, (p, y) ∈ (sincePat (l ++ [.tab t])).filterMap pmtOf →
      p = 0 ∨ p = 0x11 ∨ p = 0x14 ∨ ∃ sid, Listed o (l ++ [.tab t]) sid p ∧ HasAudioVideo (l ++ [.tab t]) sid := by
    intro hr p y hy
    rw [sincePat_snoc, h1] at hy
    simp only [List.filterMap_append, List.mem_append, List.filterMap_cons, h, List.filterMap_nil,
      List.mem_singleton, Prod.mk.injEq] at hy
    rcases hy with hy | ⟨rfl, _⟩
    · rcases hr.source p y hy with k | k | k | ⟨sid, k1, k2⟩
      · exact .inl k
      · exact .inr (.inl k)
      · exact .inr (.inr (.inl k))
      · exact .inr (.inr (.inr ⟨sid, (listed_none h1).2 k1, hasAV_mono h1 k2⟩))
    · exact watch_mono hr h1 p hw
  constructor
  · intro hf
    obtain ⟨a1, a2, a3, a4, a5, a6, a7, a8, a9, a10, a11, a12⟩ := accept_fields s x
    refine ⟨by rw [a8, lastTot_snoc h3]; exact ht.time, by rw [a10]; exact ht.out, ?_,
      fun sid pid => by rw [a1, listed_none h1]; exact ht.pids sid pid, fun hd => ?_,
      fun hd => notAll_tab h1 (ht.notAll (a9 ▸ hd)), by rw [a9, nothing_none h1]; exact ht.doneIff,
      by rw [a2, a9]; exact ht.empty⟩
    · intro p hp
      rw [a1]
      rcases (a12 p).1 hp with hp | ⟨rfl, _⟩
      · exact ht.demux p hp
      · exact .inr (.inr (.inl rfl))
    · have hr := ht.running (a9 ▸ hd)
      have hpm : pmts o (l ++ [.tab t]) = pmts o l ++ [x] := by
        rw [pmts_snoc h1, h]
        simp only
        rw [if_pos ((hr.pids _ _).1 hf)]
      refine ⟨?_, ?_, ?_, ?_, ?_, ?_, ?_, ?_, ?_, hsrc hr⟩
      · intro sid p
        rw [a1, listed_none h1]; exact hr.pids sid p
      · rw [latestPat_snoc, h1, a1]; exact hr.some_listed
      · intro sid
        rw [a3, OMap.find?_set, hr.clocks]
        simp only [clockPid, hpm, List.filter_append]
        by_cases hs : sid = x.serviceId
        · simp [hs]
        · simp [hs, Ne.symm hs]
      · rw [a4]
        split
        · next hc => exact List.nodup_cons.2 ⟨hc.2, hr.nodup⟩
        · exact hr.nodup
      · intro p
        have hold := hr.isClock p
        have hx := hr.isClock x.pcrPid
        simp only [IsClock, hpm, List.mem_append, List.mem_singleton] at hold hx ⊢
        rw [a4]
        split
        · next hc =>
          rw [List.mem_cons, hold]
          constructor
          · rintro (rfl | ⟨k1, y, k2, k3⟩)
            · exact ⟨hc.1, x, .inr rfl, rfl⟩
            · exact ⟨k1, y, .inl k2, k3⟩
          · rintro ⟨k1, y, k2 | rfl, k3⟩
            · exact .inr ⟨k1, y, k2, k3⟩
            · exact .inl k3.symm
        · next hc =>
          rw [hold]
          constructor
          · rintro ⟨k1, y, k2, k3⟩
            exact ⟨k1, y, .inl k2, k3⟩
          · rintro ⟨k1, y, k2 | rfl, k3⟩
            · exact ⟨k1, y, k2, k3⟩
            · have : y.pcrPid ∈ s.pcrPids :=
                Classical.byContradiction fun hm => hc ⟨by rw [k3]; exact k1, hm⟩
              rw [← k3]; exact hx.1 this
      · rw [a5, sinceChange_none h1, lastTot_snoc h3]; exact hr.started
      · intro p v
        rw [a2, captured_tab h1]; exact hr.captured p v
      · rw [a6, a7, sinceChange_none h1, List.filterMap_append]
        simp only [List.filterMap_cons, h2, List.filterMap_nil, List.append_nil]
        exact hr.ids
      · intro p hp
        rcases (a12 p).1 hp with hp | ⟨rfl, _⟩
        · exact watch_mono hr h1 p hp
        · exact .inr (.inr (.inl rfl))
  · intro hf
    refine ⟨by rw [lastTot_snoc h3]; exact ht.time, ht.out, ht.demux,
      fun sid pid => by rw [listed_none h1]; exact ht.pids sid pid, fun hd => ?_,
      fun hd => notAll_tab h1 (ht.notAll hd), by rw [nothing_none h1]; exact ht.doneIff, ht.empty⟩
    have hr := ht.running hd
    have hpm : pmts o (l ++ [.tab t]) = pmts o l := by
      rw [pmts_snoc h1, h]
      simp only
      rw [if_neg (fun k => hf ((hr.pids _ _).2 k)), List.append_nil]
    refine ⟨?_, ?_, ?_, hr.nodup, ?_, ?_, ?_, ?_, watch_mono hr h1, hsrc hr⟩
    · intro sid p
      rw [listed_none h1]; exact hr.pids sid p
    · rw [latestPat_snoc, h1]; exact hr.some_listed
    · intro sid
      rw [hr.clocks]
      simp only [clockPid, hpm]
    · intro p
      rw [hr.isClock]
      simp only [IsClock, hpm]
    · rw [sinceChange_none h1, lastTot_snoc h3]; exact hr.started
    · intro p v
      rw [captured_tab h1]; exact hr.captured p v
    · rw [sinceChange_none h1, List.filterMap_append]
      simp only [List.filterMap_cons, h2, List.filterMap_nil, List.append_nil]
      exact hr.ids

/-- What a table does. -/
inductive Effect (o : Opt) (s : St) (t : Table) : St → Prop
  | pat {pat s'} : patOf (.tab t) = some pat → s' = handlePat o s t pat → Effect o s t s'
  | ignore : patOf (.tab t) = none → sdtOf (.tab t) = none → totOf (.tab t) = none →
      pmtOf (.tab t) = none → Effect o s t s
  | sdt {x s'} : sdtOf (.tab t) = some x → patOf (.tab t) = none → totOf (.tab t) = none →
      pmtOf (.tab t) = none →
      s' = countPmts x s.pmtPids.entries { s with nid := x.onetwId, tsid := x.tsId } → Effect o s t s'
  | tot {x s'} : totOf (.tab t) = some x → patOf (.tab t) = none → sdtOf (.tab t) = none →
      pmtOf (.tab t) = none → s' = { s with time := x, started := true } → Effect o s t s'
  | pmt {x s'} : pmtOf (.tab t) = some (t.sourcePid, x) → patOf (.tab t) = none → sdtOf (.tab t) = none →
      totOf (.tab t) = none →
      (s.pmtPids.find? x.serviceId = some t.sourcePid ∧ s' = accept s x ∨
        s.pmtPids.find? x.serviceId ≠ some t.sourcePid ∧ s' = s) → Effect o s t s'

theorem effect_of {o : Opt} {s : St} {t : Table} : ∃ s', handleTable o s t = .ok s' ∧ Effect o s t s' := by
  have npat : (∀ p, t.body ≠ .pat p) → patOf (.tab t) = none := fun hb =>
    none_of_not fun x hx => by obtain ⟨_, e, _, _, h2, _⟩ := patOf_some.1 hx; cases e; exact hb _ h2
  have nsdt : (∀ p, t.body ≠ .sdt p) → sdtOf (.tab t) = none := fun hb =>
    none_of_not fun x hx => by obtain ⟨_, e, _, h2⟩ := sdtOf_some.1 hx; cases e; exact hb _ h2
  have ntot : (∀ p, t.body ≠ .tot p) → totOf (.tab t) = none := fun hb =>
    none_of_not fun x hx => by obtain ⟨_, e, _, h2⟩ := totOf_some.1 hx; cases e; exact hb _ h2
  have npmt : (∀ p, t.body ≠ .pmt p) → pmtOf (.tab t) = none := fun hb =>
    none_of_not fun x hx => by obtain ⟨_, e, _, _, h2⟩ := pmtOf_some.1 hx; cases e; exact hb _ h2
  have ninv : t.valid = false → patOf (.tab t) = none ∧ sdtOf (.tab t) = none ∧ totOf (.tab t) = none ∧
      pmtOf (.tab t) = none := fun hb =>
    ⟨none_of_not fun x hx => by obtain ⟨_, e, _, h2, _⟩ := patOf_some.1 hx; cases e; simp [hb] at h2,
     none_of_not fun x hx => by obtain ⟨_, e, h2, _⟩ := sdtOf_some.1 hx; cases e; simp [hb] at h2,
     none_of_not fun x hx => by obtain ⟨_, e, h2, _⟩ := totOf_some.1 hx; cases e; simp [hb] at h2,
     none_of_not fun x hx => by obtain ⟨_, e, _, h2, _⟩ := pmtOf_some.1 hx; cases e; simp [hb] at h2⟩
  cases hv : t.valid with
  | false =>
    obtain ⟨n1, n2, n3, n4⟩ := ninv hv
    refine ⟨s, ?_, .ignore n1 n2 n3 n4⟩
    unfold handleTable
    split <;> simp [handlePat, handlePmt, handleSdt, handleTot, hv]
  | true =>
    unfold handleTable
    split
    · next pat hb =>
      by_cases hu : t.sourcePid = 0 ∧ pat.tsId ≠ 0
      · exact ⟨_, rfl, .pat (patOf_some.2 ⟨t, rfl, hu.1, hv, hb, hu.2⟩) rfl⟩
      · refine ⟨s, ?_, .ignore ?_ (nsdt (by simp [hb])) (ntot (by simp [hb])) (npmt (by simp [hb]))⟩
        · unfold handlePat
          by_cases h0 : t.sourcePid = 0
          · have : pat.tsId = 0 := Classical.byContradiction fun k => hu ⟨h0, k⟩
            simp [hv, this]
          · simp [pidPat, h0]
        · exact none_of_not fun x hx => by
            obtain ⟨_, e, k1, _, k2, k3⟩ := patOf_some.1 hx
            cases e; rw [hb] at k2; cases k2; exact hu ⟨k1, k3⟩
    · next pmt hb =>
      refine ⟨_, rfl, .pmt (pmtOf_some.2 ⟨t, rfl, rfl, hv, hb⟩) (npat (by simp [hb])) (nsdt (by simp [hb]))
        (ntot (by simp [hb])) ?_⟩
      unfold handlePmt
      rw [if_neg (by simp [hv])]
      cases hf : s.pmtPids.find? pmt.serviceId with
      | none => exact .inr ⟨by simp, rfl⟩
      | some pid =>
        simp only
        by_cases hp : pid = t.sourcePid
        · rw [if_neg (by simp [hp])]
          exact .inl ⟨by rw [hp], rfl⟩
        · rw [if_pos (by simp [hp])]
          exact .inr ⟨by simp [hp], rfl⟩
    · next sdt hb =>
      refine ⟨_, rfl, .sdt (sdtOf_some.2 ⟨t, rfl, hv, hb⟩) (npat (by simp [hb])) (ntot (by simp [hb]))
        (npmt (by simp [hb])) ?_⟩
      unfold handleSdt
      rw [if_neg (by simp [hv])]
    · next x hb =>
      refine ⟨_, rfl, .tot (totOf_some.2 ⟨t, rfl, hv, hb⟩) (npat (by simp [hb])) (nsdt (by simp [hb]))
        (npmt (by simp [hb])) ?_⟩
      unfold handleTot
      rw [if_neg (by simp [hv])]
    · next b1 b2 b3 b4 =>
      exact ⟨s, rfl, .ignore (npat b1) (nsdt b3) (ntot b4) (npmt b2)⟩

theorem tabs_table {o : Opt} {s s' : St} {l : List Ev} {t : Table} (ht : Tabs o s l)
    (hw : t.sourcePid ∈ s.demux) (h : handleTable o s t = .ok s') : Tabs o s' (l ++ [.tab t]) := by
  obtain ⟨s1, h1, h2⟩ := effect_of (o := o) (s := s) (t := t)
  rw [h] at h1
  cases h1
  cases h2 with
  | pat he _ =>
    obtain ⟨s2, k1, k2⟩ := tabs_pat ht he
    rw [h] at k1; cases k1
    exact k2
  | ignore k1 k2 k3 k4 => exact tabs_ignore ht k1 k2 k3 k4
  | sdt k1 k2 k3 k4 k5 => subst k5; exact tabs_sdt ht k1 k2 k3 k4
  | tot k1 k2 k3 k4 k5 => subst k5; exact tabs_tot ht k1 k2 k3 k4
  | pmt k1 k2 k3 k4 k5 =>
    obtain ⟨m1, m2⟩ := tabs_pmt ht hw k1 k2 k3 k4
    rcases k5 with ⟨k5, rfl⟩ | ⟨k5, rfl⟩
    · exact m1 k5
    · exact m2 k5

theorem tabs_feed {o : Opt} {s s' : St} {l : List Ev} {pid : Nat} {ts out : List Table} (ht : Tabs o s l)
    (h : feedDemux St.demux (handleTable o) pid ts s = .ok (s', out)) : Tabs o s' (l ++ out.map .tab) := by
  have := feedDemux_inv (pid := pid) (watched := St.demux) (handle := handleTable o)
    (fun s rs => Tabs o s (l ++ rs.map .tab)) (by
      intro s t s' rs hI h1 h2 h3
      have := tabs_table hI (by rw [h1]; exact h2) h3
      simpa using this) ts s s' out [] (by simpa using ht) h
  simpa using this

/-! ### Packets -/

theorem isClock_pkt {o : Opt} {l : List Ev} {p : Packet} {pid : Nat} :
    IsClock o (l ++ [.pkt p]) pid ↔ IsClock o l pid := by
  simp only [IsClock, pmts_same (o := o) (l := l) (patOf_pkt p) (pmtOf_pkt p)]

/-- A packet, given what happens to the PCRs. -/
theorem run_pkt {o : Opt} {s s' : St} {l : List Ev} {p : Packet} (hr : Run o s l)
    (e1 : s'.pmtPids = s.pmtPids) (e2 : s'.pcrPidMap = s.pcrPidMap) (e3 : s'.pcrPids = s.pcrPids)
    (e4 : s'.started = s.started) (e5 : s'.nid = s.nid) (e6 : s'.tsid = s.tsid) (e7 : s'.demux = s.demux)
    (h1 : ∀ pid v, s'.pcrMap.find? pid = some v ↔ Captured o (l ++ [.pkt p]) pid v) :
    Run o s' (l ++ [.pkt p]) := by
  have h := patOf_pkt p
  have hpm := pmts_same (o := o) (l := l) h (pmtOf_pkt p)
  refine ⟨?_, ?_, ?_, by rw [e3]; exact hr.nodup, ?_, ?_, h1, ?_, by rw [e7]; exact watch_mono hr h, ?_⟩
  · intro sid pid
    rw [e1, listed_none h]; exact hr.pids sid pid
  · rw [latestPat_snoc, h, e1]; exact hr.some_listed
  · intro sid
    rw [e2, hr.clocks]
    simp only [clockPid, hpm]
  · intro p
    rw [e3, hr.isClock]
    simp only [IsClock, hpm]
  · rw [e4, sinceChange_none h, lastTot_snoc (totOf_pkt p)]; exact hr.started
  · rw [e5, e6, sinceChange_none h, List.filterMap_append]
    simp only [List.filterMap_cons, sdtOf_pkt, List.filterMap_nil, List.append_nil]
    exact hr.ids
  · intro pid x hx
    rw [sincePat_snoc, h] at hx
    simp only [List.filterMap_append, List.filterMap_cons, pmtOf_pkt, List.filterMap_nil, List.append_nil] at hx
    rcases hr.source pid x hx with k | k | k | ⟨sid, k1, k2⟩
    · exact .inl k
    · exact .inr (.inl k)
    · exact .inr (.inr (.inl k))
    · exact .inr (.inr (.inr ⟨sid, (listed_none h).2 k1, hasAV_mono h k2⟩))

theorem looked_iff {o : Opt} {s : St} {l : List Ev} (hr : Run o s l) (pid : Nat) :
    Looked o l pid ↔ s.started = true ∧ pid ∈ s.pcrPids := by
  unfold Looked
  rw [hr.isClock, hr.started]
  exact And.comm

/-- A packet whose PCR, if it has one, is not captured. -/
theorem tabs_skip {o : Opt} {s : St} {l : List Ev} {p : Packet} (ht : Tabs o s l) (hd : s.done = false)
    (h : p.pcr = none ∨ ¬ Looked o l p.pid ∨ ∃ v, Captured o l p.pid v) : Tabs o s (l ++ [.pkt p]) := by
  have hr := ht.running hd
  have hc : ∀ pid v, Captured o (l ++ [.pkt p]) pid v ↔ Captured o l pid v := by
    intro pid v
    rw [captured_pkt]
    constructor
    · rintro (k | ⟨rfl, k1, k2, k3⟩)
      · exact k
      · rcases h with h | h | ⟨w, h⟩
        · rw [h] at k1; cases k1
        · exact absurd k2 h
        · exact absurd h (k3 w)
    · exact .inl
  refine ⟨by rw [lastTot_snoc (totOf_pkt p)]; exact ht.time, ht.out, ht.demux,
    fun sid pid => by rw [listed_none (patOf_pkt p)]; exact ht.pids sid pid, fun _ => ?_, fun _ => ?_,
    by rw [nothing_none (patOf_pkt p)]; exact ht.doneIff, ht.empty⟩
  · exact run_pkt hr rfl rfl rfl rfl rfl rfl rfl fun pid v => by rw [hc]; exact hr.captured pid v
  · rintro ⟨⟨pid, h1⟩, h2⟩
    refine ht.notAll hd ⟨⟨pid, isClock_pkt.1 h1⟩, fun q hq => ?_⟩
    obtain ⟨v, hv⟩ := h2 q (isClock_pkt.2 hq)
    exact ⟨v, (hc q v).1 hv⟩

/-- What the state means when the command is done. -/
structure Finished (o : Opt) (s : St) (l : List Ev) : Prop where
  time : s.time = (l.filterMap totOf).getLast?.getD 0
  out : s.out = none
  cases_ : NothingSelected o l ∧ s.pcrMap.entries = [] ∨
    ¬ NothingSelected o l ∧ AllCaptured o l ∧ Run o s l

theorem step_spec {o : Opt} {s s' : St} {l : List Ev} {i : Input} {out : List Table} {more : Bool}
    (ht : Tabs o s l) (hd : s.done = false) (h : step o s i = .ok (s', out, more)) :
    (more = true → s'.done = false ∧ Tabs o s' (l ++ (out.map .tab ++ [.pkt i.packet]))) ∧
    (more = false → s'.done = true ∧ Finished o s' (l ++ (out.map .tab ++ [.pkt i.packet]))) := by
  unfold step at h
  simp only at h
  split at h
  · next hn =>
    cases h
    refine ⟨fun _ => ⟨hd, ?_⟩, by simp⟩
    refine tabs_skip ht hd (.inr (.inl fun hl => ?_))
    exact hl.1.1 (by simpa [pidNull] using hn)
  · obtain ⟨⟨s1, log1⟩, h1, h2⟩ := bind_eq_ok h
    clear h
    have ht1 := tabs_feed ht h1
    simp only at h2
    rw [← List.append_assoc]
    split at h2
    · next hd1 =>
      cases h2
      refine ⟨by simp, fun _ => ⟨hd1, ?_⟩⟩
      exact ⟨by rw [lastTot_snoc (totOf_pkt _)]; exact ht1.time, ht1.out,
        .inl ⟨(nothing_none (patOf_pkt _)).2 (ht1.doneIff.1 hd1), ht1.empty hd1⟩⟩
    · next hd1 =>
      have hd1 : s1.done = false := by simpa using hd1
      have hr := ht1.running hd1
      have hnot : ¬ NothingSelected o (l ++ log1.map .tab ++ [.pkt i.packet]) := by
        rw [nothing_none (patOf_pkt _), ← ht1.doneIff, hd1]
        simp
      split at h2
      · next hc =>
        simp only [Bool.and_eq_true, List.contains_iff_mem, Option.isNone_iff_eq_none] at hc
        obtain ⟨⟨hc1, hc2⟩, hc3⟩ := hc
        split at h2
        · next hp =>
          cases h2
          exact ⟨fun _ => ⟨hd1, tabs_skip ht1 hd1 (.inl hp)⟩, by simp⟩
        · next pcr hp =>
          obtain ⟨_, _, h3⟩ := bind_eq_ok h2
          clear h2
          have hl : Looked o (l ++ log1.map .tab) i.packet.pid := (looked_iff hr _).2 ⟨hc1, hc2⟩
          have hno : ∀ w, ¬ Captured o (l ++ log1.map .tab) i.packet.pid w := by
            intro w hw
            rw [(hr.captured _ w).2 hw] at hc3
            cases hc3
          have hcap : ∀ pid v, (s1.pcrMap.set i.packet.pid pcr).find? pid = some v ↔
              Captured o (l ++ log1.map .tab ++ [.pkt i.packet]) pid v := by
            intro pid v
            rw [captured_pkt, OMap.find?_set]
            split
            · next e =>
              subst e
              constructor
              · intro e; cases e; exact .inr ⟨rfl, hp, hl, hno⟩
              · rintro (k | ⟨_, k, _⟩)
                · exact absurd k (hno v)
                · rw [hp] at k; exact k
            · next e =>
              rw [hr.captured]
              constructor
              · exact .inl
              · rintro (k | ⟨k, _⟩)
                · exact k
                · exact absurd k.symm e
          have hsub : (s1.pcrMap.set i.packet.pid pcr).keys ⊆ s1.pcrPids := by
            intro k hk
            obtain ⟨v, hv⟩ := (OMap.mem_keys _ _).1 hk
            exact (hr.isClock k).2 (isClock_pkt.1 (captured_isClock ((hcap k v).1 hv)))
          have hall : (s1.pcrMap.set i.packet.pid pcr).size = s1.pcrPids.length ↔
              AllCaptured o (l ++ log1.map .tab ++ [.pkt i.packet]) := by
            rw [OMap.size_eq, length_eq_iff (OMap.keys_nodup _) hr.nodup hsub]
            constructor
            · intro k
              refine ⟨⟨_, isClock_pkt.2 hl.1⟩, fun q hq => ?_⟩
              obtain ⟨v, hv⟩ := (OMap.mem_keys _ _).1 (k ((hr.isClock q).2 (isClock_pkt.1 hq)))
              exact ⟨v, (hcap q v).1 hv⟩
            · rintro ⟨_, k⟩ q hq
              obtain ⟨v, hv⟩ := k q (isClock_pkt.2 ((hr.isClock q).1 hq))
              exact (OMap.mem_keys _ _).2 ⟨v, (hcap q v).2 hv⟩
          split at h3
          · next hz =>
            cases h3
            refine ⟨by simp, fun _ => ⟨rfl, ?_, ht1.out, .inr ⟨hnot, hall.1 (by simpa using hz), ?_⟩⟩⟩
            · rw [lastTot_snoc (totOf_pkt _)]; exact ht1.time
            · exact run_pkt hr rfl rfl rfl rfl rfl rfl rfl hcap
          · next hz =>
            cases h3
            refine ⟨fun _ => ⟨hd1, ?_⟩, by simp⟩
            refine ⟨by rw [lastTot_snoc (totOf_pkt _)]; exact ht1.time, ht1.out, ht1.demux,
              fun sid pid => by rw [listed_none (patOf_pkt _)]; exact ht1.pids sid pid, fun _ => ?_,
              fun _ k => hz (by simpa using hall.2 k), ?_, fun k => by simp [hd1] at k⟩
            rotate_left
            · exact ⟨fun k => by simp [hd1] at k, fun k => absurd k hnot⟩
            exact run_pkt hr rfl rfl rfl rfl rfl rfl rfl hcap
      · next hc =>
        cases h2
        refine ⟨fun _ => ⟨hd1, tabs_skip ht1 hd1 ?_⟩, by simp⟩
        by_cases hl : Looked o (l ++ out.map .tab) i.packet.pid
        · obtain ⟨k1, k2⟩ := (looked_iff hr _).1 hl
          cases hf : s'.pcrMap.find? i.packet.pid with
          | none => simp [k1, k2, hf] at hc
          | some v => exact .inr (.inr ⟨v, (hr.captured _ v).1 hf⟩)
        · exact .inr (.inl hl)

theorem log_snoc (items : List (Line Input (List Table))) (it : Line Input (List Table)) :
    log (items ++ [it]) = log items ++ (it.did.map .tab ++ [.pkt it.input.packet]) := by
  simp [log]

theorem log_append (a b : List (Line Input (List Table))) : log (a ++ b) = log a ++ log b := by
  simp [log]

theorem reach_spec {o : Opt} {items : List (Line Input (List Table))} {s : St}
    (h : Reach (step o) {} items s) :
    ((∀ x ∈ items, x.more = true) → s.done = false ∧ Tabs o s (log items)) ∧
    ((∃ x, items.getLast? = some x ∧ x.more = false) → s.done = true ∧ Finished o s (log items)) := by
  induction h with
  | nil => exact ⟨fun _ => ⟨rfl, tabs_init o⟩, by simp⟩
  | @snoc items s i s' a more h1 h2 h3 ih =>
    obtain ⟨hd, ht⟩ := ih.1 h2
    obtain ⟨k1, k2⟩ := step_spec ht hd h3
    rw [log_snoc]
    constructor
    · intro hm
      exact k1 (hm ⟨i, a, more⟩ (by simp))
    · rintro ⟨x, hx, hm⟩
      simp at hx
      subst hx
      exact k2 hm

/-- A whole run. -/
theorem synced {o : Opt} {is : List Input} {code : Nat} {h : Hist} (hr : Synced o is code h) :
    ∃ s, Reach (step o) {} h.items s ∧ h.items.map (·.input) <+: is ∧
      ((code = 1 ∧ h.st.out = none ∧ h.items.map (·.input) = is ∧ (∀ x ∈ h.items, x.more = true) ∧
          Tabs o s (log h.items) ∧ s.done = false) ∨
        (code = 0 ∧ h.st.out = some (clocks s) ∧ (∃ x, h.items.getLast? = some x ∧ x.more = false) ∧
          Finished o s (log h.items))) := by
  obtain ⟨s, h1, h2, h3, h4, h5⟩ := Ran.reach hr
  refine ⟨s, h1, h4, ?_⟩
  obtain ⟨k1, k2⟩ := reach_spec h1
  unfold finish at h2
  unfold exitCode at h3
  rcases h5 with ⟨h5, h6⟩ | h5
  · obtain ⟨m1, m2⟩ := k1 h6
    rw [if_pos (by simp [m1])] at h2
    simp only [Except.ok.injEq] at h2
    refine .inl ⟨?_, by rw [← h2]; exact m2.out, h5, h6, m2, m1⟩
    rw [h3, ← h2, if_pos (by simp [m1])]; rfl
  · obtain ⟨m1, m2⟩ := k2 h5
    rw [if_neg (by simp [m1])] at h2
    simp only [Except.ok.injEq] at h2
    refine .inr ⟨?_, by rw [← h2], h5, m2⟩
    rw [h3, ← h2, if_neg (by simp [m1])]; rfl

end Mirakc.PcrSynchronizer
