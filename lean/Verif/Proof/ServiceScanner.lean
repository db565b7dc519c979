import Verif.Spec.ServiceScanner
import Verif.Proof.History
import Verif.Proof.OMap
import Verif.Proof.Received
/-
The state of scan-services as a function of the tables received.
-/
set_option linter.unusedSimpArgs false
namespace Mirakc

namespace ServiceScanner
open Mirakc.Spec Mirakc.Spec.ServiceScanner

theorem patOf_some {t : Table} {p : Pat} : patOf t = some p ↔
    t.sourcePid = 0 ∧ t.valid = true ∧ t.body = .pat p ∧ p.tsId ≠ 0 := by
  obtain ⟨a, b, c, d⟩ := t
  constructor
  · intro h
    unfold patOf at h
    split at h
    · next e =>
      cases e
      split at h
      · cases h
      · cases h
        next h0 => exact ⟨rfl, rfl, rfl, h0⟩
    · cases h
  · rintro ⟨h1, h2, h3, h4⟩
    simp only at h1 h2 h3
    subst h1 h2 h3
    simp [patOf, h4]

theorem sdtOf_some {t : Table} {x : Sdt} : sdtOf t = some x ↔
    t.valid = true ∧ t.body = .sdt x ∧ x.tsId ≠ 0 := by
  obtain ⟨a, b, c, d⟩ := t
  constructor
  · intro h
    unfold sdtOf at h
    split at h
    · next e =>
      cases e
      split at h
      · cases h
      · cases h
        next h0 => exact ⟨rfl, rfl, h0⟩
    · cases h
  · rintro ⟨h2, h3, h4⟩
    simp only at h2 h3
    subst h2 h3
    simp [sdtOf, h4]

theorem nitOf_some {t : Table} {x : Nit} : nitOf t = some x ↔ t.valid = true ∧ t.body = .nit x := by
  obtain ⟨a, b, c, d⟩ := t
  constructor
  · intro h
    unfold nitOf at h
    split at h
    · next e => cases e; cases h; exact ⟨rfl, rfl⟩
    · cases h
  · rintro ⟨h2, h3⟩
    simp only at h2 h3
    subst h2 h3
    rfl

theorem none_of_not {α : Type} {x : Option α} (h : ∀ a, x ≠ some a) : x = none := by
  cases x with
  | none => rfl
  | some a => exact absurd rfl (h a)

theorem lookedAfter_snoc (l : List Table) (t : Table) : ∀ b,
    lookedAfter b (l ++ [t]) = lookedAfter b l ++ if Watched (b ++ l) t.sourcePid then [t] else [] := by
  induction l with
  | nil => intro b; simp [lookedAfter]
  | cons u l ih => intro b; simp [lookedAfter, ih, List.append_assoc]

theorem looked_snoc (l : List Table) (t : Table) :
    looked (l ++ [t]) = looked l ++ if Watched l t.sourcePid then [t] else [] := by
  unfold looked; rw [lookedAfter_snoc]; rfl

theorem moves_snoc (l : List Table) (t : Table) : moves (l ++ [t]) = moves l ++ moves [t] := by
  simp [moves, List.filterMap_append, List.filter_append]

theorem moves_none {t : Table} (h : patOf t = none) : moves [t] = [] := by simp [moves, h]

theorem moves_pat {t : Table} {p : Pat} (h : patOf t = some p) :
    moves [t] = if MovesNit p then [p] else [] := by
  simp only [moves, List.filterMap_cons, List.filterMap_nil, h, List.filter_cons, List.filter_nil]
  by_cases hm : MovesNit p <;> simp [hm]

theorem sinceMove_snoc (l : List Table) (t : Table) :
    sinceMove (l ++ [t]) = if moves [t] = [] then sinceMove l ++ [t] else [] := by
  unfold sinceMove
  rw [List.reverse_append]
  by_cases h : moves [t] = []
  · simp [h]
  · simp [h]

theorem latestPat_snoc (l : List Table) (t : Table) :
    latestPat (l ++ [t]) = match patOf t with | some p => some p | none => latestPat l := by
  unfold latestPat
  rw [List.filterMap_append]
  cases h : patOf t <;> simp [h]

theorem watched_snoc {l : List Table} {t : Table} (h : moves [t] = []) {pid : Nat} :
    Watched (l ++ [t]) pid ↔ Watched l pid := by
  unfold Watched
  rw [moves_snoc, h, List.append_nil]

theorem latestSdt_snoc (l : List Table) (t : Table) :
    latestSdt (l ++ [t]) = if Watched l t.sourcePid then
      (match sdtOf t with | some x => some x | none => latestSdt l) else latestSdt l := by
  unfold latestSdt
  rw [looked_snoc]
  split
  · rw [List.filterMap_append]
    cases h : sdtOf t <;> simp [h]
  · simp

theorem latestNit_snoc (l : List Table) (t : Table) (h : moves [t] = []) :
    latestNit (l ++ [t]) = if Watched l t.sourcePid then
      (match nitOf t with | some x => some x | none => latestNit l) else latestNit l := by
  unfold latestNit
  rw [looked_snoc]
  split
  · rw [sinceMove_snoc, if_pos h, List.filterMap_append]
    cases h : nitOf t <;> simp [h]
  · simp

theorem latestNit_move (l : List Table) (t : Table) (h : moves [t] ≠ []) (hw : Watched l t.sourcePid) :
    latestNit (l ++ [t]) = none := by
  unfold latestNit
  rw [looked_snoc, if_pos hw, sinceMove_snoc, if_neg h]
  rfl

/-- What the state means. -/
structure Inv (s : St) (l : List Table) : Prop where
  pat : s.pat = latestPat l
  sdt : s.sdt = latestSdt l
  nit : s.nit = latestNit l
  demux : ∀ pid, pid ∈ s.demux ↔ Watched l pid
  out : s.out = none

theorem inv_init : Inv {} [] := by
  refine ⟨rfl, rfl, rfl, fun pid => ?_, rfl⟩
  simp [Watched, moves, pidPat, pidNit, pidSdt]
  grind

/-- Nothing changes. -/
theorem inv_same {s : St} {l : List Table} {t : Table} (hi : Inv s l) (hp : patOf t = none)
    (h : Watched l t.sourcePid → sdtOf t = none ∧ nitOf t = none) : Inv s (l ++ [t]) := by
  have hm := moves_none hp
  refine ⟨?_, ?_, ?_, fun pid => ?_, hi.out⟩
  · rw [latestPat_snoc, hp]; exact hi.pat
  · rw [latestSdt_snoc]
    split
    · next hw => rw [(h hw).1]; exact hi.sdt
    · exact hi.sdt
  · rw [latestNit_snoc _ _ hm]
    split
    · next hw => rw [(h hw).2]; exact hi.nit
    · exact hi.nit
  · rw [watched_snoc hm]; exact hi.demux pid

theorem handlePat_inv {s : St} {l : List Table} {t : Table} {pat : Pat} (hi : Inv s l)
    (hb : t.body = .pat pat) (hw : Watched l t.sourcePid) : Inv (handlePat s t pat) (l ++ [t]) := by
  have hs : sdtOf t = none := none_of_not fun x hx => by
    have := (sdtOf_some.1 hx).2.1; rw [hb] at this; cases this
  have hn : nitOf t = none := none_of_not fun x hx => by
    have := (nitOf_some.1 hx).2; rw [hb] at this; cases this
  cases hp : patOf t with
  | none =>
    have : handlePat s t pat = s := by
      unfold handlePat
      split
      · rfl
      · next h1 =>
        split
        · rfl
        · next h2 =>
          split
          · rfl
          · next h3 =>
            have := patOf_some.2 ⟨by simpa [pidPat] using h1, by simpa using h2, hb, by simpa using h3⟩
            rw [this] at hp; cases hp
    rw [this]
    exact inv_same hi hp fun _ => ⟨hs, hn⟩
  | some p =>
    obtain ⟨h1, h2, h3, h4⟩ := patOf_some.1 hp
    rw [hb] at h3
    cases h3
    have hpat : latestPat (l ++ [t]) = some pat := by rw [latestPat_snoc, hp]
    have hsdt : latestSdt (l ++ [t]) = latestSdt l := by rw [latestSdt_snoc, if_pos hw, hs]
    unfold handlePat
    simp only [h1, h2, pidPat, bne_self_eq_false, Bool.false_eq_true, if_false, Bool.not_true, beq_iff_eq, h4]
    by_cases hm : MovesNit pat
    · have hmv : moves [t] = [pat] := by rw [moves_pat hp, if_pos hm]
      rw [if_pos (by simpa [MovesNit, pidNull, pidNit] using hm)]
      refine ⟨hpat.symm, by rw [hsdt]; exact hi.sdt, (latestNit_move _ _ (by rw [hmv]; simp) hw).symm,
        fun pid => ?_, hi.out⟩
      simp only [PidSet.add, PidSet.remove, List.mem_cons, List.mem_filter, hi.demux, bne_iff_ne]
      unfold Watched
      rw [moves_snoc, hmv]
      simp only [pidNit, ne_eq, List.append_eq_nil_iff, List.cons_ne_self, and_false, or_false, false_or,
        List.mem_append, List.mem_singleton, reduceCtorEq]
      have hx := hm.2
      constructor
      · rintro (rfl | ⟨h | h | h | ⟨p, h5, h6⟩, h7⟩)
        · exact .inr (.inr ⟨pat, .inr rfl, rfl⟩)
        · exact .inl h
        · exact .inr (.inl h)
        · exact absurd h.1 h7
        · exact .inr (.inr ⟨p, .inl h5, h6⟩)
      · rintro (h | h | ⟨p, h5 | rfl, h6⟩)
        · exact .inr ⟨.inl h, by omega⟩
        · exact .inr ⟨.inr (.inl h), by omega⟩
        · refine .inr ⟨.inr (.inr (.inr ⟨p, h5, h6⟩)), ?_⟩
          have := (List.mem_filter.1 h5).2
          have hmv' : MovesNit p := of_decide_eq_true this
          exact fun e => hmv'.2 (h6.trans e)
        · exact .inl h6.symm
    · have hmv : moves [t] = [] := by rw [moves_pat hp, if_neg hm]
      rw [if_neg (by simpa [MovesNit, pidNull, pidNit] using hm)]
      refine ⟨hpat.symm, by rw [hsdt]; exact hi.sdt, ?_, fun pid => ?_, hi.out⟩
      · rw [latestNit_snoc _ _ hmv, if_pos hw, hn]; exact hi.nit
      · rw [watched_snoc hmv]; exact hi.demux pid

theorem handleTable_inv {s s' : St} {l : List Table} {t : Table} (hi : Inv s l)
    (hw : t.sourcePid ∈ s.demux) (h : handleTable s t = .ok s') : Inv s' (l ++ [t]) := by
  rw [hi.demux] at hw
  unfold handleTable at h
  split at h
  · next pat hb => cases h; exact handlePat_inv hi hb hw
  · next nit hb =>
    cases h
    have hp : patOf t = none := none_of_not fun x hx => by
      have := (patOf_some.1 hx).2.2.1; rw [hb] at this; cases this
    have hs : sdtOf t = none := none_of_not fun x hx => by
      have := (sdtOf_some.1 hx).2.1; rw [hb] at this; cases this
    unfold handleNit
    by_cases hv : t.valid = true
    · have hn : nitOf t = some nit := nitOf_some.2 ⟨hv, hb⟩
      rw [if_neg (by simp [hv])]
      have hm := moves_none hp
      refine ⟨?_, ?_, ?_, fun pid => ?_, hi.out⟩
      · rw [latestPat_snoc, hp]; exact hi.pat
      · rw [latestSdt_snoc, if_pos hw, hs]; exact hi.sdt
      · rw [latestNit_snoc _ _ hm, if_pos hw, hn]
      · rw [watched_snoc hm]; exact hi.demux pid
    · rw [if_pos (by simpa using hv)]
      exact inv_same hi hp fun _ => ⟨hs, none_of_not fun x hx => hv (nitOf_some.1 hx).1⟩
  · next sdt hb =>
    cases h
    have hp : patOf t = none := none_of_not fun x hx => by
      have := (patOf_some.1 hx).2.2.1; rw [hb] at this; cases this
    have hn : nitOf t = none := none_of_not fun x hx => by
      have := (nitOf_some.1 hx).2; rw [hb] at this; cases this
    cases hs : sdtOf t with
    | none =>
      have : handleSdt s t sdt = s := by
        unfold handleSdt
        split
        · rfl
        · next h1 =>
          split
          · rfl
          · next h2 =>
            have := sdtOf_some.2 ⟨by simpa using h1, hb, by simpa using h2⟩
            rw [this] at hs; cases hs
      rw [this]
      exact inv_same hi hp fun _ => ⟨hs, hn⟩
    | some x =>
      obtain ⟨h1, h2, h3⟩ := sdtOf_some.1 hs
      rw [hb] at h2
      cases h2
      unfold handleSdt
      rw [if_neg (by simp [h1]), if_neg (by simpa using h3)]
      have hm := moves_none hp
      refine ⟨?_, ?_, ?_, fun pid => ?_, hi.out⟩
      · rw [latestPat_snoc, hp]; exact hi.pat
      · rw [latestSdt_snoc, if_pos hw, hs]
      · rw [latestNit_snoc _ _ hm, if_pos hw, hn]; exact hi.nit
      · rw [watched_snoc hm]; exact hi.demux pid
  · next h1 h2 h3 =>
    cases h
    refine inv_same hi (none_of_not fun x hx => h1 x (patOf_some.1 hx).2.2.1) fun _ =>
      ⟨none_of_not fun x hx => h3 x (sdtOf_some.1 hx).2.1, none_of_not fun x hx => h2 x (nitOf_some.1 hx).2⟩

/-- A table that is not listened to changes nothing. -/
theorem skip_inv {s : St} {l : List Table} {t : Table} (hi : Inv s l) (hw : t.sourcePid ∉ s.demux) :
    Inv s (l ++ [t]) := by
  rw [hi.demux] at hw
  refine inv_same hi (none_of_not fun x hx => hw ?_) fun h => absurd h hw
  rw [(patOf_some.1 hx).1]
  exact .inl rfl

theorem completed_iff {s : St} {l : List Table} (hi : Inv s l) : completed s = true ↔ Complete l := by
  unfold completed Complete
  rw [hi.pat, hi.sdt, hi.nit]
  simp [Option.isSome_iff_ne_none, and_assoc]

theorem step_inv {s s' : St} {is : List Input} {i : Input} {more : Bool}
    (hi : Inv s (received is)) (h : step s i = .ok (s', (), more)) :
    Inv s' (received (is ++ [i])) ∧ (more = false ↔ Complete (received (is ++ [i]))) := by
  unfold step at h
  obtain ⟨⟨s1, log⟩, h1, h2⟩ := bind_eq_ok h
  clear h
  have hi1 : Inv s1 (received (is ++ [i])) := by
    rw [received_snoc]
    refine feedDemux_all Inv ?_ ?_ _ _ _ _ _ hi h1
    · intro s t s' rs hi ht hw he
      exact handleTable_inv hi (ht ▸ hw) he
    · intro s t rs hi ht hw
      exact skip_inv hi (ht ▸ hw)
  have hc := completed_iff hi1
  simp only at h2
  split at h2
  · next h => cases h2; exact ⟨hi1, by simp [← hc, h]⟩
  · next h => cases h2; exact ⟨hi1, by simp [← hc, h]⟩

/-- All packets before the last one left the tables incomplete. -/
theorem reach_inv {items : List (Line Input Unit)} {s : St} (h : Reach step {} items s) :
    Inv s (received (items.map (·.input))) ∧
    ∀ a x b, items = a ++ x :: b → (x.more = false ↔ Complete (received ((a ++ [x]).map (·.input)))) := by
  induction h with
  | nil => exact ⟨inv_init, by simp⟩
  | @snoc items s i s' a more h1 h2 h3 ih =>
    obtain ⟨hi, hc⟩ := ih
    obtain ⟨k1, k2⟩ := step_inv hi h3
    refine ⟨by simpa using k1, ?_⟩
    intro a' x b e
    rcases List.eq_nil_or_concat b with rfl | ⟨b', y, rfl⟩
    · obtain ⟨rfl, e2⟩ := List.append_inj' e rfl
      cases e2
      simpa using k2
    · rw [List.concat_eq_append, ← List.cons_append, ← List.append_assoc] at e
      exact hc a' x b' (List.append_inj' e rfl).1

theorem not_complete_nil : ¬ Complete (received []) := by
  simp [Complete, received, latestPat]

/-- A whole run. -/
theorem scanned {o : Opt} {is : List Input} {code : Nat} {h : Hist} (hr : Scanned o is code h) :
    ∃ s, Inv s (received (consumed h)) ∧ consumed h <+: is ∧
      ((code = 1 ∧ h.st.out = none ∧ consumed h = is ∧ ¬ Complete (received is)) ∨
       (code = 0 ∧ h.st.out = some (collectServices o s) ∧ Complete (received (consumed h)) ∧
         ∃ before i, consumed h = before ++ [i] ∧ ¬ Complete (received before))) := by
  obtain ⟨s, h1, h2, h3, h4, h5⟩ := Ran.reach hr
  obtain ⟨hi, hc⟩ := reach_inv h1
  have hcomp := completed_iff hi
  refine ⟨s, hi, h4, ?_⟩
  -- whether the last packet completed the tables
  have key : (∃ x, h.items.getLast? = some x ∧ x.more = false) ∨ ∀ x ∈ h.items, x.more = true := by
    rcases h5 with ⟨_, h⟩ | h
    · exact .inr h
    · exact .inl h
  rcases List.eq_nil_or_concat h.items with hnil | ⟨a, x, e⟩
  · have hn : ¬ Complete (received (h.items.map (·.input))) := by rw [hnil]; exact not_complete_nil
    rcases h5 with ⟨h5, _⟩ | ⟨x, hx, _⟩
    · have hnc : completed s = false := by
        cases hcs : completed s with
        | false => rfl
        | true => exact absurd (hcomp.1 hcs) hn
      unfold finish at h2
      simp only [hnc, Bool.not_false, if_true] at h2
      cases h2
      refine .inl ⟨?_, hi.out, h5, h5 ▸ hn⟩
      rw [h3]; simp [exitCode, hnc, exitFailure]
    · rw [hnil] at hx; simp at hx
  · rw [List.concat_eq_append] at e
    have hx := hc a x [] e
    have hall : ((a ++ [x]).map (·.input)) = consumed h := by rw [← e]; rfl
    rw [hall] at hx
    cases hm : x.more with
    | true =>
      have hn : ¬ Complete (received (consumed h)) := fun k => by
        have := hx.2 k; rw [hm] at this; cases this
      have hnc : completed s = false := by
        cases hcs : completed s with
        | false => rfl
        | true => exact absurd (hcomp.1 hcs) hn
      unfold finish at h2
      simp only [hnc, Bool.not_false, if_true] at h2
      cases h2
      have h5 : consumed h = is := by
        rcases h5 with ⟨h5, _⟩ | ⟨y, hy, hy'⟩
        · exact h5
        · rw [e] at hy
          simp only [List.getLast?_append, List.getLast?_singleton, Option.some_or, Option.some.injEq] at hy
          rw [hy, hy'] at hm; cases hm
      refine .inl ⟨?_, hi.out, h5, h5 ▸ hn⟩
      rw [h3]; simp [exitCode, hnc, exitFailure]
    | false =>
      have hy := hx.1 hm
      have hcs : completed s = true := hcomp.2 hy
      unfold finish at h2
      simp only [hcs, Bool.not_true, Bool.false_eq_true, if_false] at h2
      have h2 := Except.ok.inj h2
      refine .inr ⟨?_, by rw [← h2], hy, a.map (·.input), x.input, by rw [← hall]; simp, ?_⟩
      · rw [h3, ← h2]
        have : completed { s with out := some (collectServices o s) } = completed s := rfl
        simp [exitCode, this, hcs, exitSuccess]
      · rcases List.eq_nil_or_concat a with rfl | ⟨a', z, rfl⟩
        · exact not_complete_nil
        · rw [List.concat_eq_append] at e ⊢
          have hz := hc a' z [x] (by simpa using e)
          intro k
          have := hz.2 k
          obtain ⟨_, _, _, hall2, _⟩ := h1.split (a' ++ [z]) x [] (by simpa using e)
          have := hall2 z (by simp)
          rw [hz.2 k] at this
          cases this

/-! ### The services -/

theorem av_iff {n : Nat} : isAudioVideoService n = true ↔ AudioVideo n := by
  unfold isAudioVideoService AudioVideo
  split <;> simp_all

theorem key_spec (sdt : Sdt) (nit : Nit) : IsKey sdt nit
    (if remoteControlKeyId sdt (some nit) != 0 then some (remoteControlKeyId sdt (some nit)) else none) := by
  intro k
  unfold remoteControlKeyId
  simp only
  cases h : nit.transports.lookup (sdt.tsId, sdt.onetwId) with
  | none => simp
  | some l =>
    cases l with
    | nil => simp
    | cons a l =>
      by_cases ha : a = 0
      · subst ha; simp; omega
      · simp [ha]
        rintro rfl; exact ha

theorem isKey_unique {sdt : Sdt} {nit : Nit} {a b : Option Nat} (ha : IsKey sdt nit a) (hb : IsKey sdt nit b) :
    a = b := by
  cases a with
  | none =>
    cases b with
    | none => rfl
    | some y => have := (ha y).2 ((hb y).1 rfl); cases this
  | some x => exact ((hb x).2 ((ha x).1 rfl)).symm

theorem logo_spec (x : Service) : IsLogo x (logoId x) := by
  unfold IsLogo logoId
  cases x.logo with
  | none => simp
  | some y =>
    obtain ⟨t, n⟩ := y
    constructor
    · rintro m (h | h)
      · cases h; simp
      · cases h; simp
    · intro h
      have h1 : t ≠ 1 := fun e => (h n).1 (by rw [e])
      have h2 : t ≠ 2 := fun e => (h n).2 (by rw [e])
      simp [h1, h2]

theorem isLogo_unique {x : Service} {a b : Int} (ha : IsLogo x a) (hb : IsLogo x b) : a = b := by
  by_cases h : ∃ n, x.logo = some (1, n) ∨ x.logo = some (2, n)
  · obtain ⟨n, h⟩ := h
    rw [ha.1 n h, hb.1 n h]
  · have : ∀ n, x.logo ≠ some (1, n) ∧ x.logo ≠ some (2, n) := fun n =>
      ⟨fun k => h ⟨n, .inl k⟩, fun k => h ⟨n, .inr k⟩⟩
    rw [ha.2 this, hb.2 this]

theorem mem_collect {o : Opt} {sdt : Sdt} {nit : Nit} {l : List (Nat × Nat)} {e : ServiceEntry} :
    e ∈ collectLoop o sdt (some nit) l ↔ (Selected o e.sid ∧ (∃ pid, (e.sid, pid) ∈ l) ∧
      (∃ x, sdt.services.find? e.sid = some x ∧ AudioVideo x.serviceType ∧ e.type = x.serviceType ∧
        e.name = x.name ∧ IsLogo x e.logoId) ∧
      e.nid = sdt.onetwId ∧ e.tsid = sdt.tsId ∧ IsKey sdt nit e.remoteControlKeyId) := by
  induction l with
  | nil => simp [collectLoop]
  | cons a l ih =>
    obtain ⟨sid, pid⟩ := a
    -- the entry is skipped
    have skip : (∀ e : ServiceEntry, e.sid = sid → Selected o e.sid → (∃ x, sdt.services.find? e.sid = some x ∧
        AudioVideo x.serviceType) → False) →
        ((Selected o e.sid ∧ (∃ pid, (e.sid, pid) ∈ l) ∧
          (∃ x, sdt.services.find? e.sid = some x ∧ AudioVideo x.serviceType ∧ e.type = x.serviceType ∧
            e.name = x.name ∧ IsLogo x e.logoId) ∧
          e.nid = sdt.onetwId ∧ e.tsid = sdt.tsId ∧ IsKey sdt nit e.remoteControlKeyId) ↔
        (Selected o e.sid ∧ (∃ pid', (e.sid, pid') ∈ (sid, pid) :: l) ∧
          (∃ x, sdt.services.find? e.sid = some x ∧ AudioVideo x.serviceType ∧ e.type = x.serviceType ∧
            e.name = x.name ∧ IsLogo x e.logoId) ∧
          e.nid = sdt.onetwId ∧ e.tsid = sdt.tsId ∧ IsKey sdt nit e.remoteControlKeyId)) := by
      intro hno
      constructor
      · rintro ⟨h1, ⟨p, h2⟩, h3⟩
        exact ⟨h1, ⟨p, List.mem_cons_of_mem _ h2⟩, h3⟩
      · rintro ⟨h1, ⟨p, h2⟩, h3⟩
        refine ⟨h1, ⟨p, ?_⟩, h3⟩
        rcases List.mem_cons.1 h2 with h2 | h2
        · cases h2
          obtain ⟨x, k1, k2, _⟩ := h3.1
          exact absurd ⟨x, k1, k2⟩ (hno e rfl h1)
        · exact h2
    unfold collectLoop
    split
    · next h =>
      rw [ih]
      refine skip fun e he hs _ => ?_
      simp only [Bool.and_eq_true, Bool.not_eq_true', List.isEmpty_eq_false_iff, ne_eq] at h
      rcases hs.1 with k | k
      · exact h.1 k
      · rw [he] at k
        have := h.2
        simp [k] at this
    · next h1 =>
      split
      · next h =>
        rw [ih]
        refine skip fun e he hs _ => ?_
        simp only [Bool.and_eq_true, List.contains_iff_mem] at h
        exact hs.2 (he ▸ h.2)
      · next h2 =>
        have hsel : Selected o sid := by
          constructor
          · by_cases hn : o.sids = []
            · exact .inl hn
            · simp [hn] at h1; exact .inr h1
          · intro hx
            apply h2
            simp only [Bool.and_eq_true, Bool.not_eq_true', List.isEmpty_eq_false_iff, ne_eq,
              List.contains_iff_mem, hx, and_true]
            intro hn; rw [hn] at hx; simp at hx
        split
        · next hf =>
          rw [ih]
          refine skip fun e he hs hx => ?_
          obtain ⟨x, k, _⟩ := hx
          rw [he, hf] at k; cases k
        · next x hf =>
          split
          · next hav =>
            rw [ih]
            refine skip fun e he hs hx => ?_
            obtain ⟨y, k1, k2⟩ := hx
            rw [he, hf] at k1
            cases k1
            rw [← av_iff] at k2
            simp [k2] at hav
          · next hav =>
            rw [List.mem_cons, ih]
            constructor
            · rintro (rfl | ⟨h1, ⟨p, h2⟩, h3⟩)
              · exact ⟨hsel, ⟨pid, by simp⟩, ⟨x, hf, av_iff.1 (by simpa using hav), rfl, rfl, logo_spec x⟩,
                  rfl, rfl, key_spec sdt nit⟩
              · exact ⟨h1, ⟨p, List.mem_cons_of_mem _ h2⟩, h3⟩
            · rintro ⟨h1, ⟨p, h2⟩, h3⟩
              rcases List.mem_cons.1 h2 with h2 | h2
              · refine .inl ?_
                have hsid : e.sid = sid := (Prod.mk.inj h2).1
                obtain ⟨⟨y, k1, _, k3, k4, k5⟩, k6, k7, k8⟩ := h3
                rw [hsid, hf] at k1
                cases k1
                obtain ⟨nid, tsid, sid', name, type, logo, key⟩ := e
                simp only at hsid k3 k4 k5 k6 k7 k8
                subst hsid k3 k4 k6 k7
                congr 1
                · exact isLogo_unique k5 (logo_spec x)
                · exact isKey_unique k8 (key_spec sdt nit)
              · exact .inr ⟨h1, ⟨p, h2⟩, h3⟩

theorem collect_sorted (o : Opt) (sdt : Sdt) (nit : Option Nit) {l : List (Nat × Nat)}
    (hs : l.Pairwise (fun a b => a.1 < b.1)) :
    (collectLoop o sdt nit l).Pairwise (fun a b => a.sid < b.sid) ∧
      ∀ e ∈ collectLoop o sdt nit l, ∃ pid, (e.sid, pid) ∈ l := by
  induction l with
  | nil => simp [collectLoop]
  | cons a l ih =>
    obtain ⟨sid, pid⟩ := a
    obtain ⟨h1, h2⟩ := List.pairwise_cons.1 hs
    obtain ⟨k1, k2⟩ := ih h2
    have rest : ∀ e ∈ collectLoop o sdt nit l, ∃ pid', (e.sid, pid') ∈ (sid, pid) :: l := fun e he => by
      obtain ⟨p, hp⟩ := k2 e he
      exact ⟨p, List.mem_cons_of_mem _ hp⟩
    unfold collectLoop
    split
    · exact ⟨k1, rest⟩
    · split
      · exact ⟨k1, rest⟩
      · split
        · exact ⟨k1, rest⟩
        · split
          · exact ⟨k1, rest⟩
          · refine ⟨List.pairwise_cons.2 ⟨fun e he => ?_, k1⟩, fun e he => ?_⟩
            · obtain ⟨p, hp⟩ := k2 e he
              exact h1 _ hp
            · rcases List.mem_cons.1 he with rfl | he
              · exact ⟨pid, by simp⟩
              · exact rest e he

theorem step_total (s : St) (i : Input) : ∃ s' more, step s i = .ok (s', (), more) := by
  obtain ⟨r, h, _⟩ := feedDemux_total (watched := St.demux) (handle := handleTable) (pid := i.packet.pid)
    (fun _ => True) (fun _ => True) (by
      intro s t _ _ _ _
      unfold handleTable
      split <;> exact ⟨_, rfl, trivial⟩) i.tables s (fun _ _ => trivial) trivial
  unfold step
  rw [h]
  simp only [ok_bind]
  split <;> exact ⟨_, _, rfl⟩

theorem scanned_of_eval {o : Opt} {is : List Input} {code : Nat} {out : Option (List ServiceEntry)} {n : Nat}
    (h : checkRun (sink o) { st := {} } is
      (fun c h => decide (c = code ∧ h.st.out = out ∧ h.items.length = n)) = true) :
    ∃ h, Scanned o is code h ∧ h.st.out = out ∧ h.items.length = n := by
  obtain ⟨c, h, hr, hp⟩ := ran_of_check h
  obtain ⟨h1, h2, h3⟩ := of_decide_eq_true hp
  exact ⟨h, h1 ▸ hr, h2, h3⟩

end ServiceScanner
end Mirakc
