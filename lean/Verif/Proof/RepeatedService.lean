import Verif.Proof.Repeated
import Verif.Proof.Later
import Verif.Spec.ServiceFilter
/-
Lemmas: two runs side by side; repeated tables at the service filter.
-/
namespace Mirakc
open Mirakc.Spec.Repeated Mirakc.Main Mirakc.Spec.Pipeline Mirakc.Pipeline

/-- Two sinks do the same with two lists of packets: results are the same, states stay related. -/
def Follows {P P' σ σ' : Type} (S : σ → σ' → Prop) (k : Sink P σ) (k' : Sink P' σ') :
    List P → List P' → σ → σ' → Prop
  | [], [], _, _ => True
  | p :: ps, p' :: ps', s, s' =>
    Rel (fun a b => b.1 = a.1 ∧ S a.2 b.2 ∧ (a.1 = true → Follows S k k' ps ps' a.2 b.2)) (k.handle s p) (k'.handle s' p')
  | _, _, _, _ => False

section
variable {P P' σ σ' : Type} {S : σ → σ' → Prop} {k : Sink P σ} {k' : Sink P' σ'}

theorem foldP_follows : ∀ {ps : List P} {ps' : List P'} {s : σ} {s' : σ'}, S s s' → Follows S k k' ps ps' s s' →
    Rel S (foldP k ps s) (foldP k' ps' s')
  | [], [], s, s', hs, _ => hs
  | [], _ :: _, _, _, _, h => h.elim
  | _ :: _, [], _, _, _, h => h.elim
  | p :: ps, p' :: ps', s, s', hs, h => by
    refine Rel.bind h fun a b hab => ?_
    obtain ⟨ok, a⟩ := a
    obtain ⟨ok', b⟩ := b
    obtain ⟨h1, h2, h3⟩ := hab
    cases h1
    cases ok with
    | false => exact h2
    | true => exact foldP_follows h2 (h3 rfl)

/-- The states of the two sinks show the same. -/
structure Alike (S : σ → σ' → Prop) (k : Sink P σ) (k' : Sink P' σ') : Prop where
  finish : ∀ s s', S s s' → Rel S (k.finish s) (k'.finish s')
  exitCode : ∀ s s', S s s' → k'.exitCode s' = k.exitCode s

theorem around_follows (H : Alike S k k') {ps : List P} {ps' : List P'} {s : σ} {s' : σ'}
    (h : Rel (fun a b => b.1 = a.1 ∧ S a.2 b.2 ∧ (a.1 = true → Follows S k k' ps ps' a.2 b.2)) (k.start s) (k'.start s')) :
    Rel (fun a b => b.1 = a.1 ∧ S a.2 b.2) (around k s (foldP k ps)) (around k' s' (foldP k' ps')) := by
  unfold around
  refine h.bind fun a b hab => ?_
  obtain ⟨ok, a⟩ := a
  obtain ⟨ok', b⟩ := b
  obtain ⟨h1, h2, h3⟩ := hab
  cases h1
  cases ok with
  | false => exact ⟨rfl, h2⟩
  | true =>
    refine (foldP_follows h2 (h3 rfl)).bind fun c d hcd => ?_
    refine (H.finish _ _ hcd).bind fun e f hef => ?_
    exact ⟨H.exitCode _ _ hef, hef⟩

theorem follows_same {S : σ → σ → Prop} {k : Sink P σ} (h0 : ∀ s, S s s) : ∀ (ps : List P) (s : σ), Follows S k k ps ps s s
  | [], _ => trivial
  | p :: ps, s => by
    show Rel _ (k.handle s p) (k.handle s p)
    cases k.handle s p with
    | error e => exact rfl
    | ok a => exact ⟨rfl, h0 _, fun _ => follows_same h0 ps _⟩

theorem follows_via {Q Q' : Type} {f : Nat → Q → P} {f' : Nat → Q' → P'} : ∀ {qs : List Q} {qs' : List Q'} {n : Nat}
    {s : σ} {s' : σ'}, Follows S k k' (seen f n qs) (seen f' n qs') s s' →
    Follows (fun a b => b.1 = a.1 ∧ S a.2 b.2) (via f k) (via f' k') qs qs' (n, s) (n, s')
  | [], [], _, _, _, _ => trivial
  | [], _ :: _, _, _, _, h => h.elim
  | _ :: _, [], _, _, _, h => h.elim
  | q :: qs, q' :: qs', n, s, s', h => by
    show Rel _ ((via f k).handle (n, s) q) ((via f' k').handle (n, s') q')
    refine Rel.bind h fun a b hab => ?_
    exact ⟨hab.1, ⟨rfl, hab.2.1⟩, fun ht => follows_via (hab.2.2 ht)⟩

theorem alike_via {Q Q' : Type} {f : Nat → Q → P} {f' : Nat → Q' → P'} (H : Alike S k k') :
    Alike (fun a b => b.1 = a.1 ∧ S a.2 b.2) (via f k) (via f' k') where
  finish _ _ hs := (H.finish _ _ hs.2).bind fun _ _ hab => ⟨hs.1, hab⟩
  exitCode _ _ hs := H.exitCode _ _ hs.2

end

/-- The inputs `js` are the packets of `is`, with the tables `uss`, as far as these go. -/
structure Retold (is js : List Input) (uss : List (List Table)) : Prop where
  packets : js.map Input.packet = is.map Input.packet
  tables : ∀ (n : Nat) (us : List Table), uss[n]? = some us → (js[n]?).map Input.tables = some us

theorem Retold.cons {i : Input} {is js : List Input} {us : List Table} {uss : List (List Table)}
    (h : Retold (i :: is) js (us :: uss)) : ∃ j js', js = j :: js' ∧ j.packet = i.packet ∧ j.tables = us ∧ Retold is js' uss := by
  obtain ⟨h1, h2⟩ := h
  cases js with
  | nil => cases h1
  | cons j js =>
    rw [List.map_cons, List.map_cons, List.cons.injEq] at h1
    exact ⟨j, js, rfl, h1.1, Option.some.inj (h2 0 us rfl), h1.2, fun n us hn => h2 (n + 1) us hn⟩

theorem subject_valid {t : Table} (h : subject t ≠ none) : t.valid = true := by
  unfold subject at h
  split at h
  · assumption
  · exact absurd rfl h

theorem subject_pat {t : Table} {p : Pat} (hb : t.body = .pat p) (h : subject t ≠ none) :
    t.sourcePid = 0 ∧ p.tsId ≠ 0 ∧ subject t = some .pat := by
  have hv := subject_valid h
  unfold subject at h ⊢
  rw [if_pos hv, hb] at h ⊢
  dsimp only at h ⊢
  split at h
  · next hc => exact ⟨hc.1, hc.2, if_pos hc⟩
  · exact absurd rfl h

/-- A usable PAT is about the PAT. -/
theorem subject_usable {t : Table} {p : Pat} (hb : t.body = .pat p) (hv : t.valid = true) (h0 : t.sourcePid = 0)
    (h1 : p.tsId ≠ 0) : subject t = some .pat := by
  unfold subject
  rw [if_pos hv, hb]
  exact if_pos ⟨h0, h1⟩

theorem subject_cat {t : Table} {c : Cat} (hb : t.body = .cat c) (hv : t.valid = true) : subject t = some .cat := by
  unfold subject; rw [if_pos hv, hb]

theorem subject_pmt {t : Table} {m : Pmt} (hb : t.body = .pmt m) (hv : t.valid = true) :
    subject t = some (.pmt m.serviceId) := by
  unfold subject; rw [if_pos hv, hb]

theorem subject_eit {t : Table} {e : Eit} (hb : t.body = .eit e) (hv : t.valid = true) :
    subject t = some (.eit e.serviceId) := by
  unfold subject; rw [if_pos hv, hb]

/-- Watching a PID again that is being watched. -/
theorem contains_readd {d : PidSet} {q : Nat} (h : d.contains q = true) (p : Nat) :
    ((if q != pidNull then d.remove q else d).add q).contains p = d.contains p := by
  have e : q ∈ d := List.contains_iff_mem.1 h
  rw [Bool.eq_iff_iff, List.contains_iff_mem, List.contains_iff_mem]
  unfold PidSet.add
  rw [List.mem_cons]
  split
  · unfold PidSet.remove
    rw [List.mem_filter]
    by_cases hp : p = q
    · subst hp; simp [e]
    · simp [hp]
  · by_cases hp : p = q
    · subst hp; simp [e]
    · simp [hp]

theorem contains_cong {d d' : PidSet} (h : ∀ p, d'.contains p = d.contains p) (q r : Nat) (p : Nat) :
    ((if q != pidNull then d'.remove q else d').add r).contains p =
      ((if q != pidNull then d.remove q else d).add r).contains p := by
  have e : ∀ p, p ∈ d' ↔ p ∈ d := fun p => by rw [← List.contains_iff_mem, ← List.contains_iff_mem, h]
  rw [Bool.eq_iff_iff, List.contains_iff_mem, List.contains_iff_mem]
  unfold PidSet.add
  rw [List.mem_cons, List.mem_cons]
  split
  · unfold PidSet.remove
    rw [List.mem_filter, List.mem_filter, e]
  · rw [e]

theorem contains_add_self (d : PidSet) (q : Nat) : (d.add q).contains q = true :=
  List.contains_iff_mem.2 List.mem_cons_self

namespace ServiceFilter.Rep

/-- Same state, except for the order in which the PIDs were added. -/
def Same (s s' : St) : Prop :=
  s' = { s with demux := s'.demux } ∧ ∀ p, s'.demux.contains p = s.demux.contains p

/-- The state reflects the table. -/
def Shows (o : Opt) (s : St) (t : Table) : Prop :=
  match t.body with
  | .pat p =>
    match p.pmts.find? o.sid with
    | none => s.done = true ∧ s.error = true
    | some q => s.pmtPid = q ∧ s.demux.contains q = true ∧
      s.packetizer = some { p with pmts := p.pmts.filter (·.1 == o.sid) } ∧
      s.psi = [pidPat, pidCat, pidNit, pidSdt, pidEit, pidRst, pidTot, pidBit, pidCdt, q] ∧
      (p.pmts.filter (·.1 == o.sid)).entries.length = 1 ∧ ((p.pmts.filter (·.1 == o.sid)).find? o.sid).isSome = true
  | .cat c => s.emm = caPids c.descs
  | .pmt m => m.serviceId = o.sid → s.content = m.pcrPid :: caPids m.descs ++ m.streams.keys
  | _ => True

/-- What a usable PAT without the service does. -/
theorem handlePat_none {o : Opt} {s : St} {t : Table} {p : Pat} (h0 : t.sourcePid = 0) (hv : t.valid = true)
    (h1 : p.tsId ≠ 0) (hq : p.pmts.find? o.sid = none) :
    handlePat o s t p = .ok { s with done := true, error := true } := by
  unfold handlePat
  rw [if_neg (by simp [h0, pidPat]), if_neg (by simp [hv]), if_neg (by simp [h1]), hq]

theorem handlePat_ignored {o : Opt} {s : St} {t : Table} {p : Pat}
    (h : ¬ (t.sourcePid = 0 ∧ t.valid = true ∧ p.tsId ≠ 0)) : handlePat o s t p = .ok s := by
  unfold handlePat
  split
  · rfl
  · split
    · rfl
    · split
      · rfl
      · next h1 h2 h3 => exact absurd ⟨by simpa [pidPat] using h1, by simpa using h2, by simpa using h3⟩ h

theorem assert_of {b : Bool} (h : b = true) : assertThat b = .ok () := by subst h; rfl

/-- What a usable PAT with the service does. -/
theorem handlePat_some {o : Opt} {s s1 : St} {t : Table} {p : Pat} {q : Nat} (h0 : t.sourcePid = 0) (hv : t.valid = true)
    (h1 : p.tsId ≠ 0) (hq : p.pmts.find? o.sid = some q) :
    handlePat o s t p = .ok s1 ↔
    ((p.pmts.filter (·.1 == o.sid)).entries.length = 1 ∧ ((p.pmts.filter (·.1 == o.sid)).find? o.sid).isSome = true) ∧
    s1 = { s with
        pmtPid := q
        demux := (if s.pmtPid != pidNull then s.demux.remove s.pmtPid else s.demux).add q
        packetizer := some { p with pmts := p.pmts.filter (·.1 == o.sid) }
        psi := [pidPat, pidCat, pidNit, pidSdt, pidEit, pidRst, pidTot, pidBit, pidCdt, q] } := by
  unfold handlePat
  rw [if_neg (by simp [h0, pidPat]), if_neg (by simp [hv]), if_neg (by simp [h1]), hq]
  dsimp only
  constructor
  · intro h
    obtain ⟨_, a1, h⟩ := bind_ok_iff.1 h
    obtain ⟨_, a2, h⟩ := bind_ok_iff.1 h
    cases h
    exact ⟨⟨by simpa using assert_ok a1, assert_ok a2⟩, rfl⟩
  · rintro ⟨⟨a1, a2⟩, rfl⟩
    rw [assert_of (beq_iff_eq.2 a1), ok_bind, assert_of a2, ok_bind]

theorem absorbs (o : Opt) : Absorbs St.demux (handleTable o) Same (Shows o) where
  watch h pid := h.2 pid
  step := by
    intro s s' s1 t hR h
    obtain ⟨e, hd⟩ := hR
    generalize s'.demux = d at e hd
    subst e
    unfold handleTable at h ⊢
    cases hb : t.body with
    | pat p =>
      rw [hb] at h
      dsimp only at h ⊢
      by_cases hu : t.sourcePid = 0 ∧ t.valid = true ∧ p.tsId ≠ 0
      · obtain ⟨h0, hv, h1⟩ := hu
        cases hq : p.pmts.find? o.sid with
        | none =>
          rw [handlePat_none h0 hv h1 hq] at h
          cases h
          exact ⟨_, handlePat_none h0 hv h1 hq, rfl, hd⟩
        | some q =>
          obtain ⟨h2, rfl⟩ := (handlePat_some h0 hv h1 hq).1 h
          exact ⟨_, (handlePat_some h0 hv h1 hq).2 ⟨h2, rfl⟩, rfl, contains_cong hd _ _⟩
      · rw [handlePat_ignored hu] at h
        cases h
        exact ⟨_, handlePat_ignored hu, rfl, hd⟩
    | cat c =>
      rw [hb] at h
      unfold handleCat at h ⊢
      dsimp only at h ⊢
      split at h <;> cases h
      · next hc => rw [if_pos hc]; exact ⟨_, rfl, rfl, hd⟩
      · next hc => rw [if_neg hc]; exact ⟨_, rfl, rfl, hd⟩
    | pmt m =>
      rw [hb] at h
      unfold handlePmt at h ⊢
      dsimp only at h ⊢
      split at h
      · next hc => cases h; rw [if_pos hc]; exact ⟨_, rfl, rfl, hd⟩
      · next hc =>
        rw [if_neg hc]
        split at h
        · next hc => cases h; rw [if_pos hc]; exact ⟨_, rfl, rfl, hd⟩
        · next hc => cases h; rw [if_neg hc]; exact ⟨_, rfl, rfl, hd⟩
    | tot m =>
      rw [hb] at h
      unfold handleTot at h ⊢
      dsimp only at h ⊢
      split at h
      · next hc => cases h; rw [if_pos hc]; exact ⟨_, rfl, rfl, hd⟩
      · next hc =>
        rw [if_neg hc]
        cases hl : o.timeLimit with
        | none => rw [hl] at h; cases h
        | some l =>
          rw [hl] at h
          dsimp only at h ⊢
          split at h
          · next hc => cases h; rw [if_pos hc]; exact ⟨_, rfl, rfl, hd⟩
          · next hc => cases h; rw [if_neg hc]; exact ⟨_, rfl, rfl, hd⟩
    | _ => rw [hb] at h; cases h; exact ⟨_, rfl, rfl, hd⟩
  own := by
    intro s s1 t hs h
    have hv := subject_valid hs
    unfold handleTable at h
    unfold Shows
    cases hb : t.body with
    | pat p =>
      rw [hb] at h
      obtain ⟨h0, h1, _⟩ := subject_pat hb hs
      dsimp only at h ⊢
      cases hq : p.pmts.find? o.sid with
      | none =>
        rw [handlePat_none h0 hv h1 hq] at h
        cases h
        exact ⟨rfl, rfl⟩
      | some q =>
        obtain ⟨h2, rfl⟩ := (handlePat_some h0 hv h1 hq).1 h
        exact ⟨rfl, contains_add_self _ _, rfl, rfl, h2⟩
    | cat c =>
      rw [hb] at h
      dsimp only [handleCat] at h
      rw [if_neg (by simp [hv])] at h
      cases h
      rfl
    | pmt m =>
      rw [hb] at h
      dsimp only [handlePmt] at h ⊢
      rw [if_neg (by simp [hv])] at h
      intro he
      rw [if_neg (by simp [he])] at h
      cases h
      rfl
    | _ => trivial
  keep := by
    intro s s1 t u hA ht hne h
    have same : s1 = s → Shows o s1 t := fun e => e ▸ hA
    unfold handleTable at h
    cases hbu : u.body with
    | pat p =>
      rw [hbu] at h
      dsimp only at h
      by_cases hu : u.sourcePid = 0 ∧ u.valid = true ∧ p.tsId ≠ 0
      · have hsu := subject_usable hbu hu.2.1 hu.1 hu.2.2
        cases hbt : t.body with
        | pat p' => exact absurd (hsu.trans (subject_pat hbt ht).2.2.symm) hne
        | _ =>
          unfold Shows at hA ⊢
          rw [hbt] at hA ⊢
          cases hq : p.pmts.find? o.sid with
          | none =>
            rw [handlePat_none hu.1 hu.2.1 hu.2.2 hq] at h
            cases h
            exact hA
          | some q =>
            obtain ⟨h2, rfl⟩ := (handlePat_some hu.1 hu.2.1 hu.2.2 hq).1 h
            exact hA
      · exact same (Except.ok.inj (h.symm.trans (handlePat_ignored hu)))
    | cat c =>
      rw [hbu] at h
      dsimp only [handleCat] at h
      split at h
      · exact same (Except.ok.inj h).symm
      · next hv =>
        have hsu := subject_cat hbu (by simpa using hv)
        cases h
        cases hbt : t.body with
        | cat c' => exact absurd (hsu.trans (subject_cat hbt (subject_valid ht)).symm) hne
        | _ =>
          unfold Shows at hA ⊢
          rw [hbt] at hA ⊢
          exact hA
    | pmt m =>
      rw [hbu] at h
      dsimp only [handlePmt] at h
      split at h
      · exact same (Except.ok.inj h).symm
      · next hv =>
        have hsu := subject_pmt hbu (by simpa using hv)
        split at h
        · exact same (Except.ok.inj h).symm
        · next hsid =>
          cases h
          cases hbt : t.body with
          | pmt m' =>
            unfold Shows at hA ⊢
            rw [hbt] at hA ⊢
            dsimp only at hA ⊢
            intro he
            rw [subject_pmt hbt (subject_valid ht), hsu] at hne
            have hx : m.serviceId = o.sid := by simpa using hsid
            exact absurd (by rw [he, hx]) hne
          | _ =>
            unfold Shows at hA ⊢
            rw [hbt] at hA ⊢
            exact hA
    | tot x =>
      rw [hbu] at h
      dsimp only [handleTot] at h
      split at h
      · exact same (Except.ok.inj h).symm
      · split at h
        · cases h
        · split at h
          · exact same (Except.ok.inj h).symm
          · cases h
            unfold Shows at hA ⊢
            split
            · next hb =>
              rw [hb] at hA
              dsimp only at hA
              split
              · next hq => rw [hq] at hA; exact ⟨rfl, hA.2⟩
              · next hq => rw [hq] at hA; exact hA
            · next hb => rw [hb] at hA; exact hA
            · next hb => rw [hb] at hA; exact hA
            · trivial
    | _ => rw [hbu] at h; exact same (Except.ok.inj h).symm
  like _ _ h := h
  absorb := by
    intro s s' t ht hR hA
    obtain ⟨e, hd⟩ := hR
    generalize s'.demux = d at e hd
    subst e
    have hv := subject_valid ht
    unfold handleTable
    unfold Shows at hA
    cases hb : t.body with
    | pat p =>
      rw [hb] at hA
      obtain ⟨h0, h1, _⟩ := subject_pat hb ht
      dsimp only at hA ⊢
      cases hq : p.pmts.find? o.sid with
      | none =>
        rw [hq] at hA
        dsimp only at hA
        rw [handlePat_none h0 hv h1 hq]
        refine ⟨_, rfl, ?_, hd⟩
        obtain ⟨_, _, _, _, _, _, _, _, _⟩ := s
        obtain ⟨rfl, rfl⟩ := hA
        rfl
      | some q =>
        rw [hq] at hA
        obtain ⟨a1, a2, a3, a4, a5⟩ := hA
        refine ⟨_, (handlePat_some h0 hv h1 hq).2 ⟨a5, rfl⟩, ?_, ?_⟩
        · obtain ⟨_, _, _, _, _, _, _, _, _⟩ := s
          dsimp only at a1 a3 a4 ⊢
          rw [a1, a3, a4]
        · intro p
          refine Eq.trans ?_ (hd p)
          show ((if s.pmtPid != pidNull then d.remove s.pmtPid else d).add q).contains p = d.contains p
          rw [a1]
          exact contains_readd (by rw [hd]; exact a2) p
    | cat c =>
      rw [hb] at hA
      dsimp only [handleCat] at hA ⊢
      rw [if_neg (by simp [hv])]
      refine ⟨_, rfl, ?_, hd⟩
      obtain ⟨_, _, _, _, _, _, _, _, _⟩ := s
      cases hA
      rfl
    | pmt m =>
      rw [hb] at hA
      dsimp only [handlePmt] at hA ⊢
      rw [if_neg (by simp [hv])]
      by_cases he : m.serviceId = o.sid
      · rw [if_neg (by simp [he])]
        refine ⟨_, rfl, ?_, hd⟩
        have hA := hA he
        obtain ⟨_, _, _, _, _, _, _, _, _⟩ := s
        cases hA
        rfl
      · rw [if_pos (by simp [he])]
        exact ⟨_, rfl, rfl, hd⟩
    | tot x =>
      exfalso
      unfold subject at ht
      rw [if_pos hv, hb] at ht
      exact ht rfl
    | _ => exact ⟨_, rfl, rfl, hd⟩

/-- The generated packets are not part of what is reflected. -/
theorem shows_generated {o : Opt} {s : St} {t : Table} {n : Nat} (h : Shows o s t) : Shows o { s with generated := n } t := by
  unfold Shows at h ⊢
  split
  · next hb =>
    rw [hb] at h
    dsimp only at h
    split
    · next hq => rw [hq] at h; exact h
    · next hq => rw [hq] at h; exact h
  · next hb => rw [hb] at h; exact h
  · next hb => rw [hb] at h; exact h
  · trivial

/-- One packet with repeated tables. -/
theorem step_repeats {o : Opt} {h : List Table} {s s' s1 : St} {i j : Input} {log us : List Table} {act : Act}
    (hR : Same s s') (hA : Reflects (Shows o) h s) (hs : step o s i = .ok (s1, log, act)) (hr : Repeats h log us)
    (hp : j.packet = i.packet) (ht : j.tables = us) :
    ∃ s1' log', step o s' j = .ok (s1', log', act) ∧ Same s1 s1' ∧ Reflects (Shows o) (h ++ log) s1 := by
  unfold step at hs
  obtain ⟨⟨s2, log2⟩, hf, hs⟩ := bind_ok_iff.1 hs
  have hlog : log = log2 := by
    dsimp only at hs
    split at hs
    · cases hs; rfl
    · split at hs
      · cases hs; rfl
      · split at hs
        · split at hs <;> cases hs; rfl
        · obtain ⟨_, _, hs⟩ := bind_ok_iff.1 hs
          cases hs; rfl
  subst hlog
  obtain ⟨s2', log', hf', hR2, hA2⟩ := feedDemux_repeats (absorbs o) hR hA hf hr
  unfold step
  rw [ht, hp, hf', ok_bind]
  obtain ⟨e, hd⟩ := hR2
  generalize s2'.demux = d at e hd
  subst e
  dsimp only at hs ⊢
  split at hs
  · next hc =>
    cases hs
    rw [if_pos hc]
    exact ⟨_, _, rfl, ⟨rfl, hd⟩, hA2⟩
  · next hc =>
    rw [if_neg hc]
    split at hs
    · next hc =>
      rw [if_pos (show checkFilterForDrop { s2 with demux := d } i.packet.pid = true from hc)]
      cases hs
      exact ⟨_, _, rfl, ⟨rfl, hd⟩, hA2⟩
    · next hc =>
      rw [if_neg (show ¬ checkFilterForDrop { s2 with demux := d } i.packet.pid = true from hc)]
      split at hs
      · next hc =>
        rw [if_pos hc]
        cases hk : s2.packetizer with
        | none => rw [hk] at hs; cases hs
        | some k =>
          rw [hk] at hs
          cases hs
          exact ⟨_, _, rfl, ⟨rfl, hd⟩, fun t hu => by
            have e := shows_generated (n := s2.generated + 1) (hA2 t hu)
            rw [hk] at e
            exact e⟩
      · next hc =>
        rw [if_neg hc]
        obtain ⟨_, ha, hs⟩ := bind_ok_iff.1 hs
        cases hs
        rw [ha, ok_bind]
        exact ⟨_, _, rfl, ⟨rfl, hd⟩, hA2⟩

/-- The service filter with repeated tables, connected to sinks that do the same. -/
theorem follows_repeated {σ σ' : Type} {S : σ → σ' → Prop} {o : Opt} {k : Sink Out σ} {k' : Sink Out σ'} :
    ∀ {is js : List Input} {s s' f : St} {items : List Item} {h : List Table} {uss : List (List Table)} {d : σ} {d' : σ'},
    run o s is = .ok (f, items) → Same s s' → Reflects (Shows o) h s → Repeated h (items.map (·.handled)) uss →
    Retold is js uss → S d d' → Follows S k k' (Spec.ServiceFilter.sent items) (Spec.ServiceFilter.sent items) d d' →
    Follows (fun a b => Same a.1 b.1 ∧ S a.2 b.2) (sink o k) (sink o k') is js (s, d) (s', d')
  | [], js, s, s', f, items, h, uss, d, d', hr, hR, hA, hu, ht, hS, hf => by
    have : js = [] := List.map_eq_nil_iff.1 ht.packets
    subst this
    trivial
  | i :: is, js, s, s', f, items, h, uss, d, d', hr, hR, hA, hu, ht, hS, hf => by
    unfold run at hr
    obtain ⟨⟨s1, log, act⟩, h1, hr⟩ := bind_ok_iff.1 hr
    dsimp only at hr
    by_cases ha : act = .stop
    · rw [if_pos ha] at hr
      cases hr
      cases hu with
      | cons hu _ =>
        obtain ⟨j, js', rfl, hp, htt, _⟩ := ht.cons
        obtain ⟨s1', log', h1', hR1, _⟩ := step_repeats hR hA h1 hu hp htt
        show Rel _ ((sink o k).handle (s, d) i) ((sink o k').handle (s', d') j)
        dsimp only [sink]
        rw [h1, h1']
        subst ha
        exact ⟨rfl, ⟨hR1, hS⟩, fun hx => by cases hx⟩
    · rw [if_neg ha] at hr
      obtain ⟨⟨f2, items2⟩, h2, hr⟩ := bind_ok_iff.1 hr
      cases hr
      cases hu with
      | cons hu hus =>
        obtain ⟨j, js', rfl, hp, htt, ht'⟩ := ht.cons
        obtain ⟨s1', log', h1', hR1, hA1⟩ := step_repeats hR hA h1 hu hp htt
        show Rel _ ((sink o k).handle (s, d) i) ((sink o k').handle (s', d') j)
        dsimp only [sink]
        rw [h1, h1']
        cases act with
        | stop => exact absurd rfl ha
        | drop => exact ⟨rfl, ⟨hR1, hS⟩, fun _ => follows_repeated h2 hR1 hA1 hus ht' hS hf⟩
        | send x =>
          have hf : Rel _ (k.handle d x) (k'.handle d' x) := hf
          rw [ok_bind, ok_bind]
          refine Rel.bind hf fun a b hab => ?_
          exact ⟨hab.1, ⟨hR1, hab.2.1⟩, fun hx => follows_repeated h2 hR1 hA1 hus ht' hab.2.1 (hab.2.2 hx)⟩

theorem alike_sink {σ σ' : Type} {S : σ → σ' → Prop} {o : Opt} {k : Sink Out σ} {k' : Sink Out σ'} (H : Alike S k k') :
    Alike (fun a b => Same a.1 b.1 ∧ S a.2 b.2) (sink o k) (sink o k') where
  finish _ _ hs := (H.finish _ _ hs.2).bind fun _ _ hab => ⟨hs.1, hab⟩
  exitCode s s' hs := by
    have e : s'.1.error = s.1.error := by rw [hs.1.1]
    dsimp only [sink]
    rw [H.exitCode _ _ hs.2, e]

end ServiceFilter.Rep

end Mirakc
