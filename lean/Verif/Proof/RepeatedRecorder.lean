import Verif.Proof.RepeatedProgram2
import Verif.Proof.ServiceRecorderEx
/-
Lemmas: repeated tables at the recorder.
-/
namespace Mirakc.ServiceRecorder.Rep
open Mirakc.Spec.Repeated Mirakc.Main Mirakc.Spec.Pipeline Mirakc.Pipeline
open Mirakc.ServiceFilter.Rep (assert_of)

/-- The clock without a PCR PID may have forgotten that it has a time. -/
def ClockAlike (c c' : Clock) : Prop :=
  c' = c ∨ (c.baseline.pid = pidNull ∧ c.ready = false ∧ c.baseline.pcrReady = false ∧
    ∃ b, c' = { c with baseline := { c.baseline with timeReady := b } })

theorem ClockAlike.pid {c c' : Clock} (h : ClockAlike c c') : c'.baseline.pid = c.baseline.pid := by
  rcases h with rfl | ⟨_, _, _, b, rfl⟩ <;> rfl

theorem ClockAlike.hasPid {c c' : Clock} (h : ClockAlike c c') : c'.hasPid = c.hasPid := by
  unfold Clock.hasPid ClockBaseline.hasPid; rw [h.pid]

theorem ClockAlike.isReady {c c' : Clock} (h : ClockAlike c c') : c'.isReady = c.isReady := by
  rcases h with rfl | ⟨_, h, _, b, rfl⟩
  · rfl
  · simp [Clock.isReady, h]

theorem ClockAlike.now {c c' : Clock} (h : ClockAlike c c') (x : Int) : c'.now x = c.now x := by
  have hr := h.isReady
  rcases h with rfl | ⟨_, h, _, b, rfl⟩
  · rfl
  · have e : c.isReady = false := by simp [Clock.isReady, h]
    unfold Clock.now
    rw [hr, e]
    rfl

theorem ClockAlike.setPid {c c' : Clock} (h : ClockAlike c c') (p : Nat) : c'.setPid p = c.setPid p := by
  rcases h with rfl | ⟨_, _, _, b, rfl⟩ <;> rfl

theorem ClockAlike.updateTime {c c' : Clock} (h : ClockAlike c c') (t l : Int) : c'.updateTime t l = c.updateTime t l := by
  rcases h with rfl | ⟨_, h, _, b, rfl⟩
  · rfl
  · unfold Clock.updateTime
    rfl

theorem updateTime_pid {c c1 : Clock} {t l : Int} (h : c.updateTime t l = .ok c1) :
    c1.baseline.pid = c.baseline.pid ∧ c1.ready = c.ready ∧
    (c.ready = false → c1.baseline.pcrReady = c.baseline.pcrReady) := by
  unfold Clock.updateTime at h
  dsimp only at h
  split at h
  · next hc =>
    unfold Clock.syncPcr ClockBaseline.setPcr at h
    obtain ⟨b, h1, h⟩ := bind_ok_iff.1 h
    obtain ⟨_, _, h1⟩ := bind_ok_iff.1 h1
    cases h1
    cases h
    refine ⟨rfl, rfl, fun hf => ?_⟩
    have hc : c.ready = true := hc
    rw [hc] at hf; cases hf
  · cases h
    exact ⟨rfl, rfl, fun _ => rfl⟩

theorem accept_pid {c c1 : Clock} {p : Int} (h : c.acceptPcr p = .ok c1) : c1.baseline.pid = c.baseline.pid := by
  unfold Clock.acceptPcr at h
  have e : (if p < c.lastPcr then { c with wrapped := true } else c).baseline = c.baseline := by split <;> rfl
  generalize (if p < c.lastPcr then { c with wrapped := true } else c) = c2 at h e
  dsimp only at h
  rw [← e]
  split at h
  · unfold Clock.syncPcr ClockBaseline.setPcr at h
    obtain ⟨b, h1, h⟩ := bind_ok_iff.1 h
    obtain ⟨_, _, h1⟩ := bind_ok_iff.1 h1
    cases h1
    cases h
    rfl
  · cases h; rfl

theorem updatePcr_pid {c c1 : Clock} {p : Int} (h : c.updatePcr p = .ok c1) : c1.baseline.pid = c.baseline.pid := by
  unfold Clock.updatePcr at h
  obtain ⟨_, _, h⟩ := bind_ok_iff.1 h
  split at h
  · obtain ⟨_, _, h⟩ := bind_ok_iff.1 h
    split at h
    · dsimp only at h
      split at h <;> (cases h; rfl)
    · exact accept_pid (c := { c with gapCount := 0 }) h
  · exact accept_pid h

/-- The EIT kept for later is the same, or the one in force again. -/
def EitAlike (s : St) (n : Option Eit) : Prop :=
  n = s.newEit ∨ ∃ e, s.newEit = none ∧ s.recording = true ∧ s.eit = some e ∧ e.events ≠ [] ∧ n = some e

/-- States that do the same from now on. -/
def Same (s s' : St) : Prop :=
  s' = { s with demux := s'.demux, clock := s'.clock, newEit := s'.newEit } ∧
  (∀ p, s'.demux.contains p = s.demux.contains p) ∧ ClockAlike s.clock s'.clock ∧ EitAlike s s'.newEit

/-- The state reflects the table. -/
def Shows (o : Opt) (s : St) (t : Table) : Prop :=
  match t.body with
  | .pat p => ∃ q, p.pmts.find? o.sid = some q ∧ s.pmtPid = q ∧ s.demux.contains q = true
  | .pmt m => m.serviceId = o.sid → s.clock.baseline.pid = m.pcrPid ∧
      (m.pcrPid = pidNull → s.clock.ready = false ∧ s.clock.baseline.pcrReady = false)
  | .eit e => e.serviceId = o.sid → e.events ≠ [] →
      s.newEit = some e ∨ (s.newEit = none ∧ s.recording = true ∧ s.eit = some e)
  | _ => True

theorem handlePat_ignored {o : Opt} {s : St} {t : Table} {p : Pat}
    (h : ¬ (t.sourcePid = 0 ∧ t.valid = true ∧ p.tsId ≠ 0)) : handlePat o s t p = .ok s := by
  unfold handlePat
  split
  · rfl
  · split
    · rfl
    · split
      · rfl
      · next h1 h2 h3 => exact absurd ⟨by simpa [pidPat] using h1, by simpa using h2, by simpa using h3⟩ h

theorem handlePat_some {o : Opt} {s s1 : St} {t : Table} {p : Pat} (h0 : t.sourcePid = 0) (hv : t.valid = true)
    (h1 : p.tsId ≠ 0) : handlePat o s t p = .ok s1 ↔ ∃ q, p.pmts.find? o.sid = some q ∧
      s1 = { s with pmtPid := q, demux := (if s.pmtPid != pidNull then s.demux.remove s.pmtPid else s.demux).add q } := by
  unfold handlePat
  rw [if_neg (by simp [h0, pidPat]), if_neg (by simp [hv]), if_neg (by simp [h1])]
  cases p.pmts.find? o.sid with
  | none => exact ⟨fun h => (by cases h), fun ⟨_, h, _⟩ => by cases h⟩
  | some q =>
    exact ⟨fun h => ⟨q, rfl, (Except.ok.inj h).symm⟩, fun ⟨q', hq, hs⟩ => by cases hq; rw [hs]⟩

/-- What a PMT does: the clock follows the PCR PID of the service. -/
theorem handlePmt_eq (o : Opt) (s : St) (t : Table) (m : Pmt) : handlePmt o s t m =
    if t.valid = true ∧ m.serviceId = o.sid ∧ ¬ (s.clock.hasPid = true ∧ s.clock.baseline.pid = m.pcrPid) then
      .ok { s with clock := s.clock.setPid m.pcrPid } else .ok s := by
  unfold handlePmt
  cases t.valid with
  | false => rfl
  | true =>
    by_cases h1 : m.serviceId = o.sid
    · rw [if_neg (by simp), if_neg (by simp [h1])]
      cases s.clock.hasPid with
      | false => rw [if_pos (by rfl), if_pos (by simp [h1])]
      | true =>
        rw [if_neg (by simp)]
        by_cases h2 : s.clock.baseline.pid = m.pcrPid
        · rw [if_neg (by simp [h2]), if_neg (by simp [h2])]
        · rw [if_pos (by simp [h2]), if_pos (by simp [h1, h2])]
    · rw [if_neg (by simp), if_pos (by simpa using h1), if_neg (by simp [h1])]

theorem handleEit_eq (o : Opt) (s : St) (t : Table) (e : Eit) : handleEit o s t e =
    if t.valid = true ∧ e.serviceId = o.sid ∧ e.events ≠ [] then .ok { s with newEit := some e } else .ok s := by
  unfold handleEit
  cases t.valid with
  | false => rfl
  | true =>
    by_cases h1 : e.serviceId = o.sid
    · rw [if_neg (by simp), if_neg (by simp [h1])]
      by_cases h2 : e.events = []
      · rw [if_pos (by simp [h2]), if_neg (by simp [h2])]
      · rw [if_neg (by simp [h2]), if_pos (by simp [h1, h2])]
    · rw [if_neg (by simp), if_pos (by simpa using h1), if_neg (by simp [h1])]

theorem absorbs (o : Opt) (l : Int) : Absorbs St.demux (handleTable o l) Same (Shows o) where
  watch h pid := h.2.1 pid
  step := by
    intro s s' s1 t hR h
    obtain ⟨e, hd, hc, hn⟩ := hR
    generalize s'.demux = d at e hd
    generalize s'.clock = c at e hc
    generalize s'.newEit = n at e hn
    subst e
    unfold handleTable at h ⊢
    cases hb : t.body with
    | pat p =>
      rw [hb] at h
      dsimp only at h ⊢
      by_cases hu : t.sourcePid = 0 ∧ t.valid = true ∧ p.tsId ≠ 0
      · obtain ⟨h0, hv, h1⟩ := hu
        obtain ⟨q, hq, rfl⟩ := (handlePat_some h0 hv h1).1 h
        exact ⟨_, (handlePat_some h0 hv h1).2 ⟨q, hq, rfl⟩, rfl, contains_cong hd _ _, hc, hn⟩
      · rw [handlePat_ignored hu] at h
        cases h
        exact ⟨_, handlePat_ignored hu, rfl, hd, hc, hn⟩
    | pmt m =>
      rw [hb] at h
      dsimp only at h ⊢
      rw [handlePmt_eq] at h ⊢
      dsimp only
      rw [hc.hasPid, hc.pid]
      split at h
      · next hx =>
        cases h
        rw [if_pos hx]
        exact ⟨_, rfl, rfl, hd, .inl (hc.setPid _), hn⟩
      · next hx =>
        cases h
        rw [if_neg hx]
        exact ⟨_, rfl, rfl, hd, hc, hn⟩
    | eit e =>
      rw [hb] at h
      dsimp only at h ⊢
      rw [handleEit_eq] at h ⊢
      split at h
      · next hx =>
        cases h
        rw [if_pos hx]
        exact ⟨_, rfl, rfl, hd, hc, .inl rfl⟩
      · next hx =>
        cases h
        rw [if_neg hx]
        exact ⟨_, rfl, rfl, hd, hc, hn⟩
    | tot x =>
      rw [hb] at h
      dsimp only [handleTot] at h ⊢
      split at h
      · next hx =>
        cases h
        exact ⟨_, if_pos hx, rfl, hd, hc, hn⟩
      · next hx =>
        obtain ⟨c1, h1, h⟩ := bind_ok_iff.1 h
        cases h
        refine ⟨{ s with demux := d, clock := c1, newEit := n }, ?_, rfl, hd, .inl rfl, hn⟩
        refine (if_neg hx).trans ?_
        rw [hc.updateTime, h1]
        rfl
    | _ => rw [hb] at h; cases h; exact ⟨_, rfl, rfl, hd, hc, hn⟩
  own := by
    intro s s1 t hs h
    have hv := subject_valid hs
    unfold handleTable at h
    unfold Shows
    cases hb : t.body with
    | pat p =>
      rw [hb] at h
      obtain ⟨h0, h1, _⟩ := subject_pat hb hs
      obtain ⟨q, hq, rfl⟩ := (handlePat_some h0 hv h1).1 h
      exact ⟨q, hq, rfl, contains_add_self _ _⟩
    | pmt m =>
      rw [hb] at h
      dsimp only at h ⊢
      intro he
      rw [handlePmt_eq] at h
      split at h
      · cases h
        exact ⟨rfl, fun _ => ⟨rfl, rfl⟩⟩
      · next hx =>
        cases h
        have : s.clock.hasPid = true ∧ s.clock.baseline.pid = m.pcrPid := by
          apply Classical.byContradiction
          exact fun h => hx ⟨hv, he, h⟩
        refine ⟨this.2, fun h0 => ?_⟩
        have hp : (s.clock.baseline.pid != pidNull) = true := this.1
        rw [this.2, h0] at hp
        simp at hp
    | eit e =>
      rw [hb] at h
      dsimp only at h ⊢
      intro he hne
      rw [handleEit_eq, if_pos ⟨hv, he, hne⟩] at h
      cases h
      exact .inl rfl
    | _ => trivial
  keep := by
    intro s s1 t u hA ht hne h
    have same : s1 = s → Shows o s1 t := fun e => e ▸ hA
    unfold handleTable at h
    cases hbu : u.body with
    | pat p =>
      rw [hbu] at h
      dsimp only at h
      by_cases hu : u.sourcePid = 0 ∧ u.valid = true ∧ p.tsId ≠ 0
      · have hsu := subject_usable hbu hu.2.1 hu.1 hu.2.2
        obtain ⟨q, hq, rfl⟩ := (handlePat_some hu.1 hu.2.1 hu.2.2).1 h
        cases hbt : t.body with
        | pat p' => exact absurd (hsu.trans (subject_pat hbt ht).2.2.symm) hne
        | _ =>
          unfold Shows at hA ⊢
          rw [hbt] at hA ⊢
          exact hA
      · exact same (Except.ok.inj (h.symm.trans (handlePat_ignored hu)))
    | pmt m =>
      rw [hbu] at h
      dsimp only at h
      rw [handlePmt_eq] at h
      split at h
      · next hx =>
        cases h
        have hsu := subject_pmt hbu hx.1
        cases hbt : t.body with
        | pmt m' =>
          unfold Shows
          rw [hbt]
          intro he
          rw [subject_pmt hbt (subject_valid ht), hsu] at hne
          exact absurd (by rw [he, hx.2.1]) hne
        | _ =>
          unfold Shows at hA ⊢
          rw [hbt] at hA ⊢
          exact hA
      · exact same (Except.ok.inj h).symm
    | eit e =>
      rw [hbu] at h
      dsimp only at h
      rw [handleEit_eq] at h
      split at h
      · next hx =>
        cases h
        have hsu := subject_eit hbu hx.1
        cases hbt : t.body with
        | eit e' =>
          unfold Shows
          rw [hbt]
          intro he
          rw [subject_eit hbt (subject_valid ht), hsu] at hne
          exact absurd (by rw [he, hx.2.1]) hne
        | _ =>
          unfold Shows at hA ⊢
          rw [hbt] at hA ⊢
          exact hA
      · exact same (Except.ok.inj h).symm
    | tot x =>
      rw [hbu] at h
      dsimp only [handleTot] at h
      split at h
      · exact same (Except.ok.inj h).symm
      · obtain ⟨c1, h1, h⟩ := bind_ok_iff.1 h
        cases h
        obtain ⟨k1, k2, k3⟩ := updateTime_pid h1
        cases hbt : t.body with
        | pmt m' =>
          unfold Shows at hA ⊢
          rw [hbt] at hA ⊢
          dsimp only at hA ⊢
          intro he
          obtain ⟨a1, a2⟩ := hA he
          refine ⟨k1.trans a1, fun h0 => ?_⟩
          obtain ⟨a3, a4⟩ := a2 h0
          exact ⟨k2.trans a3, (k3 a3).trans a4⟩
        | _ =>
          unfold Shows at hA ⊢
          rw [hbt] at hA ⊢
          exact hA
    | _ => rw [hbu] at h; exact same (Except.ok.inj h).symm
  like _ _ h := h
  absorb := by
    intro s s' t ht hR hA
    obtain ⟨e, hd, hc, hn⟩ := hR
    generalize s'.demux = d at e hd
    generalize s'.clock = c at e hc
    generalize s'.newEit = n at e hn
    subst e
    have hv := subject_valid ht
    unfold handleTable
    unfold Shows at hA
    cases hb : t.body with
    | pat p =>
      rw [hb] at hA
      obtain ⟨h0, h1, _⟩ := subject_pat hb ht
      obtain ⟨q, hq, a1, a2⟩ := hA
      refine ⟨_, (handlePat_some h0 hv h1).2 ⟨q, hq, rfl⟩, ?_, ?_, hc, hn⟩
      · rw [← a1]
      · intro p
        refine Eq.trans ?_ (hd p)
        show ((if s.pmtPid != pidNull then d.remove s.pmtPid else d).add q).contains p = d.contains p
        rw [a1]
        exact contains_readd (by rw [hd]; exact a2) p
    | pmt m =>
      rw [hb] at hA
      dsimp only at hA ⊢
      rw [handlePmt_eq]
      dsimp only
      rw [hc.hasPid, hc.pid]
      split
      · next hx =>
        obtain ⟨a1, a2⟩ := hA hx.2.1
        have h0 : m.pcrPid = pidNull := by
          have h1 : ¬ s.clock.hasPid = true := fun hh => hx.2.2 ⟨hh, a1⟩
          unfold Clock.hasPid ClockBaseline.hasPid at h1
          rw [a1] at h1
          simpa using h1
        obtain ⟨a3, a4⟩ := a2 h0
        refine ⟨_, rfl, rfl, hd, .inr ⟨a1.trans h0, a3, a4, false, ?_⟩, hn⟩
        show c.setPid m.pcrPid = _
        rw [hc.setPid]
        unfold Clock.setPid ClockBaseline.setPid
        generalize s.clock = k at a1 a3 a4
        obtain ⟨⟨_, _, _, _, _⟩, _, _, _, _, _⟩ := k
        dsimp only at a1 a3 a4 ⊢
        rw [a1, a3, a4]
      · exact ⟨_, rfl, rfl, hd, hc, hn⟩
    | eit e =>
      rw [hb] at hA
      dsimp only at hA ⊢
      rw [handleEit_eq]
      split
      · next hx =>
        refine ⟨_, rfl, rfl, hd, hc, ?_⟩
        rcases hA hx.2.1 hx.2.2 with h | ⟨h1, h2, h3⟩
        · exact .inl h.symm
        · exact .inr ⟨e, h1, h2, h3, hx.2.2, rfl⟩
      · exact ⟨_, rfl, rfl, hd, hc, hn⟩
    | tot x =>
      exfalso
      unfold subject at ht
      rw [if_pos hv, hb] at ht
      exact ht rfl
    | _ => exact ⟨_, rfl, rfl, hd, hc, hn⟩

/-- The PCR of a packet. -/
theorem tick_alike {s s' s1 : St} {p : Packet} (hR : Same s s') (h : tick s p = .ok s1) :
    ∃ s1', tick s' p = .ok s1' ∧ Same s1 s1' := by
  obtain ⟨e, hd, hc, hn⟩ := hR
  generalize s'.demux = d at e hd
  generalize s'.clock = c at e hc
  generalize s'.newEit = n at e hn
  subst e
  unfold tick at h ⊢
  dsimp only
  rw [hc.hasPid, hc.pid]
  split at h
  · next hx =>
    rw [if_pos hx]
    split at h
    · cases h; exact ⟨_, rfl, rfl, hd, hc, hn⟩
    · obtain ⟨c1, h1, h⟩ := bind_ok_iff.1 h
      cases h
      rcases hc with rfl | ⟨h0, _⟩
      · exact ⟨_, bind_ok_iff.2 ⟨c1, h1, rfl⟩, rfl, hd, .inl rfl, hn⟩
      · exfalso
        unfold Clock.hasPid ClockBaseline.hasPid at hx
        rw [h0] at hx
        simp at hx
  · next hx =>
    rw [if_neg hx]
    cases h
    exact ⟨_, rfl, rfl, hd, hc, hn⟩

theorem tick_shows {o : Opt} {s s1 : St} {p : Packet} {t : Table} (hA : Shows o s t) (h : tick s p = .ok s1) : Shows o s1 t := by
  unfold tick at h
  split at h
  · next hx =>
    split at h
    · cases h; exact hA
    · obtain ⟨c1, h1, h⟩ := bind_ok_iff.1 h
      cases h
      have k := updatePcr_pid h1
      cases hbt : t.body with
      | pmt m' =>
        unfold Shows at hA ⊢
        rw [hbt] at hA ⊢
        dsimp only at hA ⊢
        intro he
        obtain ⟨a1, a2⟩ := hA he
        refine ⟨k.trans a1, fun h0 => ?_⟩
        exfalso
        unfold Clock.hasPid ClockBaseline.hasPid at hx
        rw [a1, h0] at hx
        simp at hx
      | _ =>
        unfold Shows at hA ⊢
        rw [hbt] at hA ⊢
        exact hA
  · cases h; exact hA

/-- Another clock, and other PIDs being watched. -/
def other (d : PidSet) (c : Clock) (s : St) : St := { s with demux := d, clock := c }

theorem preparing_alike {o : Opt} {s s' s1 : St} {i j : Input} {out : List Tr} (hR : Same s s') (hrec : s.recording = false)
    (hl : j.nowLocal = i.nowLocal) (h : onPreparing o s i = .ok (s1, out)) :
    ∃ s1', onPreparing o s' j = .ok (s1', out) ∧ Same s1 s1' ∧ ∀ t, Shows o s t → Shows o s1 t := by
  obtain ⟨e, hd, hc, hn⟩ := hR
  have hn : s'.newEit = s.newEit := by
    rcases hn with hn | ⟨_, _, h, _⟩
    · exact hn
    · rw [hrec] at h; cases h
  rw [hn] at e
  generalize s'.demux = d at e hd
  generalize s'.clock = c at e hc
  have e : s' = other d c s := e
  subst e
  have fin : ∀ s1 : St, s1.demux = s.demux → s1.clock = s.clock → Same s1 (other d c s1) :=
    fun s1 h1 h2 => ⟨rfl, fun p => by rw [h1]; exact hd p, by rw [h2]; exact hc, .inl rfl⟩
  unfold onPreparing at h ⊢
  have hcond : ((other d c s).clock.isReady && (other d c s).newEit.isSome) = (s.clock.isReady && s.newEit.isSome) := by
    show (c.isReady && _) = _
    rw [hc.isReady]
    rfl
  rw [hcond, hl]
  split at h
  · next hx =>
    rw [if_pos hx]
    have hsome : s.newEit.isSome = true := by
      simp only [Bool.and_eq_true] at hx
      exact hx.2
    obtain ⟨now, h1, h⟩ := bind_ok_iff.1 h
    obtain ⟨_, h2, h⟩ := bind_ok_iff.1 h
    obtain ⟨_, h3, h⟩ := bind_ok_iff.1 h
    obtain ⟨⟨ee, ev⟩, h4, h⟩ := bind_ok_iff.1 h
    have keep : ∀ (bt : Int) (bp : Nat) (st : Bool) (t : Table), Shows o s t →
        Shows o { s with eit := s.newEit, newEit := none, recording := true, boundTime := bt, boundPos := bp, started := st } t := by
      intro bt bp st t hA
      cases hbt : t.body with
      | eit e' =>
        unfold Shows at hA ⊢
        rw [hbt] at hA ⊢
        dsimp only at hA ⊢
        intro he hne
        rcases hA he hne with h | ⟨h, _⟩
        · exact .inr ⟨rfl, rfl, h⟩
        · rw [h] at hsome; cases hsome
      | _ =>
        unfold Shows at hA ⊢
        rw [hbt] at hA ⊢
        exact hA
    dsimp only at h
    split at h
    · next hy =>
      cases h
      refine ⟨other d c _, ?_, fin _ rfl rfl, keep _ _ _⟩
      refine bind_ok_iff.2 ⟨now, (hc.now _).trans h1, bind_ok_iff.2 ⟨(), h2, bind_ok_iff.2 ⟨(), h3, bind_ok_iff.2 ⟨(ee, ev), h4, ?_⟩⟩⟩⟩
      exact if_pos hy
    · next hy =>
      cases h
      refine ⟨other d c _, ?_, fin _ rfl rfl, keep _ _ _⟩
      refine bind_ok_iff.2 ⟨now, (hc.now _).trans h1, bind_ok_iff.2 ⟨(), h2, bind_ok_iff.2 ⟨(), h3, bind_ok_iff.2 ⟨(ee, ev), h4, ?_⟩⟩⟩⟩
      exact if_neg hy
  · next hx =>
    rw [if_neg hx]
    cases h
    exact ⟨_, rfl, fin _ rfl rfl, fun _ h => h⟩

/-- The EIT in force again: nothing changes. -/
theorem updateEit_alike {s s' s1 : St} {ch : Bool} {e : Option Eit} (hR : Same s s')
    (hrec : s.recording = true) (h : updateEit s = .ok (ch, e, s1)) :
    updateEit s' = .ok (ch, e, other s'.demux s'.clock s1) ∧ s1.demux = s.demux ∧ s1.clock = s.clock ∧
    (ch = true → s'.newEit = s.newEit) ∧ s1.newEit = none ∧ (∀ o t, Shows o s t → Shows o s1 t) ∧ s1.recording = true := by
  obtain ⟨e', hd, hc, hn⟩ := hR
  generalize s'.demux = d at e' hd ⊢
  generalize s'.clock = c at e' hc ⊢
  generalize s'.newEit = n at e' hn ⊢
  subst e'
  have keep : ∀ n o t, s.newEit = some n → Shows o s t → Shows o { s with eit := some n, newEit := none } t := by
    intro n o t hn hA
    cases hbt : t.body with
    | eit e' =>
      unfold Shows at hA ⊢
      rw [hbt] at hA ⊢
      dsimp only at hA ⊢
      intro he hne
      rcases hA he hne with h | ⟨h, _⟩
      · rw [hn] at h; exact .inr ⟨rfl, hrec, h⟩
      · rw [hn] at h; cases h
    | _ =>
      unfold Shows at hA ⊢
      rw [hbt] at hA ⊢
      exact hA
  unfold updateEit at h ⊢
  rcases hn with rfl | ⟨ee, h1, h2, h3, h4, rfl⟩
  · dsimp only
    split at h
    · next hn =>
      cases h
      refine ⟨?_, rfl, rfl, fun _ => rfl, hn, fun _ _ h => h, hrec⟩
      rw [hn]
      exact congrArg Except.ok (by unfold other; rw [← hn])
    · next m hm =>
      obtain ⟨⟨_, ev⟩, k1, h⟩ := bind_ok_iff.1 h
      obtain ⟨⟨_, ev'⟩, k2, h⟩ := bind_ok_iff.1 h
      rw [hm]
      dsimp only at h ⊢
      split at h
      · next hx =>
        cases h
        exact ⟨bind_ok_iff.2 ⟨_, k1, bind_ok_iff.2 ⟨_, k2, if_pos hx⟩⟩, rfl, rfl, fun _ => rfl, rfl, fun o t => keep m o t hm, hrec⟩
      · next hx =>
        cases h
        exact ⟨bind_ok_iff.2 ⟨_, k1, bind_ok_iff.2 ⟨_, k2, if_neg hx⟩⟩, rfl, rfl, fun _ => rfl, rfl, fun o t => keep m o t hm, hrec⟩
  · rw [h1] at h
    cases h
    refine ⟨?_, rfl, rfl, (fun h => by cases h), h1, fun _ _ h => h, hrec⟩
    dsimp only
    rw [h3]
    cases hev : ee.events with
    | nil => exact absurd hev h4
    | cons ev rest =>
      have g : getEvent (some ee) = .ok (ee, ev) := by unfold getEvent; dsimp only; rw [hev]
      refine bind_ok_iff.2 ⟨_, g, bind_ok_iff.2 ⟨_, g, (if_neg (by simp)).trans ?_⟩⟩
      rw [← h3]
      exact congrArg Except.ok (by unfold other; rw [← h1])

theorem updateEvent_alike {d : PidSet} {c : Clock} {s s1 : St} {now : Int} {ch : Bool} {e n n' : Option Eit} {out : List Tr}
    (hn : ch = true → n' = n) (h : updateEvent s now ch e n = .ok (s1, out)) :
    updateEvent (other d c s) now ch e n' = .ok (other d c s1, out) ∧
    (∃ bt bp st, s1 = { s with boundTime := bt, boundPos := bp, started := st }) := by
  unfold updateEvent at h ⊢
  cases ch with
  | true =>
    cases hn rfl
    split at h
    · next hx =>
      rw [if_pos rfl] at h
      obtain ⟨⟨e1, ev1⟩, k1, h⟩ := bind_ok_iff.1 h
      obtain ⟨⟨e2, ev2⟩, k2, h⟩ := bind_ok_iff.1 h
      cases h
      refine ⟨(if_pos hx).trans ((if_pos rfl).trans (bind_ok_iff.2 ⟨_, k1, bind_ok_iff.2 ⟨_, k2, rfl⟩⟩)), now, s.ring.ringPos, s.started, rfl⟩
    · next hx =>
      rw [if_pos rfl] at h
      obtain ⟨⟨e2, ev2⟩, k2, h⟩ := bind_ok_iff.1 h
      cases h
      exact ⟨(if_neg hx).trans ((if_pos rfl).trans (bind_ok_iff.2 ⟨_, k2, rfl⟩)), s.boundTime, s.boundPos, true, rfl⟩
  | false =>
    split at h
    · next hx =>
      rw [if_neg (by simp)] at h
      obtain ⟨⟨e1, ev1⟩, k1, h⟩ := bind_ok_iff.1 h
      dsimp only at h
      split at h
      · next hy =>
        cases h
        exact ⟨(if_pos hx).trans ((if_neg (by simp)).trans (bind_ok_iff.2 ⟨_, k1, if_pos hy⟩)), s.boundTime, s.boundPos, s.started, rfl⟩
      · next hy =>
        split at h
        · next hz =>
          cases h
          exact ⟨(if_pos hx).trans ((if_neg (by simp)).trans (bind_ok_iff.2 ⟨_, k1, (if_neg hy).trans (if_pos hz)⟩)),
            endTime ev1, s.ring.ringPos, false, rfl⟩
        · next hz =>
          cases h
          exact ⟨(if_pos hx).trans ((if_neg (by simp)).trans (bind_ok_iff.2 ⟨_, k1, (if_neg hy).trans (if_neg hz)⟩)),
            s.boundTime, s.boundPos, s.started, rfl⟩
    · next hx =>
      rw [if_neg (by simp)] at h
      cases h
      exact ⟨(if_neg hx).trans (if_neg (by simp)), s.boundTime, s.boundPos, s.started, rfl⟩

theorem expand_alike {d : PidSet} {c : Clock} {s : St} (hc : ClockAlike s.clock c) (l : Int) :
    ∀ ops, expand (other d c s) l ops = expand s l ops
  | [] => rfl
  | op :: ops => by
    have ih := expand_alike (d := d) hc l ops
    have e : ∀ pos, onEndOfChunk (other d c s) pos l = onEndOfChunk s pos l := by
      intro pos
      unfold onEndOfChunk
      rw [show (other d c s).clock.now l = s.clock.now l from hc.now l]
      rfl
    cases op with
    | notify pos => unfold expand; rw [ih, e]
    | _ => unfold expand; rw [ih]

theorem recording_alike {o : Opt} {s s' s1 : St} {i j : Input} {ok : Bool} {out : List Tr} (hR : Same s s')
    (hrec : s.recording = true) (hl : j.nowLocal = i.nowLocal) (hl2 : j.chunkLocal = i.chunkLocal) (hb : j.bytes = i.bytes)
    (h : onRecording s i = .ok (ok, s1, out)) :
    ∃ s1', onRecording s' j = .ok (ok, s1', out) ∧ Same s1 s1' ∧ ∀ t, Shows o s t → Shows o s1 t := by
  unfold onRecording at h ⊢
  obtain ⟨now, h1, h⟩ := bind_ok_iff.1 h
  obtain ⟨⟨ch, e, s2⟩, h2, h⟩ := bind_ok_iff.1 h
  obtain ⟨⟨s3, out1⟩, h3, h⟩ := bind_ok_iff.1 h
  obtain ⟨⟨ok', ring⟩, h4, h⟩ := bind_ok_iff.1 h
  obtain ⟨ops, h5, h⟩ := bind_ok_iff.1 h
  cases h
  obtain ⟨k1, k2, k3, k4, k5, k6, k7⟩ := updateEit_alike hR hrec h2
  obtain ⟨m1, bt, bp, st, m2⟩ := updateEvent_alike (d := s'.demux) (c := s'.clock) k4 h3
  have hc : ClockAlike s3.clock s'.clock := by rw [m2]; show ClockAlike s2.clock _; rw [k3]; exact hR.2.2.1
  refine ⟨other s'.demux s'.clock { s3 with ring := ring }, ?_, ⟨rfl, fun p => ?_, hc, .inl rfl⟩, fun t hA => ?_⟩
  · rw [hl, hl2, hb]
    refine bind_ok_iff.2 ⟨now, (hR.2.2.1.now _).trans h1, bind_ok_iff.2 ⟨_, k1, bind_ok_iff.2 ⟨_, m1, bind_ok_iff.2 ⟨_, h4,
      bind_ok_iff.2 ⟨ops, ?_, rfl⟩⟩⟩⟩⟩
    exact (expand_alike hc _ _).trans h5
  · show s'.demux.contains p = s3.demux.contains p
    rw [m2]
    show s'.demux.contains p = s2.demux.contains p
    rw [k2]
    exact hR.2.1 p
  · have hA := k6 o t hA
    rw [m2]
    cases hbt : t.body with
    | _ =>
      unfold Shows at hA ⊢
      rw [hbt] at hA ⊢
      exact hA

/-- The inputs `js` are the packets of `is`, with the tables `uss`, as far as these go. -/
structure Retold (is js : List Input) (uss : List (List Table)) : Prop where
  packets : js.map (fun i => { i with tables := [] }) = is.map (fun i => { i with tables := [] })
  tables : ∀ (n : Nat) (us : List Table), uss[n]? = some us → (js[n]?).map Input.tables = some us

theorem Retold.cons {i : Input} {is js : List Input} {us : List Table} {uss : List (List Table)}
    (h : Retold (i :: is) js (us :: uss)) : ∃ j js', js = j :: js' ∧ j = { i with tables := us } ∧ Retold is js' uss := by
  obtain ⟨h1, h2⟩ := h
  cases js with
  | nil => cases h1
  | cons j js =>
    rw [List.map_cons, List.map_cons, List.cons.injEq] at h1
    refine ⟨j, js, rfl, ?_, h1.2, fun n us hn => h2 (n + 1) us hn⟩
    have e : j.tables = us := Option.some.inj (h2 0 us rfl)
    obtain ⟨h3, _⟩ := h1
    obtain ⟨_, _, _, _, _, _⟩ := j
    obtain ⟨_, _, _, _, _, _⟩ := i
    cases e
    cases h3
    rfl

/-- One packet with repeated tables. -/
theorem step_repeats {o : Opt} {h : List Table} {s s' s1 : St} {i : Input} {us : List Table} {it : Item}
    (hR : Same s s') (hA : Reflects (Shows o) h s) (hs : step o s i = .ok (s1, it)) (hr : Repeats h it.handled us) :
    ∃ s1' it', step o s' { i with tables := us } = .ok (s1', it') ∧ it'.more = it.more ∧ it'.out = it.out ∧
      Same s1 s1' ∧ Reflects (Shows o) (h ++ it.handled) s1 := by
  unfold step at hs
  obtain ⟨s2, h2, hs⟩ := bind_ok_iff.1 hs
  obtain ⟨⟨s3, log⟩, h3, hs⟩ := bind_ok_iff.1 hs
  have hlog : it.handled = log := by
    dsimp only at hs
    split at hs <;> (obtain ⟨_, _, hs⟩ := bind_ok_iff.1 hs; cases hs; rfl)
  rw [hlog] at hr ⊢
  obtain ⟨s2', h2', hR2⟩ := tick_alike hR h2
  obtain ⟨s3', log', h3', hR3, hA3⟩ := feedDemux_repeats (absorbs o i.totLocal) hR2 (fun t hu => tick_shows (hA t hu) h2) h3 hr
  unfold step
  dsimp only at hs ⊢
  have hrec : s3'.recording = s3.recording := by rw [hR3.1]
  split at hs
  · next hc =>
    obtain ⟨⟨ok, s4, out⟩, h4, hs⟩ := bind_ok_iff.1 hs
    cases hs
    obtain ⟨s4', h4', hR4, hA4⟩ := recording_alike (o := o) (j := { i with tables := us }) hR3 hc rfl rfl rfl h4
    refine ⟨s4', _, bind_ok_iff.2 ⟨_, h2', bind_ok_iff.2 ⟨_, h3', (if_pos (hrec.trans hc)).trans (bind_ok_iff.2 ⟨_, h4', rfl⟩)⟩⟩,
      rfl, rfl, hR4, fun t hu => hA4 t (hA3 t hu)⟩
  · next hc =>
    obtain ⟨⟨s4, out⟩, h4, hs⟩ := bind_ok_iff.1 hs
    cases hs
    obtain ⟨s4', h4', hR4, hA4⟩ := preparing_alike (o := o) (j := { i with tables := us }) hR3 (Bool.eq_false_iff.2 hc) rfl h4
    refine ⟨s4', _, bind_ok_iff.2 ⟨_, h2', bind_ok_iff.2 ⟨_, h3',
      (if_neg (by rw [hrec]; exact hc)).trans (bind_ok_iff.2 ⟨_, h4', rfl⟩)⟩⟩,
      rfl, rfl, hR4, fun t hu => hA4 t (hA3 t hu)⟩

theorem items_grow {o : Opt} : ∀ {is : List Input} {h h1 : Hist}, foldP (sink o) is h = .ok h1 →
    ∃ its, h1.items = h.items ++ its
  | [], h, h1, hf => by cases hf; exact ⟨[], by simp⟩
  | i :: is, h, h1, hf => by
    unfold foldP at hf
    obtain ⟨⟨ok, h2⟩, hs, hf⟩ := bind_ok_iff.1 hf
    dsimp only [sink] at hs
    obtain ⟨⟨s, it⟩, _, hs⟩ := bind_ok_iff.1 hs
    cases hs
    dsimp only at hf
    split at hf
    · obtain ⟨its, h⟩ := items_grow hf
      exact ⟨it :: its, by rw [h]; simp⟩
    · cases hf
      exact ⟨[it], rfl⟩

/-- The recorder with repeated tables. -/
theorem follows_repeated {o : Opt} :
    ∀ {is js : List Input} {g g' g1 : Hist} {its : List Item} {h : List Table} {uss : List (List Table)},
    foldP (sink o) is g = .ok g1 → g1.items = g.items ++ its → Same g.st g'.st → g'.trace = g.trace →
    Reflects (Shows o) h g.st → Repeated h (its.map (·.handled)) uss → Retold is js uss →
    Follows (fun a b : Hist => Same a.st b.st ∧ b.trace = a.trace) (sink o) (sink o) is js g g'
  | [], js, g, g', g1, its, h, uss, hf, hi, hR, htr, hA, hu, ht => by
    have : js = [] := List.map_eq_nil_iff.1 ht.packets
    subst this
    trivial
  | i :: is, js, g, g', g1, its, h, uss, hf, hi, hR, htr, hA, hu, ht => by
    unfold foldP at hf
    obtain ⟨⟨ok, g2⟩, hs, hf⟩ := bind_ok_iff.1 hf
    dsimp only [sink] at hs
    obtain ⟨⟨s1, it⟩, h1, hs⟩ := bind_ok_iff.1 hs
    cases hs
    dsimp only at hf
    have hits : ∃ its', its = it :: its' ∧ (it.more = true → g1.items = (g.items ++ [it]) ++ its') := by
      split at hf
      · obtain ⟨its', hg⟩ := items_grow hf
        refine ⟨its', ?_, fun _ => hg⟩
        rw [hg] at hi
        dsimp only at hi
        rw [List.append_assoc] at hi
        exact (List.append_cancel_left hi).symm
      · next hm =>
        cases hf
        exact ⟨[], (List.append_cancel_left hi).symm, fun hx => absurd hx hm⟩
    obtain ⟨its', rfl, hi'⟩ := hits
    cases hu with
    | cons hu hus =>
      obtain ⟨j, js', rfl, rfl, ht'⟩ := ht.cons
      obtain ⟨s1', it', h1', hm, ho, hR1, hA1⟩ := step_repeats hR hA h1 hu
      show Rel _ ((sink o).handle g i) ((sink o).handle g' { i with tables := _ })
      dsimp only [sink]
      rw [h1, h1', ok_bind, ok_bind]
      refine ⟨hm, ⟨hR1, by show g'.trace ++ it'.out = g.trace ++ it.out; rw [htr, ho]⟩, fun hx => ?_⟩
      have hx : it.more = true := hx
      rw [if_pos hx] at hf
      exact follows_repeated hf (hi' hx) hR1 (by show g'.trace ++ it'.out = g.trace ++ it.out; rw [htr, ho]) hA1 hus ht'

theorem alike_sink {o : Opt} :
    Alike (fun a b : Hist => Same a.st b.st ∧ b.trace = a.trace) (sink o) (sink o) where
  finish s s' hs := by
    refine ⟨hs.1, ?_⟩
    show s'.trace ++ [.msg (.stop s'.st.ring.broken)] = s.trace ++ [.msg (.stop s.st.ring.broken)]
    rw [hs.2, hs.1.1]
  exitCode s s' hs := by
    show RingFileSink.sink.exitCode s'.st.ring = RingFileSink.sink.exitCode s.st.ring
    rw [hs.1.1]

end Mirakc.ServiceRecorder.Rep
