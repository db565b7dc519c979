import Verif.Spec.Entered
import Verif.Proof.ProgramFilter
import Verif.Proof.Received
/-
Proofs for C150.
-/
namespace Mirakc.Entered
open Mirakc.ProgramFilter Mirakc.Spec Mirakc.Spec.Entered Mirakc.Spec.ProgramFilter
open Mirakc.Spec.ServiceFilter (usablePat validPmt validTot)
open Mirakc.Spec.EventsJson (Pairwise₂)

private theorem bind_ok_iff {ε α β : Type} {x : Except ε α} {f : α → Except ε β} {b : β} :
    (x >>= f) = .ok b ↔ ∃ a, x = .ok a ∧ f a = .ok b := by
  cases x with
  | error e => constructor
               · intro h; cases h
               · rintro ⟨a, h, _⟩; cases h
  | ok a => constructor
            · intro h; exact ⟨a, rfl, h⟩
            · rintro ⟨a', h, h'⟩; cases h; exact h'

/-- The streams of a PMT that are excluded. -/
def blackOf (o : Opt) (pmt : Pmt) : PidSet := (pmt.streams.entries.filter (fun e => excluded o e.2)).map (·.1)
/-- The PMT without them. -/
def cut (o : Opt) (pmt : Pmt) : Pmt :=
  if (blackOf o pmt).isEmpty then pmt
  else { pmt with streams := pmt.streams.filter (fun e => !(blackOf o pmt).contains e.1) }

/-- Start of the event. -/
def from_ (o : Opt) (ev : Event) : Int := ev.startTime - o.startMargin
/-- End of the event. -/
def upTo (o : Opt) (ev : Event) : Int := ev.startTime + (ev.duration * 1000 + o.endMargin)

/-- The state of the filter on a broadcast that does not change. -/
structure Inv (o : Opt) (P : Nat) (m : Pmt) (e : Event) (s : St) : Prop where
  stop : s.stop = false
  retry : s.retry = false
  clockPid : s.clockPid = o.clockPid
  clockPcr : s.clockPcr = o.clockPcr
  clockTime : s.clockTime = o.clockTime
  pcrReady : s.clockPcrReady = true
  timeReady : s.clockTimeReady = true
  pmtPid : s.pmtPid = pidNull ∨ s.pmtPid = P
  pmt : s.pcrPidReady = true →
    s.pcrPid = m.pcrPid ∧ s.black = blackOf o m ∧ s.pk.pid = P ∧ s.pk.table = some (cut o m)
  ev : s.eventTimeReady = true →
    s.eventStart = from_ o e ∧ s.eventEnd = upTo o e ∧
    convertTimeToPcr (init o) (from_ o e) = .ok s.startPcr ∧ convertTimeToPcr (init o) (upTo o e) = .ok s.endPcr
  watch : 0x00 ∈ s.demux ∧ 0x12 ∈ s.demux ∧ 0x14 ∈ s.demux
  watchP : s.pmtPid = P → P ∈ s.demux

theorem inv_init (o : Opt) (P : Nat) (pmt : Pmt) (ev : Event) (hP : P ≠ 0x1FFF) : Inv o P pmt ev (init o) where
  stop := rfl
  retry := rfl
  clockPid := rfl
  clockPcr := rfl
  clockTime := rfl
  pcrReady := rfl
  timeReady := rfl
  pmtPid := .inl rfl
  pmt h := by cases h
  ev h := by cases h
  watch := by simp [init, pidTot, pidEit, pidPat]
  watchP h := absurd h.symm hP

theorem convert_eq {o : Opt} {P : Nat} {pmt : Pmt} {ev : Event} {s : St} (h : Inv o P pmt ev s) (t : Int) :
    convertTimeToPcr s t = convertTimeToPcr (init o) t := by
  simp only [convertTimeToPcr, h.pcrReady, h.timeReady, h.clockPcr, h.clockTime, init]

theorem int64_eq {x y : Int} (h : int64 x = .ok y) : y = x := by
  unfold int64 at h
  split at h
  · cases h; rfl
  · cases h

theorem updateEventTime_ok {o : Opt} {P : Nat} {pmt : Pmt} {ev : Event} {s s' : St} (h : Inv o P pmt ev s)
    (hu : updateEventTime o s ev = .ok s') :
    ∃ a b, convertTimeToPcr (init o) (from_ o ev) = .ok a ∧ convertTimeToPcr (init o) (upTo o ev) = .ok b ∧
      s' = { s with eventStart := from_ o ev, eventEnd := upTo o ev, eventTimeReady := true, startPcr := a, endPcr := b } := by
  simp only [updateEventTime, bind_ok_iff] at hu
  obtain ⟨ms, h1, d, h2, h3⟩ := hu
  cases int64_eq h1
  cases int64_eq h2
  simp only [h.pcrReady, h.timeReady, Bool.and_self, if_true] at h3
  simp only [updatePcrRange, assertThat, if_true, bind_ok_iff] at h3
  obtain ⟨_, _, _, _, _, _, a, h4, b, h5, h6⟩ := h3
  cases h6
  have c : ∀ t : Int, convertTimeToPcr (init o) t = convertTimeToPcr s t := fun t => (convert_eq h t).symm
  refine ⟨a, b, ?_, ?_, ?_⟩
  · rw [c]; simpa only [convertTimeToPcr, h.pcrReady, h.timeReady, from_] using h4
  · rw [c]; simpa only [convertTimeToPcr, h.pcrReady, h.timeReady, upTo] using h5
  · simp [from_, upTo, h.pcrReady, h.timeReady]

/-- What is known after the tables `rs`. -/
structure Knows (o : Opt) (P : Nat) (s : St) (rs : List Table) : Prop where
  pat : (∃ t ∈ rs, usablePat t ≠ none) → s.pmtPid = P
  pmt : (∃ a b, rs = a ++ b ∧ (∃ t ∈ a, usablePat t ≠ none) ∧ ∃ u ∈ b, validPmt o.sid u ≠ none) → s.pcrPidReady = true
  eit : (∃ v ∈ rs, v.sourcePid = 0x12 ∧ ∃ es, serviceEit o.sid v = some es ∧ listedIn o.eid es ≠ none) →
    s.eventTimeReady = true

/-- What tables do not change. -/
def Kept (s s' : St) : Prop :=
  s'.lastPat = s.lastPat ∧ s'.streaming = s.streaming ∧ s'.pk.cur = s.pk.cur ∧ s'.pk.count = s.pk.count

theorem find_mem {pat : Pat} {sid q : Nat} (h : pat.pmts.find? sid = some q) : (sid, q) ∈ pat.pmts.entries := by
  unfold OMap.find? at h
  have : ∀ (l : List (Nat × Nat)), l.lookup sid = some q → (sid, q) ∈ l := by
    intro l
    induction l with
    | nil => intro h; cases h
    | cons x l ih =>
      intro h
      rw [List.lookup_cons] at h
      split at h
      · rename_i e
        cases h
        rw [beq_iff_eq] at e
        subst e
        exact List.mem_cons_self
      · exact List.mem_cons_of_mem _ (ih h)
  exact this _ h

/-- One table. -/
theorem table_step {o : Opt} {P : Nat} {pmt : Pmt} {ev : Event} {T : Table → Prop} (hS : Steady o P pmt ev T)
    {s s' : St} (hi : Inv o P pmt ev s) {t : Table} (ht : T t) (h : handleTable o s t = .ok s') :
    Inv o P pmt ev s' ∧ Kept s s' ∧
      (s.pmtPid = P → s'.pmtPid = P) ∧ (s.pcrPidReady = true → s'.pcrPidReady = true) ∧
      (s.eventTimeReady = true → s'.eventTimeReady = true) ∧
      (usablePat t ≠ none → s'.pmtPid = P) ∧ (validPmt o.sid t ≠ none → s'.pcrPidReady = true) ∧
      ((∃ es, serviceEit o.sid t = some es ∧ listedIn o.eid es ≠ none) → s'.eventTimeReady = true) := by
  have triv : usablePat t = none → validPmt o.sid t = none → 
      (∀ es, serviceEit o.sid t = some es → listedIn o.eid es = none) →
      Inv o P pmt ev s ∧ Kept s s ∧
      (s.pmtPid = P → s.pmtPid = P) ∧ (s.pcrPidReady = true → s.pcrPidReady = true) ∧
      (s.eventTimeReady = true → s.eventTimeReady = true) ∧
      (usablePat t ≠ none → s.pmtPid = P) ∧ (validPmt o.sid t ≠ none → s.pcrPidReady = true) ∧
      ((∃ es, serviceEit o.sid t = some es ∧ listedIn o.eid es ≠ none) → s.eventTimeReady = true) := by
    intro a b c
    exact ⟨hi, ⟨rfl, rfl, rfl, rfl⟩, id, id, id, fun x => absurd a x, fun x => absurd b x,
      fun ⟨es, x, y⟩ => absurd (c es x) y⟩
  cases hb : t.body with
  | pat pat =>
    have e1 : validPmt o.sid t = none := by simp [validPmt, hb]
    have e2 : ∀ es, serviceEit o.sid t = some es → listedIn o.eid es = none := by simp [serviceEit, hb]
    simp only [handleTable, hb, handlePat] at h
    split at h
    · rename_i c
      cases h
      refine triv ?_ e1 e2
      simp only [usablePat, hb]
      rw [if_neg]
      rintro ⟨a, _⟩
      simp [a, pidPat] at c
    · split at h
      · rename_i _ c
        cases h
        refine triv ?_ e1 e2
        simp only [usablePat, hb]
        rw [if_neg]
        rintro ⟨_, a, _⟩
        simp [a] at c
      · split at h
        · rename_i _ _ c
          cases h
          refine triv ?_ e1 e2
          simp only [usablePat, hb]
          rw [if_neg]
          rintro ⟨_, _, a⟩
          simp [a] at c
        · rename_i c1 c2 c3
          have hu : usablePat t = some pat := by
            simp only [usablePat, hb]
            rw [if_pos]
            refine ⟨by simpa [pidPat] using c1, by simpa using c2, by simpa using c3⟩
          split at h
          · cases h
          · rename_i q hq
            cases h
            have := hS.pat t pat ht hu q (find_mem hq)
            subst this
            have hw : ∀ x, x ≠ q → x ≠ 0x1FFF → x ∈ s.demux →
                x ∈ ((if s.pmtPid != pidNull then s.demux.remove s.pmtPid else s.demux).add q : PidSet) := by
              intro x h1 h2 h3
              refine List.mem_cons_of_mem _ ?_
              split
              · refine List.mem_filter.2 ⟨h3, ?_⟩
                rcases hi.pmtPid with e | e <;> simp [e, h1, pidNull, h2]
              · exact h3
            refine ⟨⟨hi.stop, hi.retry, hi.clockPid, hi.clockPcr, hi.clockTime, hi.pcrReady, hi.timeReady, .inr rfl,
              hi.pmt, hi.ev, ⟨hw _ hS.pid.1.symm (by decide) hi.watch.1, hw _ hS.pid.2.1.symm (by decide) hi.watch.2.1,
                hw _ hS.pid.2.2.1.symm (by decide) hi.watch.2.2⟩, fun _ => List.mem_cons_self⟩,
              ⟨rfl, rfl, rfl, rfl⟩, fun _ => rfl, id, id, fun _ => rfl, fun x => absurd e1 x,
              fun ⟨es, x, y⟩ => absurd (e2 es x) y⟩
  | pmt p =>
    have e1 : usablePat t = none := by simp [usablePat, hb]
    have e2 : ∀ es, serviceEit o.sid t = some es → listedIn o.eid es = none := by simp [serviceEit, hb]
    simp only [handleTable, hb, handlePmt] at h
    split at h
    · rename_i c
      cases h
      refine triv e1 ?_ e2
      simp only [validPmt, hb]
      rw [if_neg]
      rintro ⟨a, _⟩
      simp [a] at c
    · split at h
      · rename_i _ c
        cases h
        refine triv e1 ?_ e2
        simp only [validPmt, hb]
        rw [if_neg]
        rintro ⟨_, a⟩
        simp [a] at c
      · rename_i c1 c2
        have hu : validPmt o.sid t = some p := by
          simp only [validPmt, hb]
          rw [if_pos]
          exact ⟨by simpa using c1, by simpa using c2⟩
        obtain ⟨rfl, hsrc⟩ := hS.pmt t p ht hu
        have hck : (s.clockPid != p.pcrPid) = false := by
          rw [hi.clockPid, hS.clock]; simp
        simp only [hck, Bool.false_eq_true, if_false] at h
        cases h
        refine ⟨⟨hi.stop, hi.retry, hi.clockPid, hi.clockPcr, hi.clockTime, hi.pcrReady, hi.timeReady, hi.pmtPid,
          fun _ => ⟨rfl, rfl, hsrc, rfl⟩, hi.ev, hi.watch, hi.watchP⟩,
          ⟨rfl, rfl, rfl, rfl⟩, id, fun _ => rfl, id, fun x => absurd e1 x, fun _ => rfl,
          fun ⟨es, x, y⟩ => absurd (e2 es x) y⟩
  | eit eit =>
    have e1 : usablePat t = none := by simp [usablePat, hb]
    have e2 : validPmt o.sid t = none := by simp [validPmt, hb]
    have calm := hS.calm t ht
    have he := hS.eit t
    simp only [handleTable, hb, handleEit] at h
    split at h
    · rename_i c
      cases h
      refine triv e1 e2 ?_
      intro es hes
      simp only [serviceEit, hb] at hes
      rw [if_neg] at hes
      · cases hes
      · rintro ⟨a, _⟩; simp [a] at c
    · split at h
      · rename_i _ c
        cases h
        refine triv e1 e2 ?_
        intro es hes
        simp only [serviceEit, hb] at hes
        rw [if_neg] at hes
        · cases hes
        · rintro ⟨_, a⟩; simp [a] at c
      · rename_i c1 c2
        have hu : serviceEit o.sid t = some eit.events := by
          simp only [serviceEit, hb]
          rw [if_pos]
          exact ⟨by simpa using c1, by simpa using c2⟩
        have upd : ∀ e, listedIn o.eid eit.events = some e → updateEventTime o s e = .ok s' → 
            Inv o P pmt ev s' ∧ Kept s s' ∧
            (s.pmtPid = P → s'.pmtPid = P) ∧ (s.pcrPidReady = true → s'.pcrPidReady = true) ∧
            (s.eventTimeReady = true → s'.eventTimeReady = true) ∧
            (usablePat t ≠ none → s'.pmtPid = P) ∧ (validPmt o.sid t ≠ none → s'.pcrPidReady = true) ∧
            ((∃ es, serviceEit o.sid t = some es ∧ listedIn o.eid es ≠ none) → s'.eventTimeReady = true) := by
          intro e hl h
          have := he _ e ht hu hl
          subst this
          obtain ⟨a, b, h1, h2, rfl⟩ := updateEventTime_ok hi h
          exact ⟨⟨hi.stop, hi.retry, hi.clockPid, hi.clockPcr, hi.clockTime, hi.pcrReady, hi.timeReady, hi.pmtPid,
            hi.pmt, fun _ => ⟨rfl, rfl, h1, h2⟩, hi.watch, hi.watchP⟩, ⟨rfl, rfl, rfl, rfl⟩, id, id, fun _ => rfl,
            fun x => absurd e1 x, fun x => absurd e2 x, fun _ => rfl⟩
        have none : listedIn o.eid eit.events = none → s' = s → 
            Inv o P pmt ev s' ∧ Kept s s' ∧
            (s.pmtPid = P → s'.pmtPid = P) ∧ (s.pcrPidReady = true → s'.pcrPidReady = true) ∧
            (s.eventTimeReady = true → s'.eventTimeReady = true) ∧
            (usablePat t ≠ none → s'.pmtPid = P) ∧ (validPmt o.sid t ≠ none → s'.pcrPidReady = true) ∧
            ((∃ es, serviceEit o.sid t = some es ∧ listedIn o.eid es ≠ none) → s'.eventTimeReady = true) := by
          rintro hn rfl
          refine triv e1 e2 fun es hes => ?_
          rw [hu] at hes; cases hes; exact hn
        split at h
        · rename_i hes
          exact absurd (.inl (by rw [hu, hes])) calm
        · rename_i present rest hes
          split at h
          · rename_i hp
            refine upd present ?_ h
            rw [hes]
            simp [listedIn, beq_iff_eq.1 hp]
          · rename_i hp
            have hp : ¬ present.eventId = o.eid := fun e => hp (by simp [e])
            split at h
            · have hn : listedIn o.eid eit.events = Option.none := by rw [hes]; simp [listedIn, hp]
              split at h
              · cases h; exact none hn rfl
              · exact absurd (.inr (.inl ⟨id, _, hu, hn, .inl (by rw [hes]; simp)⟩)) calm
            · rename_i following rest'
              split at h
              · rename_i hf
                refine upd following ?_ h
                rw [hes]
                simp [listedIn, hp, beq_iff_eq.1 hf]
              · rename_i hf
                have hf : ¬ following.eventId = o.eid := fun e => hf (by simp [e])
                have hn : listedIn o.eid eit.events = Option.none := by rw [hes]; simp [listedIn, hp, hf]
                split at h
                · cases h; exact none hn rfl
                · split at h
                  · rename_i hw
                    exact absurd (.inr (.inl ⟨id, _, hu, hn, .inr (by simpa using hw)⟩)) calm
                  · cases h; exact none hn rfl
  | tot time =>
    have e1 : usablePat t = none := by simp [usablePat, hb]
    have e2 : validPmt o.sid t = none := by simp [validPmt, hb]
    have e3 : ∀ es, serviceEit o.sid t = some es → listedIn o.eid es = none := by simp [serviceEit, hb]
    have calm := hS.calm t ht
    simp only [handleTable, hb, handleTot] at h
    split at h
    · cases h; exact triv e1 e2 e3
    · rename_i c
      have hv : validTot t = some time := by simp [validTot, hb]; simpa using c
      have hc : checkTimeLimit o s time = s := by
        unfold checkTimeLimit
        split
        · rfl
        · rename_i l hl
          split
          · rename_i hlt
            exact absurd (.inr (.inr ⟨id, time, l, hv, hl, hlt⟩)) calm
          · rfl
      simp only [hc, ite_self, hi.timeReady, if_true] at h
      cases h
      exact triv e1 e2 e3
  | cat | nit | sdt | other =>
    simp only [handleTable, hb] at h
    cases h
    exact triv (by simp [usablePat, hb]) (by simp [validPmt, hb]) (by simp [serviceEit, hb])

theorem Kept.refl (s : St) : Kept s s := ⟨rfl, rfl, rfl, rfl⟩
theorem Kept.trans {a b c : St} (h : Kept a b) (g : Kept b c) : Kept a c :=
  ⟨g.1.trans h.1, g.2.1.trans h.2.1, g.2.2.1.trans h.2.2.1, g.2.2.2.trans h.2.2.2⟩

theorem Knows.snoc {o : Opt} {P : Nat} {s s' : St} {rs : List Table} {t : Table} (h : Knows o P s rs)
    (a1 : s.pmtPid = P → s'.pmtPid = P) (a2 : s.pcrPidReady = true → s'.pcrPidReady = true)
    (a3 : s.eventTimeReady = true → s'.eventTimeReady = true) (b1 : usablePat t ≠ none → s'.pmtPid = P)
    (b2 : s.pmtPid = P → validPmt o.sid t ≠ none → s'.pcrPidReady = true)
    (b3 : t.sourcePid = 0x12 → (∃ es, serviceEit o.sid t = some es ∧ listedIn o.eid es ≠ none) → s'.eventTimeReady = true) :
    Knows o P s' (rs ++ [t]) where
  pat := by
    rintro ⟨u, hu, hn⟩
    rcases List.mem_append.1 hu with hu | hu
    · exact a1 (h.pat ⟨u, hu, hn⟩)
    · rw [List.mem_singleton] at hu
      subst hu
      exact b1 hn
  pmt := by
    rintro ⟨a, b, e, hp, u, hu, hn⟩
    rcases List.eq_nil_or_concat b with rfl | ⟨b', x, rfl⟩
    · cases hu
    · rw [List.concat_eq_append, ← List.append_assoc] at e
      obtain ⟨e1, e2⟩ := List.append_inj' e rfl
      cases e2
      rw [List.concat_eq_append] at hu
      rcases List.mem_append.1 hu with hu | hu
      · exact a2 (h.pmt ⟨a, b', e1, hp, u, hu, hn⟩)
      · rw [List.mem_singleton] at hu
        subst hu
        obtain ⟨v, hv, hvn⟩ := hp
        exact b2 (h.pat ⟨v, by rw [e1]; exact List.mem_append_left _ hv, hvn⟩) hn
  eit := by
    rintro ⟨u, hu, hs, hn⟩
    rcases List.mem_append.1 hu with hu | hu
    · exact a3 (h.eit ⟨u, hu, hs, hn⟩)
    · rw [List.mem_singleton] at hu
      subst hu
      exact b3 hs hn

/-- The tables of one packet. -/
theorem feed_step {o : Opt} {P : Nat} {pmt : Pmt} {ev : Event} {T : Table → Prop} (hS : Steady o P pmt ev T)
    (pid : Nat) : ∀ (ts : List Table) (s s' : St) (log rs : List Table), (∀ t ∈ ts, T t) → Inv o P pmt ev s →
      Knows o P s rs → feedDemux St.demux (handleTable o) pid ts s = .ok (s', log) →
      Inv o P pmt ev s' ∧ Knows o P s' (rs ++ ts.filter (·.sourcePid == pid)) ∧ Kept s s' ∧
        (s.pmtPid = P → s'.pmtPid = P) ∧ (s.pcrPidReady = true → s'.pcrPidReady = true) ∧
        (s.eventTimeReady = true → s'.eventTimeReady = true) := by
  intro ts
  induction ts with
  | nil =>
    intro s s' log rs _ hi hk h
    simp only [feedDemux, Except.ok.injEq, Prod.mk.injEq] at h
    obtain ⟨rfl, _⟩ := h
    exact ⟨hi, by simpa using hk, Kept.refl _, id, id, id⟩
  | cons t ts ih =>
    intro s s' log rs hT hi hk h
    have hT' : ∀ t ∈ ts, T t := fun u hu => hT u (List.mem_cons_of_mem _ hu)
    have ht := hT t List.mem_cons_self
    rw [feedDemux] at h
    split at h
    · rename_i hc
      rw [Bool.and_eq_true, beq_iff_eq] at hc
      simp only [bind_ok_iff] at h
      obtain ⟨s1, h1, ⟨s2, l2⟩, h2, h3⟩ := h
      cases h3
      obtain ⟨i1, k1, a1, a2, a3, b1, b2, b3⟩ := table_step hS hi ht h1
      obtain ⟨i2, k2, q, c1, c2, c3⟩ := ih s1 _ _ (rs ++ [t]) hT' i1
        (hk.snoc a1 a2 a3 b1 (fun _ => b2) (fun _ => b3)) h2
      refine ⟨i2, ?_, k1.trans q, c1 ∘ a1, c2 ∘ a2, c3 ∘ a3⟩
      rw [List.filter_cons_of_pos (by simp [hc.1])]
      simpa using k2
    · rename_i hc
      by_cases hp : t.sourcePid = pid
      · have hw : pid ∉ s.demux := by
          intro hw
          exact hc (by simp [hp, hw])
        have hk' : Knows o P s (rs ++ [t]) := by
          refine hk.snoc id id id ?_ ?_ ?_
          · intro hn
            exfalso
            obtain ⟨p, hn⟩ := Option.ne_none_iff_exists'.1 hn
            unfold usablePat at hn
            split at hn
            · split at hn
              · rename_i hx
                exact hw (by rw [← hp, hx.1]; exact hi.watch.1)
              · cases hn
            · cases hn
          · intro hP hn
            exfalso
            obtain ⟨p, hn⟩ := Option.ne_none_iff_exists'.1 hn
            have := (hS.pmt t p ht hn).2
            exact hw (by rw [← hp, this]; exact hi.watchP hP)
          · intro h12
            exfalso
            exact hw (by rw [← hp, h12]; exact hi.watch.2.1)
        obtain ⟨i2, k2, q, c⟩ := ih s _ _ (rs ++ [t]) hT' hi hk' h
        refine ⟨i2, ?_, q, c⟩
        rw [List.filter_cons_of_pos (by simp [hp])]
        simpa using k2
      · obtain ⟨i2, k2, q, c⟩ := ih s _ _ rs hT' hi hk h
        refine ⟨i2, ?_, q, c⟩
        rw [List.filter_cons_of_neg (by simp [hp])]
        exact k2

/-- Everything is known. -/
def Full (P : Nat) (s : St) : Prop := s.pmtPid = P ∧ s.pcrPidReady = true ∧ s.eventTimeReady = true

/-- Other packets of the PAT, and another demultiplexer. -/
def put (s : St) (d : PidSet) (l : List Packet) : St := { s with demux := d, lastPat := l }

theorem eq_put {o : Opt} {P : Nat} {pmt : Pmt} {ev : Event} {s s' : St} (hi : Inv o P pmt ev s) (hi' : Inv o P pmt ev s')
    (hf : Full P s) (hf' : Full P s') (h1 : s'.streaming = s.streaming) (h2 : s'.pk.cur = s.pk.cur)
    (h3 : s'.pk.count = s.pk.count) : s' = put s s'.demux s'.lastPat := by
  obtain ⟨a1, a2, a3, a4⟩ := hi.pmt hf.2.1
  obtain ⟨b1, b2, b3, b4⟩ := hi'.pmt hf'.2.1
  obtain ⟨c1, c2, c3, c4⟩ := hi.ev hf.2.2
  obtain ⟨d1, d2, d3, d4⟩ := hi'.ev hf'.2.2
  rw [c3] at d3
  rw [c4] at d4
  injection d3 with d3
  injection d4 with d4
  have hk : s'.pk = s.pk := by
    have : ∀ a b : Packetizer, a.pid = b.pid → a.table = b.table → a.cur = b.cur → a.count = b.count → a = b := by
      rintro ⟨⟩ ⟨⟩ h1 h2 h3 h4
      simp only at h1 h2 h3 h4
      rw [h1, h2, h3, h4]
    exact this _ _ (b3.trans a3.symm) (b4.trans a4.symm) h2 h3
  have e1 := hi'.clockPid.trans hi.clockPid.symm
  have e2 := hi'.clockPcr.trans hi.clockPcr.symm
  have e3 := hi'.clockTime.trans hi.clockTime.symm
  have e4 := hi'.pcrReady.trans hi.pcrReady.symm
  have e5 := hi'.timeReady.trans hi.timeReady.symm
  have e6 := hi'.stop.trans hi.stop.symm
  have e7 := hi'.retry.trans hi.retry.symm
  have e8 := hf'.1.trans hf.1.symm
  have e9 := hf'.2.1.trans hf.2.1.symm
  have e10 := hf'.2.2.trans hf.2.2.symm
  have f1 := b1.trans a1.symm
  have f2 := b2.trans a2.symm
  have g1 := d1.trans c1.symm
  have g2 := d2.trans c2.symm
  clear hi hi' hf hf' a1 a2 a3 a4 b1 b2 b3 b4 c1 c2 c3 c4 d1 d2
  cases s
  cases s'
  simp only [put] at *
  subst_vars
  rfl

theorem nextPmt_put {extra : Pmt → Nat} {s s1 : St} {x : Out} (h : nextPmt extra s = .ok (x, s1)) (d : PidSet)
    (l : List Packet) : nextPmt extra (put s d l) = .ok (x, put s1 d l) ∧
      (∃ c n, s1 = { s with pk := { s.pk with cur := c, count := n } }) ∧ ∃ q t i n, x = .pmt q t i n := by
  simp only [nextPmt, bind_ok_iff] at h
  obtain ⟨⟨y, pk⟩, h1, u, h2, h3⟩ := h
  cases h3
  refine ⟨?_, ?_⟩
  · simp only [nextPmt, put, bind_ok_iff]
    exact ⟨(_, pk), h1, u, h2, rfl⟩
  · unfold Packetizer.next at h1
    split at h1
    · cases h1
    · cases h1
      exact ⟨⟨_, _, rfl⟩, _, _, _, _, rfl⟩

theorem sendCycle_put {extra : Pmt → Nat} : ∀ (fuel : Nat) {s s1 : St} {xs : List Out},
    sendCycle extra fuel s = .ok (xs, s1) → ∀ (d : PidSet) (l : List Packet),
      sendCycle extra fuel (put s d l) = .ok (xs, put s1 d l) ∧
      (∃ c n, s1 = { s with pk := { s.pk with cur := c, count := n } }) ∧
      (∃ x ∈ xs, ∀ p, x ≠ .orig p) ∧ ∀ x ∈ xs, ∃ q t i n, x = .pmt q t i n := by
  intro fuel
  induction fuel with
  | zero => intro s s1 xs h; cases h
  | succ fuel ih =>
    intro s s1 xs h d l
    simp only [sendCycle, bind_ok_iff] at h
    obtain ⟨⟨x, s2⟩, h1, h2⟩ := h
    obtain ⟨n1, ⟨c, n, n2⟩, q, t, i, k, n3⟩ := nextPmt_put h1 d l
    have hx : ∃ y ∈ [x], ∀ p, y ≠ .orig p := ⟨x, List.mem_singleton.2 rfl, by intro p; rw [n3]; intro h; cases h⟩
    split at h2
    · rename_i hc
      cases h2
      refine ⟨?_, ⟨c, n, n2⟩, hx, ?_⟩
      · simp only [sendCycle, bind_ok_iff]
        refine ⟨_, n1, ?_⟩
        rw [if_pos (by exact hc)]
      · intro y hy
        rw [List.mem_singleton] at hy
        exact ⟨q, t, i, k, by rw [hy, n3]⟩
    · rename_i hc
      simp only [bind_ok_iff] at h2
      obtain ⟨⟨ys, s3⟩, h3, h4⟩ := h2
      cases h4
      obtain ⟨m1, ⟨c', n', m2⟩, _, m4⟩ := ih h3 d l
      refine ⟨?_, ⟨c', n', by rw [m2, n2]⟩, ⟨x, List.mem_cons_self, by intro p; rw [n3]; intro h; cases h⟩, ?_⟩
      · simp only [sendCycle, bind_ok_iff]
        refine ⟨_, n1, ?_⟩
        rw [if_neg (by exact hc)]
        simp only [bind_ok_iff]
        exact ⟨_, m1, rfl⟩
      · intro y hy
        rcases List.mem_cons.1 hy with rfl | hy
        · exact ⟨q, t, i, k, n3⟩
        · exact m4 y hy

/-- What a packet changes. -/
def Moved (s s' : St) : Prop :=
  ∃ l c n b, s' = { s with lastPat := l, pk := { s.pk with cur := c, count := n }, streaming := b }

theorem Moved.refl (s : St) : Moved s s := ⟨_, _, _, _, rfl⟩

theorem Moved.inv {o : Opt} {P : Nat} {pmt : Pmt} {ev : Event} {s s' : St} (h : Moved s s') (hi : Inv o P pmt ev s) :
    Inv o P pmt ev s' := by
  obtain ⟨l, c, n, b, rfl⟩ := h
  exact ⟨hi.stop, hi.retry, hi.clockPid, hi.clockPcr, hi.clockTime, hi.pcrReady, hi.timeReady, hi.pmtPid, hi.pmt, hi.ev,
    hi.watch, hi.watchP⟩

theorem Moved.full {P : Nat} {s s' : St} (h : Moved s s') (hi : Full P s) : Full P s' := by
  obtain ⟨l, c, n, b, rfl⟩ := h
  exact hi

theorem Moved.knows {o : Opt} {P : Nat} {s s' : St} {rs : List Table} (h : Moved s s') (hi : Knows o P s rs) :
    Knows o P s' rs := by
  obtain ⟨l, c, n, b, rfl⟩ := h
  exact ⟨hi.pat, hi.pmt, hi.eit⟩

theorem savePat_moved (s : St) (p : Packet) : Moved s (savePat s p) := by
  unfold savePat
  split
  · exact ⟨_, _, _, _, rfl⟩
  · exact Moved.refl s

theorem savePat_kept (s : St) (p : Packet) : (savePat s p).pk = s.pk ∧ (savePat s p).streaming = s.streaming := by
  unfold savePat
  split <;> exact ⟨rfl, rfl⟩

theorem sync_id {o : Opt} {P : Nat} {pmt : Pmt} {ev : Event} {s : St} (hi : Inv o P pmt ev s) (pcr : Int) :
    syncClock s pcr = .ok s ∧ needClockSync s = false := by
  have : needClockSync s = false := by simp [needClockSync, hi.pcrReady, hi.timeReady]
  exact ⟨by simp [syncClock, this], this⟩

/-- The outcome of waiting. -/
theorem waitStart_cases {o : Opt} {P : Nat} {pmt : Pmt} {ev : Event} {s s' : St} (hi : Inv o P pmt ev s) {p : Packet}
    {r : Option (List Out × Bool)} (h : waitStart o s p = .ok (s', r)) :
    (p.pid = 0 ∧ o.preStreaming = true ∧ s' = s ∧ r = some ([.orig p], true)) ∨
    (¬ (p.pid = 0 ∧ o.preStreaming = true) ∧ s' = savePat s p ∧
      ((((s.pcrPidReady = false ∨ s.eventTimeReady = false) ∨ p.pid ≠ s.pcrPid ∨ p.pcr = none) ∧ r = some ([], true)) ∨
        (s.pcrPidReady = true ∧ s.eventTimeReady = true ∧ p.pid = s.pcrPid ∧ ∃ pcr c, p.pcr = some pcr ∧
          comparePcr pcr s.endPcr = .ok c ∧
          ((c ≥ 0 ∧ r = some ([], false)) ∨
            (¬ c ≥ 0 ∧ ∃ c2, comparePcr pcr s.startPcr = .ok c2 ∧
              ((c2 < 0 ∧ r = some ([], true)) ∨
                (¬ c2 < 0 ∧ assertThat (o.preStreaming || !s'.lastPat.isEmpty) = .ok () ∧ r = none))))))) := by
  obtain ⟨l, c0, n, b, e⟩ := savePat_moved s p
  have hi1 : Inv o P pmt ev (savePat s p) := (savePat_moved s p).inv hi
  have f : (savePat s p).pcrPidReady = s.pcrPidReady ∧ (savePat s p).eventTimeReady = s.eventTimeReady ∧
      (savePat s p).pcrPid = s.pcrPid ∧ (savePat s p).endPcr = s.endPcr ∧ (savePat s p).startPcr = s.startPcr := by
    rw [e]; exact ⟨rfl, rfl, rfl, rfl, rfl⟩
  obtain ⟨f1, f2, f3, f4, f5⟩ := f
  simp only [waitStart, hi.stop, Bool.false_eq_true, if_false] at h
  split at h
  · rename_i hp
    rw [Bool.and_eq_true, beq_iff_eq] at hp
    cases h
    exact .inl ⟨hp.1, hp.2, rfl, rfl⟩
  · rename_i hp
    refine .inr ⟨fun ⟨a, b⟩ => hp (by simp [a, b, pidPat]), ?_⟩
    rw [f1, f2, f3] at h
    split at h
    · rename_i hr
      cases h
      refine ⟨rfl, .inl ⟨.inl ?_, rfl⟩⟩
      simpa using hr
    · rename_i hr
      have hr : s.pcrPidReady = true ∧ s.eventTimeReady = true := by simpa using hr
      split at h
      · rename_i hq
        cases h
        exact ⟨rfl, .inl ⟨.inr (.inl (by simpa using hq)), rfl⟩⟩
      · rename_i hq
        have hq : p.pid = s.pcrPid := by simpa using hq
        split at h
        · rename_i hn
          cases h
          exact ⟨rfl, .inl ⟨.inr (.inr hn), rfl⟩⟩
        · rename_i pcr hn
          simp only [bind_ok_iff] at h
          obtain ⟨s1, h1, h⟩ := h
          rw [(sync_id hi1 pcr).1] at h1
          cases h1
          simp only [(sync_id hi1 pcr).2, Bool.false_eq_true, if_false, f4, f5, bind_ok_iff] at h
          obtain ⟨c, hc, h⟩ := h
          split at h
          · rename_i hge
            cases h
            exact ⟨rfl, .inr ⟨hr.1, hr.2, hq, pcr, c, hn, hc, .inl ⟨hge, rfl⟩⟩⟩
          · rename_i hge
            simp only [bind_ok_iff] at h
            obtain ⟨c2, hc2, h⟩ := h
            split at h
            · rename_i hlt
              cases h
              exact ⟨rfl, .inr ⟨hr.1, hr.2, hq, pcr, c, hn, hc, .inr ⟨hge, c2, hc2, .inl ⟨hlt, rfl⟩⟩⟩⟩
            · rename_i hlt
              simp only [bind_ok_iff] at h
              obtain ⟨u, hu, h⟩ := h
              cases h
              exact ⟨rfl, .inr ⟨hr.1, hr.2, hq, pcr, c, hn, hc, .inr ⟨hge, c2, hc2, .inr ⟨hlt, hu, rfl⟩⟩⟩⟩

/-- Waiting goes on, or the programme starts. -/
theorem waitReady_cases {extra : Pmt → Nat} {o : Opt} {s s' : St} {p : Packet} {outs : List Out} {more : Bool}
    (h : waitReady extra o s p = .ok (s', outs, more)) :
    waitStart o s p = .ok (s', some (outs, more)) ∨
    ∃ s1 s2 pmts fuel, waitStart o s p = .ok (s1, none) ∧
      fuel = ((s1.pk.cur.map (extra ·.1)).getD 0) + ((s1.pk.table.map extra).getD 0) + 1 ∧
      sendCycle extra fuel (if o.preStreaming then s1 else { s1 with lastPat := [] }) = .ok (pmts, s2) ∧
      s' = { s2 with streaming := true } ∧ outs = pendingPat o s1 ++ pmts ++ [.orig p] ∧ more = true := by
  simp only [waitReady, bind_ok_iff] at h
  obtain ⟨⟨s1, r⟩, h1, h2⟩ := h
  cases r with
  | some r =>
    obtain ⟨o1, m1⟩ := r
    cases h2
    exact .inl h1
  | none =>
    simp only [bind_ok_iff] at h2
    obtain ⟨⟨pmts, s2⟩, h3, h4⟩ := h2
    cases h4
    refine .inr ⟨s1, s2, pmts, _, h1, rfl, ?_, rfl, rfl, rfl⟩
    rw [← h3]
    split <;> rfl

theorem wait_moved {extra : Pmt → Nat} {o : Opt} {P : Nat} {pmt : Pmt} {ev : Event} {s s' : St} (hi : Inv o P pmt ev s)
    {p : Packet} {outs : List Out} {more : Bool} (h : waitReady extra o s p = .ok (s', outs, more)) : Moved s s' := by
  rcases waitReady_cases h with h | ⟨s1, s2, pmts, fuel, h1, _, h2, rfl, _, _⟩
  · rcases waitStart_cases hi h with ⟨_, _, e, _⟩ | ⟨_, e, _⟩
    · rw [e]; exact Moved.refl s
    · rw [e]; exact savePat_moved s p
  · have hm : Moved s s1 := by
      rcases waitStart_cases hi h1 with ⟨_, _, e, _⟩ | ⟨_, e, _⟩
      · rw [e]; exact Moved.refl s
      · rw [e]; exact savePat_moved s p
    obtain ⟨l, c, n, b, rfl⟩ := hm
    obtain ⟨_, ⟨c', n', e⟩, _⟩ := sendCycle_put fuel h2 [] []
    rw [e]
    split <;> exact ⟨_, _, _, _, rfl⟩

theorem stream_moved {extra : Pmt → Nat} {o : Opt} {P : Nat} {pmt : Pmt} {ev : Event} {s s' : St} (hi : Inv o P pmt ev s)
    {p : Packet} {outs : List Out} {more : Bool} (h : doStreaming extra s p = .ok (s', outs, more)) : Moved s s' := by
  have fwd : forward extra s p = .ok (s', outs, more) → Moved s s' := by
    intro h
    unfold forward at h
    split at h
    · simp only [bind_ok_iff] at h
      obtain ⟨⟨x, s1⟩, h1, h2⟩ := h
      cases h2
      obtain ⟨_, ⟨c, n, e⟩, _⟩ := nextPmt_put h1 [] []
      rw [e]; exact ⟨_, _, _, _, rfl⟩
    · split at h <;> (cases h; exact Moved.refl s)
  simp only [doStreaming, hi.stop, Bool.false_eq_true, if_false] at h
  split at h
  · split at h
    · cases h; exact Moved.refl s
    · rename_i pcr hp
      simp only [(sync_id hi pcr).1, bind_ok_iff] at h
      obtain ⟨s1, h1, h⟩ := h
      cases h1
      simp only [(sync_id hi pcr).2, Bool.false_eq_true, if_false, bind_ok_iff] at h
      obtain ⟨c, hc, h⟩ := h
      split at h
      · cases h; exact Moved.refl s
      · exact fwd h
  · exact fwd h

theorem pw_append {α β : Type} {R : α → β → Prop} {a a' : List α} {b b' : List β} (h : Pairwise₂ R a b)
    (h' : Pairwise₂ R a' b') : Pairwise₂ R (a ++ a') (b ++ b') := by
  induction h with
  | nil => exact h'
  | cons x _ ih => exact .cons x ih

theorem pw_one {α β : Type} {R : α → β → Prop} {a : α} {b : β} (h : R a b) : Pairwise₂ R [a] [b] := .cons h .nil

theorem pw_orig {a b : List Packet} (h : Pairwise₂ Alike a b) :
    Pairwise₂ AlikeOut (a.map Out.orig) (b.map Out.orig) := by
  induction h with
  | nil => exact .nil
  | cons x _ ih => exact .cons x ih

theorem pw_pmts {xs : List Out} (h : ∀ x ∈ xs, ∃ q t i n, x = .pmt q t i n) : Pairwise₂ AlikeOut xs xs := by
  induction xs with
  | nil => exact .nil
  | cons x xs ih =>
    refine .cons ?_ (ih fun y hy => h y (List.mem_cons_of_mem _ hy))
    obtain ⟨q, t, i, n, rfl⟩ := h x List.mem_cons_self
    rfl

theorem save_alike {s s' : St} {p p' : Packet} (h : Pairwise₂ Alike s.lastPat s'.lastPat) (hp : Alike p p') :
    Pairwise₂ Alike (savePat s p).lastPat (savePat s' p').lastPat := by
  unfold savePat
  rw [hp.1, hp.2.1]
  split
  · show Pairwise₂ Alike ((if p.pusi then [] else s.lastPat) ++ [p]) ((if p.pusi then [] else s'.lastPat) ++ [p'])
    refine pw_append ?_ (pw_one hp)
    split
    · exact .nil
    · exact h
  · exact h

/-- Both filters are in the same state. -/
structure Rel (o : Opt) (P : Nat) (m : Pmt) (e : Event) (s s' : St) : Prop where
  inv : Inv o P m e s
  inv' : Inv o P m e s'
  full : Full P s
  full' : Full P s'
  streaming : s'.streaming = s.streaming
  cur : s'.pk.cur = s.pk.cur
  count : s'.pk.count = s.pk.count
  pats : Pairwise₂ Alike s.lastPat s'.lastPat

theorem pw_isEmpty {α β : Type} {R : α → β → Prop} {a : List α} {b : List β} (h : Pairwise₂ R a b) :
    b.isEmpty = a.isEmpty := by
  cases h <;> rfl

theorem waitStart_rel {o : Opt} {P : Nat} {m : Pmt} {e : Event} {s s' t t' : St} (h : Rel o P m e s s') {p p' : Packet}
    (hp : Alike p p') {r r' : Option (List Out × Bool)} (h1 : waitStart o s p = .ok (t, r))
    (h2 : waitStart o s' p' = .ok (t', r')) :
    Pairwise₂ Alike t.lastPat t'.lastPat ∧ t.pk = s.pk ∧ t'.pk = s'.pk ∧ t.streaming = s.streaming ∧
      t'.streaming = s'.streaming ∧
      ((r = none ∧ r' = none) ∨ ∃ x x' y, r = some (x, y) ∧ r' = some (x', y) ∧ Pairwise₂ AlikeOut x x') := by
  obtain ⟨d, l, e⟩ : ∃ d l, s' = put s d l := ⟨_, _, eq_put h.inv h.inv' h.full h.full' h.streaming h.cur h.count⟩
  have f1 : s'.pcrPid = s.pcrPid := by rw [e]; rfl
  have f2 : s'.endPcr = s.endPcr := by rw [e]; rfl
  have f3 : s'.startPcr = s.startPcr := by rw [e]; rfl
  have f4 := h.full.2.1
  have f5 := h.full.2.2
  have f6 := h.full'.2.1
  have f7 := h.full'.2.2
  rcases waitStart_cases h.inv h1 with ⟨a1, a2, a3, a4⟩ | ⟨a1, a3, a4⟩
  · rcases waitStart_cases h.inv' h2 with ⟨b1, b2, b3, b4⟩ | ⟨b1, b3, b4⟩
    · subst a3 b3
      exact ⟨h.pats, rfl, rfl, rfl, rfl, .inr ⟨_, _, _, a4, b4, pw_one hp⟩⟩
    · exact absurd ⟨hp.1.trans a1, a2⟩ b1
  · rcases waitStart_cases h.inv' h2 with ⟨b1, b2, b3, b4⟩ | ⟨b1, b3, b4⟩
    · exact absurd ⟨hp.1.symm.trans b1, b2⟩ a1
    · subst a3 b3
      refine ⟨save_alike h.pats hp, (savePat_kept s p).1, (savePat_kept s' p').1, (savePat_kept s p).2,
        (savePat_kept s' p').2, ?_⟩
      rw [f1, f2, f3, f6, f7, hp.1, hp.2.2.1] at b4
      rw [f4, f5] at a4
      rcases a4 with ⟨a5, a6⟩ | ⟨_, _, a7, pcr, c, a8, a9, a10⟩
      · rcases b4 with ⟨b5, b6⟩ | ⟨_, _, b7, pcr', c', b8, b9, b10⟩
        · exact .inr ⟨_, _, _, a6, b6, .nil⟩
        · exfalso
          rcases a5 with (a5 | a5) | a5 | a5
          · cases a5
          · cases a5
          · exact a5 b7
          · rw [a5] at b8; cases b8
      · rcases b4 with ⟨b5, b6⟩ | ⟨_, _, b7, pcr', c', b8, b9, b10⟩
        · exfalso
          rcases b5 with (b5 | b5) | b5 | b5
          · cases b5
          · cases b5
          · exact b5 a7
          · rw [b5] at a8; cases a8
        · rw [a8] at b8
          cases b8
          rw [a9] at b9
          cases b9
          rcases a10 with ⟨a11, a12⟩ | ⟨a11, c2, a12, a13⟩
          · rcases b10 with ⟨b11, b12⟩ | ⟨b11, _⟩
            · exact .inr ⟨_, _, _, a12, b12, .nil⟩
            · exact absurd a11 b11
          · rcases b10 with ⟨b11, b12⟩ | ⟨b11, c3, b12, b13⟩
            · exact absurd b11 a11
            · rw [a12] at b12
              cases b12
              rcases a13 with ⟨a14, a15⟩ | ⟨a14, _, a15⟩
              · rcases b13 with ⟨_, b15⟩ | ⟨b14, _⟩
                · exact .inr ⟨_, _, _, a15, b15, .nil⟩
                · exact absurd a14 b14
              · rcases b13 with ⟨b14, _⟩ | ⟨_, _, b15⟩
                · exact absurd b14 a14
                · exact .inl ⟨a15, b15⟩

/-- The packet. -/
def packetPart (extra : Pmt → Nat) (o : Opt) (s : St) (p : Packet) : Except Fault (St × List Out × Bool) :=
  if s.streaming then doStreaming extra s p else waitReady extra o s p

theorem packet_rel {extra : Pmt → Nat} {o : Opt} {P : Nat} {m : Pmt} {e : Event} {s s' t t' : St} (h : Rel o P m e s s')
    {p p' : Packet} (hp : Alike p p') {outs outs' : List Out} {more more' : Bool}
    (h1 : packetPart extra o s p = .ok (t, outs, more)) (h2 : packetPart extra o s' p' = .ok (t', outs', more')) :
    Rel o P m e t t' ∧ Pairwise₂ AlikeOut outs outs' ∧ more' = more := by
  have e0 := eq_put h.inv h.inv' h.full h.full' h.streaming h.cur h.count
  unfold packetPart at h1 h2
  rw [h.streaming] at h2
  split at h1
  · rename_i hst
    rw [if_pos hst] at h2
    have m1 := stream_moved h.inv h1
    have m2 := stream_moved h.inv' h2
    have fwd : forward extra s p = .ok (t, outs, more) → forward extra s' p' = .ok (t', outs', more') →
        Rel o P m e t t' ∧ Pairwise₂ AlikeOut outs outs' ∧ more' = more := by
      intro h1 h2
      unfold forward at h1 h2
      have f1 : s'.pmtPid = s.pmtPid := by rw [e0]; rfl
      have f2 : s'.black = s.black := by rw [e0]; rfl
      rw [hp.1, f1, f2] at h2
      split at h1
      · rename_i hc
        rw [if_pos hc] at h2
        simp only [bind_ok_iff] at h1 h2
        obtain ⟨⟨x, s1⟩, h3, h4⟩ := h1
        obtain ⟨⟨x', s1'⟩, h3', h4'⟩ := h2
        obtain ⟨n1, ⟨c, n, n2⟩, q, tt, i, k, n3⟩ := nextPmt_put h3 s'.demux s'.lastPat
        rw [e0, n1] at h3'
        cases h3'
        cases h4
        cases h4'
        refine ⟨⟨m1.inv h.inv, m2.inv h.inv', m1.full h.full, m2.full h.full', rfl, rfl, rfl, ?_⟩, ?_, rfl⟩
        · show Pairwise₂ Alike s1.lastPat s'.lastPat
          rw [n2]; exact h.pats
        · rw [n3]; exact pw_one rfl
      · rename_i hc
        rw [if_neg hc] at h2
        split at h1
        · rename_i hb
          rw [if_pos hb] at h2
          cases h1
          cases h2
          exact ⟨h, .nil, rfl⟩
        · rename_i hb
          rw [if_neg hb] at h2
          cases h1
          cases h2
          exact ⟨h, pw_one hp, rfl⟩
    have f1 : s'.pcrPid = s.pcrPid := by rw [e0]; rfl
    have f2 : s'.endPcr = s.endPcr := by rw [e0]; rfl
    simp only [doStreaming, h.inv.stop, Bool.false_eq_true, if_false] at h1
    simp only [doStreaming, h.inv'.stop, Bool.false_eq_true, if_false] at h2
    rw [hp.1, f1, hp.2.2.1] at h2
    split at h1
    · rename_i hq
      rw [if_pos hq] at h2
      cases hn : p.pcr with
      | none =>
        rw [hn] at h1 h2
        cases h1
        cases h2
        exact ⟨h, pw_one hp, rfl⟩
      | some pcr =>
        rw [hn] at h1 h2
        simp only [(sync_id h.inv pcr).1, bind_ok_iff] at h1
        simp only [(sync_id h.inv' pcr).1, bind_ok_iff] at h2
        obtain ⟨s1, h3, h1⟩ := h1
        obtain ⟨s1', h3', h2⟩ := h2
        cases h3
        cases h3'
        simp only [(sync_id h.inv pcr).2, Bool.false_eq_true, if_false, bind_ok_iff] at h1
        simp only [(sync_id h.inv' pcr).2, Bool.false_eq_true, if_false, bind_ok_iff, f2] at h2
        obtain ⟨c, hc, h1⟩ := h1
        obtain ⟨c', hc', h2⟩ := h2
        rw [hc] at hc'
        cases hc'
        split at h1
        · rename_i hge
          rw [if_pos hge] at h2
          cases h1
          cases h2
          exact ⟨h, .nil, rfl⟩
        · rename_i hge
          rw [if_neg hge] at h2
          exact fwd h1 h2
    · rename_i hq
      rw [if_neg hq] at h2
      exact fwd h1 h2
  · rename_i hst
    rw [if_neg hst] at h2
    have m1 := wait_moved h.inv h1
    have m2 := wait_moved h.inv' h2
    rcases waitReady_cases h1 with h3 | ⟨s1, s2, pmts, fuel, h3, h4, h5, h6, h7, h8⟩
    · rcases waitReady_cases h2 with h3' | ⟨s1', s2', pmts', fuel', h3', h4', h5', h6', h7', h8'⟩
      · obtain ⟨q1, q2, q3, q4, q5, q6⟩ := waitStart_rel h hp h3 h3'
        rcases q6 with ⟨q6, _⟩ | ⟨x, x', y, q6, q7, q8⟩
        · cases q6
        · cases q6
          cases q7
          exact ⟨⟨m1.inv h.inv, m2.inv h.inv', m1.full h.full, m2.full h.full', by rw [q4, q5, h.streaming],
            by rw [q2, q3, h.cur], by rw [q2, q3, h.count], q1⟩, q8, rfl⟩
      · obtain ⟨q1, q2, q3, q4, q5, q6⟩ := waitStart_rel h hp h3 h3'
        rcases q6 with ⟨q6, _⟩ | ⟨x, x', y, _, q7, _⟩
        · cases q6
        · cases q7
    · rcases waitReady_cases h2 with h3' | ⟨s1', s2', pmts', fuel', h3', h4', h5', h6', h7', h8'⟩
      · obtain ⟨q1, q2, q3, q4, q5, q6⟩ := waitStart_rel h hp h3 h3'
        rcases q6 with ⟨_, q6⟩ | ⟨x, x', y, q7, _, _⟩
        · cases q6
        · cases q7
      · obtain ⟨q1, q2, q3, q4, q5, _⟩ := waitStart_rel h hp h3 h3'
        have mm : Moved s s1 := by
          rcases waitStart_cases h.inv h3 with ⟨_, _, e, _⟩ | ⟨_, e, _⟩
          · rw [e]; exact Moved.refl s
          · rw [e]; exact savePat_moved s p
        have mm' : Moved s' s1' := by
          rcases waitStart_cases h.inv' h3' with ⟨_, _, e, _⟩ | ⟨_, e, _⟩
          · rw [e]; exact Moved.refl s'
          · rw [e]; exact savePat_moved s' p'
        have e1 := eq_put (mm.inv h.inv) (mm'.inv h.inv') (mm.full h.full) (mm'.full h.full')
          (by rw [q4, q5, h.streaming]) (by rw [q2, q3, h.cur]) (by rw [q2, q3, h.count])
        have hf : fuel' = fuel := by rw [h4, h4', e1]; rfl
        obtain ⟨z1, ⟨c, n, z2⟩, _, z4⟩ := sendCycle_put fuel h5 s1'.demux (if o.preStreaming then s1'.lastPat else [])
        have z5 : put (if o.preStreaming then s1 else { s1 with lastPat := [] }) s1'.demux
            (if o.preStreaming then s1'.lastPat else []) = (if o.preStreaming then s1' else { s1' with lastPat := [] }) := by
          conv => rhs; rw [e1]
          split <;> rfl
        rw [z5, ← hf, h5'] at z1
        cases z1
        subst h6 h6' h7 h7' h8 h8'
        refine ⟨⟨m1.inv h.inv, m2.inv h.inv', m1.full h.full, m2.full h.full', rfl, rfl, rfl, ?_⟩, ?_, rfl⟩
        · show Pairwise₂ Alike s2.lastPat (if o.preStreaming then s1'.lastPat else [])
          rw [z2]
          split
          · exact q1
          · exact .nil
        · refine pw_append (pw_append ?_ (pw_pmts z4)) (pw_one hp)
          unfold pendingPat
          split
          · exact .nil
          · exact pw_orig q1

/-- The packets of the last PAT after one more packet. -/
def save (l : List Packet) (p : Packet) : List Packet := if p.pid = 0 then (if p.pusi then [] else l) ++ [p] else l

theorem savePat_last (s : St) (p : Packet) : (savePat s p).lastPat = save s.lastPat p := by
  unfold savePat save
  by_cases h : p.pid = 0 <;> simp [h, pidPat]

theorem save_forget : ∀ (ps : List Packet) (l l' : List Packet), (∃ p ∈ ps, p.pid = 0 ∧ p.pusi = true) →
    ps.foldl save l = ps.foldl save l' := by
  intro ps
  induction ps with
  | nil => rintro _ _ ⟨p, hp, _⟩; cases hp
  | cons q ps ih =>
    rintro l l' ⟨p, hp, h⟩
    rw [List.foldl_cons, List.foldl_cons]
    rcases List.mem_cons.1 hp with rfl | hp
    · simp [save, h.1, h.2]
    · exact ih _ _ ⟨p, hp, h⟩

theorem save_pw {ps qs : List Packet} (h : Pairwise₂ Alike ps qs) : ∀ {l l' : List Packet}, Pairwise₂ Alike l l' →
    Pairwise₂ Alike (ps.foldl save l) (qs.foldl save l') := by
  induction h with
  | nil => intro l l' h; exact h
  | @cons p q ps qs hp _ ih =>
    intro l l' h
    rw [List.foldl_cons, List.foldl_cons]
    refine ih ?_
    unfold save
    rw [hp.1, hp.2.1]
    split
    · refine pw_append ?_ (pw_one hp)
      split
      · exact .nil
      · exact h
    · exact h

theorem step_eq (extra : Pmt → Nat) (o : Opt) (s : St) (i : Input) {s' : St} {log : List Table} {outs : List Out}
    {more : Bool} (h : step extra o s i = .ok (s', log, outs, more)) :
    ∃ s1, feedDemux St.demux (handleTable o) i.packet.pid i.tables s = .ok (s1, log) ∧
      packetPart extra o s1 i.packet = .ok (s', outs, more) := by
  simp only [step, bind_ok_iff] at h
  obtain ⟨⟨s1, l⟩, h1, h2⟩ := h
  refine ⟨s1, ?_⟩
  unfold packetPart
  split at h2
  · rename_i hc
    simp only [bind_ok_iff] at h2
    obtain ⟨⟨s2, o2, m2⟩, h2, h3⟩ := h2
    cases h3
    exact ⟨h1, by rw [if_pos hc]; exact h2⟩
  · rename_i hc
    simp only [bind_ok_iff] at h2
    obtain ⟨⟨s2, o2, m2⟩, h2, h3⟩ := h2
    cases h3
    exact ⟨h1, by rw [if_neg hc]; exact h2⟩

/-- A filter that waits. -/
structure Idle (s : St) : Prop where
  streaming : s.streaming = false
  cur : s.pk.cur = none
  count : s.pk.count = 0

/-- A packet with which the programme does not begin. -/
theorem wait_idle {extra : Pmt → Nat} {o : Opt} {P : Nat} {m : Pmt} {e : Event} {s s' : St} (hi : Inv o P m e s)
    (hd : Idle s) {p : Packet} {outs : List Out} {more : Bool} (h : packetPart extra o s p = .ok (s', outs, more))
    (hw : ∀ x ∈ outs, ∃ q, x = .orig q ∧ q.pid = 0) :
    Moved s s' ∧ Idle s' ∧ s'.lastPat = if o.preStreaming then s.lastPat else save s.lastPat p := by
  unfold packetPart at h
  rw [hd.streaming] at h
  simp only [Bool.false_eq_true, if_false] at h
  refine ⟨wait_moved hi h, ?_⟩
  rcases waitReady_cases h with h | ⟨s1, s2, pmts, fuel, _, _, h5, _, h7, _⟩
  · rcases waitStart_cases hi h with ⟨a, b, e, _⟩ | ⟨a, e, _⟩
    · rw [e, b]; exact ⟨hd, rfl⟩
    · rw [e]
      refine ⟨⟨by rw [(savePat_kept s p).2, hd.streaming], by rw [(savePat_kept s p).1, hd.cur],
        by rw [(savePat_kept s p).1, hd.count]⟩, ?_⟩
      rw [savePat_last]
      split
      · rename_i hpre
        have : p.pid ≠ 0 := fun h => a ⟨h, hpre⟩
        simp [save, this]
      · rfl
  · exfalso
    obtain ⟨_, _, ⟨x, hx, hn⟩, _⟩ := sendCycle_put fuel h5 [] []
    obtain ⟨q, hq, _⟩ := hw x (by rw [h7]; simp [hx])
    exact hn q hq

/-- The part of the stream before the programme. -/
theorem first_part {extra : Pmt → Nat} {o : Opt} {P : Nat} {m : Pmt} {e : Event} {T : Table → Prop}
    (hS : Steady o P m e T) (rest : List Input) : ∀ (is : List Input) (s z : St) (items : List Item) (rs : List Table),
      (∀ i ∈ is, ∀ t ∈ i.tables, T t) → Inv o P m e s → Knows o P s rs → Idle s →
      run extra o s (is ++ rest) = .ok (z, items) → Waiting (items.take is.length) →
      ∃ s1, run extra o s1 rest = .ok (z, items.drop is.length) ∧ Inv o P m e s1 ∧ Knows o P s1 (rs ++ received is) ∧
        Idle s1 ∧ s1.lastPat = if o.preStreaming then s.lastPat else (is.map (·.packet)).foldl save s.lastPat := by
  intro is
  induction is with
  | nil =>
    intro s z items rs _ hi hk hd h _
    refine ⟨s, h, hi, by simpa [received] using hk, hd, ?_⟩
    simp
  | cons i is ih =>
    intro s z items rs hT hi hk hd h hw
    rw [List.cons_append] at h
    simp only [run, bind_ok_iff] at h
    obtain ⟨⟨s1, log, outs, more⟩, h1, h2⟩ := h
    obtain ⟨s0, f1, f2⟩ := step_eq extra o s i h1
    obtain ⟨i0, k0, kept, _⟩ := feed_step hS _ _ _ _ _ rs (hT i List.mem_cons_self) hi hk f1
    have hd0 : Idle s0 := ⟨by rw [kept.2.1, hd.streaming], by rw [kept.2.2.1, hd.cur], by rw [kept.2.2.2, hd.count]⟩
    have hm : more = true ∧ ∀ x ∈ outs, ∃ q, x = .orig q ∧ q.pid = 0 := by
      split at h2
      · simp only [bind_ok_iff] at h2
        obtain ⟨⟨s2, its⟩, _, h4⟩ := h2
        cases h4
        exact hw ⟨i.packet, log, outs, more⟩ (by simp)
      · cases h2
        exact hw ⟨i.packet, log, outs, more⟩ (by simp)
    obtain ⟨mv, hd1, hl⟩ := wait_idle i0 hd0 f2 hm.2
    rw [if_pos hm.1] at h2
    simp only [bind_ok_iff] at h2
    obtain ⟨⟨s2, its⟩, h3, h4⟩ := h2
    cases h4
    obtain ⟨s3, r1, r2, r3, r4, r5⟩ := ih s1 _ its _ (fun j hj => hT j (List.mem_cons_of_mem _ hj)) (mv.inv i0)
      (mv.knows k0) hd1 h3 (by
        intro it hit
        exact hw it (by rw [List.length_cons, List.take_succ_cons]; exact List.mem_cons_of_mem _ hit))
    refine ⟨s3, by simpa using r1, r2, ?_, r4, ?_⟩
    · simpa [received] using r3
    · rw [r5, hl, kept.1]
      split <;> simp

/-- The rest of the stream. -/
theorem lockstep {extra : Pmt → Nat} {o : Opt} {P : Nat} {m : Pmt} {e : Event} {T : Table → Prop}
    (hS : Steady o P m e T) {rs rs' : List Input} (h : Pairwise₂ (fun i j => Alike i.packet j.packet) rs rs') :
    ∀ {s s' z z' : St} {items items' : List Item}, (∀ i ∈ rs, ∀ t ∈ i.tables, T t) → (∀ i ∈ rs', ∀ t ∈ i.tables, T t) →
      Rel o P m e s s' → run extra o s rs = .ok (z, items) → run extra o s' rs' = .ok (z', items') →
      Pairwise₂ AlikeItem items items' ∧ z.retry = false ∧ z'.retry = false := by
  induction h with
  | nil =>
    intro s s' z z' items items' _ _ hr h1 h2
    cases h1
    cases h2
    exact ⟨.nil, hr.inv.retry, hr.inv'.retry⟩
  | @cons i j rs rs' hp _ ih =>
    intro s s' z z' items items' hT hT' hr h1 h2
    have none : Knows o P s [] ∧ Knows o P s' [] := by
      constructor <;> refine ⟨?_, ?_, ?_⟩
      all_goals first
        | (rintro ⟨t, ht, _⟩; cases ht; done)
        | (rintro ⟨a, b, hab, _, u, hu, _⟩
           obtain ⟨_, rfl⟩ := List.append_eq_nil_iff.1 hab.symm
           cases hu)
    simp only [run, bind_ok_iff] at h1 h2
    obtain ⟨⟨s1, log, outs, more⟩, a1, a2⟩ := h1
    obtain ⟨⟨s1', log', outs', more'⟩, b1, b2⟩ := h2
    obtain ⟨s0, f1, f2⟩ := step_eq extra o s i a1
    obtain ⟨s0', g1, g2⟩ := step_eq extra o s' j b1
    obtain ⟨i0, _, kept, c1, c2, c3⟩ := feed_step hS _ _ _ _ _ [] (hT i List.mem_cons_self) hr.inv none.1 f1
    obtain ⟨i0', _, kept', c1', c2', c3'⟩ := feed_step hS _ _ _ _ _ [] (hT' j List.mem_cons_self) hr.inv' none.2 g1
    have hr0 : Rel o P m e s0 s0' := ⟨i0, i0', ⟨c1 hr.full.1, c2 hr.full.2.1, c3 hr.full.2.2⟩,
      ⟨c1' hr.full'.1, c2' hr.full'.2.1, c3' hr.full'.2.2⟩, by rw [kept.2.1, kept'.2.1, hr.streaming],
      by rw [kept.2.2.1, kept'.2.2.1, hr.cur], by rw [kept.2.2.2, kept'.2.2.2, hr.count],
      by rw [kept.1, kept'.1]; exact hr.pats⟩
    obtain ⟨q1, q2, rfl⟩ := packet_rel hr0 hp f2 g2
    split at a2
    · rename_i hm
      rw [if_pos hm] at b2
      simp only [bind_ok_iff] at a2 b2
      obtain ⟨⟨s2, its⟩, a3, a4⟩ := a2
      obtain ⟨⟨s2', its'⟩, b3, b4⟩ := b2
      cases a4
      cases b4
      obtain ⟨w1, w2, w3⟩ := ih (fun k hk => hT k (List.mem_cons_of_mem _ hk))
        (fun k hk => hT' k (List.mem_cons_of_mem _ hk)) q1 a3 b3
      exact ⟨.cons ⟨hp, rfl, q2⟩ w1, w2, w3⟩
    · rename_i hm
      rw [if_neg hm] at b2
      cases a2
      cases b2
      exact ⟨pw_one ⟨hp, rfl, q2⟩, q1.inv.retry, q1.inv'.retry⟩

theorem knows_nil {o : Opt} {P : Nat} {s : St} : Knows o P s [] := by
  refine ⟨?_, ?_, ?_⟩
  all_goals first
    | (rintro ⟨t, ht, _⟩; cases ht; done)
    | (rintro ⟨a, b, hab, _, u, hu, _⟩
       obtain ⟨_, rfl⟩ := List.append_eq_nil_iff.1 hab.symm
       cases hu)

/-- One filter reads `cs` and `ds` before the programme, the other only `bs`. -/
theorem entered {extra : Pmt → Nat} {o : Opt} {P : Nat} {m : Pmt} {e : Event} {T : Table → Prop} (hS : Steady o P m e T)
    {cs cs' ds bs rs rs' : List Input} (hT : ∀ i ∈ cs ++ ds ++ rs, ∀ t ∈ i.tables, T t)
    (hT' : ∀ i ∈ cs' ++ bs ++ rs', ∀ t ∈ i.tables, T t)
    (hd : Pairwise₂ (fun i j => Alike i.packet j.packet) ds bs) (hr : Pairwise₂ (fun i j => Alike i.packet j.packet) rs rs')
    (hk : Known o (received (cs ++ ds))) (hk' : Known o (received (cs' ++ bs)))
    (hp : ∃ i ∈ ds, i.packet.pid = 0 ∧ i.packet.pusi = true)
    {z z' : St} {items items' : List Item} (h : run extra o (init o) (cs ++ ds ++ rs) = .ok (z, items))
    (h' : run extra o (init o) (cs' ++ bs ++ rs') = .ok (z', items')) (hw : Waiting (items.take (cs ++ ds).length))
    (hw' : Waiting (items'.take (cs' ++ bs).length)) :
    Pairwise₂ AlikeItem (items.drop (cs ++ ds).length) (items'.drop (cs' ++ bs).length) ∧ z.retry = false ∧ z'.retry = false := by
  have idle : Idle (init o) := ⟨rfl, rfl, rfl⟩
  have hi := inv_init o P m e hS.pid.2.2.2
  obtain ⟨s1, a1, a2, a3, a4, a5⟩ := first_part hS rs (cs ++ ds) (init o) z items []
    (fun i hi => hT i (List.mem_append_left _ hi)) hi knows_nil idle h hw
  obtain ⟨s1', b1, b2, b3, b4, b5⟩ := first_part hS rs' (cs' ++ bs) (init o) z' items' []
    (fun i hi => hT' i (List.mem_append_left _ hi)) hi knows_nil idle h' hw'
  rw [List.nil_append] at a3 b3
  have pats : Pairwise₂ Alike s1.lastPat s1'.lastPat := by
    rw [a5, b5]
    split
    · exact .nil
    · have hq : ∃ i ∈ bs, i.packet.pid = 0 ∧ i.packet.pusi = true := by
        clear hT hT' hk hk' h h' hw hw' a5 b5 a1 b1 a3 b3
        induction hd with
        | nil => obtain ⟨i, hi, _⟩ := hp; cases hi
        | @cons x y l l' hxy _ ih =>
          obtain ⟨i, hi, e1, e2⟩ := hp
          rcases List.mem_cons.1 hi with rfl | hi
          · exact ⟨y, List.mem_cons_self, hxy.1.trans e1, hxy.2.1.trans e2⟩
          · obtain ⟨j, hj, hx⟩ := ih ⟨i, hi, e1, e2⟩
            exact ⟨j, List.mem_cons_of_mem _ hj, hx⟩
      rw [List.map_append, List.foldl_append, save_forget (ds.map (·.packet)) _ (init o).lastPat,
        List.map_append, List.foldl_append, save_forget (bs.map (·.packet)) _ (init o).lastPat]
      · refine save_pw ?_ .nil
        clear hT hT' hk hk' hp hq h h' hw hw' a5 b5 a1 b1 a3 b3
        induction hd with
        | nil => exact .nil
        | cons x _ ih => exact .cons x (ih)
      · obtain ⟨i, hi, hx⟩ := hq
        exact ⟨_, List.mem_map.2 ⟨i, hi, rfl⟩, hx⟩
      · obtain ⟨i, hi, hx⟩ := hp
        exact ⟨_, List.mem_map.2 ⟨i, hi, rfl⟩, hx⟩
  have full : ∀ {s : St} {ts : List Table}, Knows o P s ts → Known o ts → Full P s := by
    intro s ts hs hk
    obtain ⟨a, b, e, ⟨t, ht, hn⟩, hu⟩ := hk.1
    exact ⟨hs.pat ⟨t, by rw [e]; exact List.mem_append_left _ ht, hn⟩, hs.pmt ⟨a, b, e, ⟨t, ht, hn⟩, hu⟩, hs.eit hk.2⟩
  exact lockstep hS hr (fun i hi => hT i (List.mem_append_right _ hi)) (fun i hi => hT' i (List.mem_append_right _ hi))
    ⟨a2, b2, full a3 hk, full b3 hk', by rw [a4.streaming, b4.streaming], by rw [a4.cur, b4.cur],
      by rw [a4.count, b4.count], pats⟩ a1 b1

end Mirakc.Entered
