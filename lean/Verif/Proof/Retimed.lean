import Verif.Proof.PreStreaming
import Verif.Proof.ProgramFilterTables
import Verif.Spec.Retimed
/-
Lemmas: filter-program with a clock that says the same.
-/
namespace Mirakc.Retimed
open Mirakc.Main Mirakc.Pipeline Mirakc.Spec.Main Mirakc.Spec.Pipeline Mirakc.Spec.Retimed Mirakc.PreStreaming
open ProgramFilter
open Mirakc.Spec.ProgramFilter (serviceEit listedIn)

/-- The same error, or related results. -/
def Same {ε α β : Type} (R : α → β → Prop) : Except ε α → Except ε β → Prop
  | .ok a, .ok b => R a b
  | .error e, .error f => e = f
  | _, _ => False

theorem Same.bind {ε α β γ δ : Type} {R : α → β → Prop} {S : γ → δ → Prop} {x : Except ε α} {y : Except ε β}
    {f : α → Except ε γ} {g : β → Except ε δ} (h : Same R x y) (hf : ∀ a b, R a b → Same S (f a) (g b)) :
    Same S (x >>= f) (y >>= g) := by
  cases x <;> cases y
  · exact h
  · exact h.elim
  · exact h.elim
  · exact hf _ _ h

theorem Same.keep {ε α γ δ : Type} {S : γ → δ → Prop} {x : Except ε α} {f : α → Except ε γ} {g : α → Except ε δ}
    (hf : ∀ a, Same S (f a) (g a)) : Same S (x >>= f) (x >>= g) := by
  cases x with
  | error e => exact rfl
  | ok a => exact hf a

theorem Same.ite {ε γ δ : Type} {S : γ → δ → Prop} {c c' : Prop} [Decidable c] [Decidable c'] {a b : Except ε γ}
    {a' b' : Except ε δ} (hc : c' ↔ c) (h1 : c → Same S a a') (h2 : ¬ c → Same S b b') :
    Same S (if c then a else b) (if c' then a' else b') := by
  by_cases h : c
  · rw [if_pos h, if_pos (hc.2 h)]; exact h1 h
  · rw [if_neg h, if_neg (fun x => h (hc.1 x))]; exact h2 h

theorem Same.map {ε α β : Type} {R : α → β → Prop} {x : Except ε α} {y : Except ε β} {f : α → β} (h : y = x.map f)
    (hr : ∀ a, x = .ok a → R a (f a)) : Same R x y := by
  subst h
  cases x with
  | error e => exact rfl
  | ok a => exact hr a rfl

/-- Not so far away that a number would be too large. -/
def Near (x : Int) : Prop := -150000000000000 ≤ x ∧ x ≤ 150000000000000

/-- The state with another clock. -/
def tune (x y : Int) (s : St) : St := { s with clockPcr := x, clockTime := y }

/-- The other clock says the same, as far as the clock is known. -/
def Clk (s : St) (x y : Int) : Prop :=
  (s.clockPcrReady = true ∧ s.clockTimeReady = true ∧ PcrValue s.clockPcr ∧ PcrValue x ∧
    SameClock s.clockPcr s.clockTime x y ∧ Near s.clockTime ∧ Near y) ∨
  ((s.clockPcrReady = true → x = s.clockPcr) ∧ (s.clockTimeReady = true → y = s.clockTime))

/-- The states of the two filters. -/
def Rel (a b : St) : Prop :=
  ∃ x y, b = tune x y a ∧ Clk a x y ∧ (a.eventTimeReady = true → Near a.eventStart ∧ Near a.eventEnd)

theorem valid_iff (x : Int) : isValidPcr x = true ↔ PcrValue x := by
  unfold isValidPcr PcrValue
  have : maxPcr = 2576980377599 := by decide
  rw [this]
  simp only [Bool.and_eq_true, decide_eq_true_eq]
  omega

theorem convert_ok {s : St} {t : Int} (h1 : s.clockPcrReady = true) (h2 : s.clockTimeReady = true) (h3 : PcrValue s.clockPcr)
    (h4 : Near s.clockTime) (h5 : Near t) : ∃ r, convertTimeToPcr s t = .ok r := by
  unfold convertTimeToPcr
  unfold PcrValue at h3
  unfold Near at h4 h5
  rw [h1, h2, (valid_iff _).2 h3]
  have e1 : pcrTicksPerMs = 27000 := by decide
  rw [e1]
  dsimp only [assertThat, ok_bind]
  have k1 := int64_of (x := (t - s.clockTime) * 27000) (by omega)
  have k2 := int64_of (x := s.clockPcr + (t - s.clockTime) * 27000) (by omega)
  simp only [if_true, ok_bind, k1, k2]
  have := (liftNegative_spec (s.clockPcr + (t - s.clockTime) * 27000)).1
  rw [decide_eq_true (show liftNegative (s.clockPcr + (t - s.clockTime) * 27000) ≥ 0 from this)]
  exact ⟨_, rfl⟩

theorem image_same {p t p' t' x : Int} (h : SameClock p t p' t') :
    Spec.ProgramFilter.image t' p' x = Spec.ProgramFilter.image t p x := by
  obtain ⟨k, rfl⟩ := h
  unfold Spec.ProgramFilter.image
  have : p + (t' - t) * 27000 + k * (2 ^ 33 * 300) + (x - t') * 27000 = p + (x - t) * 27000 + (2 ^ 33 * 300) * k := by
    omega
  rw [this, Int.add_mul_emod_self_left]

theorem convert_same {s : St} {x y t : Int} (h : Clk s x y) (ht : Near t) :
    convertTimeToPcr (tune x y s) t = convertTimeToPcr s t := by
  rcases h with ⟨h1, h2, h3, h4, h5, h6, h7⟩ | ⟨h1, h2⟩
  · obtain ⟨r, hr⟩ := convert_ok h1 h2 h3 h6 ht
    obtain ⟨r', hr'⟩ := convert_ok (s := tune x y s) h1 h2 h4 h7 ht
    rw [hr, hr', convert_spec hr, convert_spec hr']
    exact congrArg _ (image_same h5)
  · by_cases k1 : s.clockPcrReady = true
    · by_cases k2 : s.clockTimeReady = true
      · rw [h1 k1, h2 k2]
        rfl
      · simp [convertTimeToPcr, tune, k1, k2, assertThat]
    · simp [convertTimeToPcr, tune, k1, assertThat]

theorem range_same {a b : St} (h : Rel a b) : Same Rel (updatePcrRange a) (updatePcrRange b) := by
  obtain ⟨x, y, rfl, hc, he⟩ := h
  by_cases hr : a.eventTimeReady = true
  · obtain ⟨e1, e2⟩ := he hr
    unfold updatePcrRange
    refine Same.keep fun _ => Same.keep fun _ => Same.keep fun _ => ?_
    rw [show (tune x y a).eventStart = a.eventStart from rfl, show (tune x y a).eventEnd = a.eventEnd from rfl,
      convert_same hc e1, convert_same hc e2]
    exact Same.keep fun _ => Same.keep fun _ => ⟨x, y, rfl, hc, he⟩
  · have : a.eventTimeReady = false := by simpa using hr
    simp only [updatePcrRange, tune, this, assertThat]
    exact rfl

theorem clockPcr_same {a b : St} (h : Rel a b) (p : Int) : Same Rel (updateClockPcr a p) (updateClockPcr b p) := by
  obtain ⟨x, y, rfl, hc, he⟩ := h
  unfold updateClockPcr
  by_cases hn : needClockSync a = true
  · rw [show needClockSync (tune x y a) = needClockSync a from rfl, hn]
    refine Same.keep fun _ => ?_
    have hrel : Rel { a with clockPcr := p, clockPcrReady := true } { tune x y a with clockPcr := p, clockPcrReady := true } := by
      refine ⟨p, y, rfl, Or.inr ⟨fun _ => rfl, fun ht => ?_⟩, he⟩
      rcases hc with ⟨h1, h2, _⟩ | ⟨_, h2⟩
      · simp [needClockSync, h1, h2] at hn
      · exact h2 ht
    exact Same.ite Iff.rfl (fun _ => range_same hrel) (fun _ => hrel)
  · have : needClockSync a = false := by simpa using hn
    rw [show needClockSync (tune x y a) = needClockSync a from rfl, this]
    exact rfl

theorem clockTime_same {a b : St} (h : Rel a b) (t : Int) : Same Rel (updateClockTime a t) (updateClockTime b t) := by
  obtain ⟨x, y, rfl, hc, he⟩ := h
  unfold updateClockTime
  by_cases hn : a.clockTimeReady = true
  · rw [show (tune x y a).clockTimeReady = a.clockTimeReady from rfl, hn]
    exact rfl
  · rw [show (tune x y a).clockTimeReady = a.clockTimeReady from rfl]
    refine Same.keep fun _ => ?_
    have hrel : Rel { a with clockTime := t, clockTimeReady := true } { tune x y a with clockTime := t, clockTimeReady := true } := by
      refine ⟨x, t, rfl, Or.inr ⟨fun ht => ?_, fun _ => rfl⟩, he⟩
      rcases hc with ⟨h1, h2, _⟩ | ⟨h1, _⟩
      · exact absurd h2 hn
      · exact h1 ht
    exact Same.ite Iff.rfl (fun _ => range_same hrel) (fun _ => hrel)

/-- Options with another clock. -/
def retime (p t : Int) (o : Opt) : Opt := { o with clockPcr := p, clockTime := t }

/-- The times of the event with the margins are not far away. -/
def Fine (o : Opt) (e : Event) : Prop :=
  Near (Spec.Margins.startWith o.startMargin e) ∧ Near (Spec.Margins.endWith o.endMargin e)

theorem event_same {o : Opt} (p t : Int) {a b : St} (h : Rel a b) {e : Event} (hf : Fine o e) :
    Same Rel (updateEventTime o a e) (updateEventTime (retime p t o) b e) := by
  obtain ⟨x, y, rfl, hc, he⟩ := h
  unfold updateEventTime
  cases h1 : int64 (e.duration * 1000) with
  | error => exact rfl
  | ok ms =>
    rw [ok_bind, ok_bind]
    cases h2 : int64 (ms + o.endMargin) with
    | error => rw [show (retime p t o).endMargin = o.endMargin from rfl, h2]; exact rfl
    | ok d =>
      rw [show (retime p t o).endMargin = o.endMargin from rfl, h2, ok_bind, ok_bind]
      have e1 := (int64_ok h1).1
      have e2 := (int64_ok h2).1
      have hrel : Rel { a with eventStart := e.startTime - o.startMargin, eventEnd := e.startTime + d, eventTimeReady := true }
          { tune x y a with eventStart := e.startTime - o.startMargin, eventEnd := e.startTime + d, eventTimeReady := true } := by
        refine ⟨x, y, rfl, hc, fun _ => ⟨hf.1, ?_⟩⟩
        have := hf.2
        unfold Spec.Margins.endWith at this
        show Near (e.startTime + d)
        rw [e2, e1, ← Int.add_assoc]
        exact this
      exact Same.ite Iff.rfl (fun _ => range_same hrel) (fun _ => hrel)

theorem eit_same {o : Opt} (p q : Int) {a b : St} (h : Rel a b) (t : Table) (eit : Eit)
    (hf : ∀ es e, serviceEit o.sid t = some es → listedIn o.eid es = some e → Fine o e) (hb : t.body = .eit eit) :
    Same Rel (handleEit o a t eit) (handleEit (retime p q o) b t eit) := by
  have h0 := h
  obtain ⟨x, y, rfl, hc, he⟩ := h
  unfold handleEit
  refine Same.ite Iff.rfl (fun _ => h0) fun hv => Same.ite Iff.rfl (fun _ => h0) fun hi => ?_
  have hv' : t.valid = true := by simpa using hv
  have hi' : eit.serviceId = o.sid := by simpa using hi
  have hs : serviceEit o.sid t = some eit.events := by simp [serviceEit, hb, hv', hi']
  rcases heq : eit.events with _ | ⟨e, _ | ⟨f, r⟩⟩
  · exact ⟨x, y, rfl, hc, he⟩
  · refine Same.ite Iff.rfl (fun h1 => event_same p q h0 (hf _ e hs ?_)) fun h1 =>
      Same.ite Iff.rfl (fun _ => h0) (fun _ => ⟨x, y, rfl, hc, he⟩)
    rw [heq]
    simp only [beq_iff_eq] at h1
    simp [listedIn, h1]
  · refine Same.ite Iff.rfl (fun h1 => event_same p q h0 (hf _ e hs ?_)) fun h1 =>
      Same.ite Iff.rfl (fun h2 => event_same p q h0 (hf _ f hs ?_)) fun h2 =>
        Same.ite Iff.rfl (fun _ => h0) fun _ => Same.ite Iff.rfl (fun _ => ⟨x, y, rfl, hc, he⟩) (fun _ => h0)
    · rw [heq]
      simp only [beq_iff_eq] at h1
      simp [listedIn, h1]
    · rw [heq]
      simp only [beq_iff_eq] at h1 h2
      simp [listedIn, h1, h2]

theorem pat_same {o : Opt} (p q : Int) {a b : St} (h : Rel a b) (t : Table) (pat : Pat) :
    Same Rel (handlePat o a t pat) (handlePat (retime p q o) b t pat) := by
  have h0 := h
  obtain ⟨x, y, rfl, hc, he⟩ := h
  unfold handlePat
  refine Same.ite Iff.rfl (fun _ => h0) fun _ => Same.ite Iff.rfl (fun _ => h0) fun _ => Same.ite Iff.rfl (fun _ => h0) fun _ => ?_
  rw [show (retime p q o).sid = o.sid from rfl]
  cases pat.pmts.find? o.sid with
  | none => exact rfl
  | some pid => exact ⟨x, y, rfl, hc, he⟩

theorem pmt_tune (o : Opt) (p q x y : Int) (s : St) (t : Table) (pmt : Pmt) :
    handlePmt (retime p q o) (tune x y s) t pmt = (handlePmt o s t pmt).map (tune x y) := by
  unfold handlePmt
  rw [show (retime p q o).sid = o.sid from rfl]
  dsimp only [tune]
  split
  · rfl
  · split
    · rfl
    · by_cases h : (s.clockPid != pmt.pcrPid) = true
      · rw [if_pos h, if_pos h]; rfl
      · rw [if_neg h, if_neg h]; rfl

theorem pmt_clock {o : Opt} {s s' : St} {t : Table} {pmt : Pmt} (h : handlePmt o s t pmt = .ok s') :
    ((s'.clockPcrReady = false ∧ s'.clockTimeReady = false) ∨ (s'.clockPcrReady = s.clockPcrReady ∧
      s'.clockTimeReady = s.clockTimeReady)) ∧ s'.clockPcr = s.clockPcr ∧ s'.clockTime = s.clockTime ∧
      s'.eventTimeReady = s.eventTimeReady ∧ s'.eventStart = s.eventStart ∧ s'.eventEnd = s.eventEnd := by
  unfold handlePmt at h
  split at h
  · cases h; exact ⟨Or.inr ⟨rfl, rfl⟩, rfl, rfl, rfl, rfl, rfl⟩
  · split at h
    · cases h; exact ⟨Or.inr ⟨rfl, rfl⟩, rfl, rfl, rfl, rfl, rfl⟩
    · dsimp only at h
      by_cases hp : (s.clockPid != pmt.pcrPid) = true
      · rw [if_pos hp] at h
        cases h
        exact ⟨Or.inl ⟨rfl, rfl⟩, rfl, rfl, rfl, rfl, rfl⟩
      · rw [if_neg hp] at h
        cases h
        exact ⟨Or.inr ⟨rfl, rfl⟩, rfl, rfl, rfl, rfl, rfl⟩

theorem pmt_same {o : Opt} (p q : Int) {a b : St} (h : Rel a b) (t : Table) (pmt : Pmt) :
    Same Rel (handlePmt o a t pmt) (handlePmt (retime p q o) b t pmt) := by
  obtain ⟨x, y, rfl, hc, he⟩ := h
  refine Same.map (pmt_tune o p q x y a t pmt) fun s' hs => ⟨x, y, rfl, ?_, ?_⟩
  · obtain ⟨k1, k2, k3, _⟩ := pmt_clock hs
    unfold Clk
    rw [k2, k3]
    rcases k1 with ⟨k4, k5⟩ | ⟨k4, k5⟩
    · rw [k4, k5]
      exact Or.inr ⟨(fun k => by cases k), (fun k => by cases k)⟩
    · rw [k4, k5]
      exact hc
  · obtain ⟨_, _, _, k4, k5, k6⟩ := pmt_clock hs
    rw [k4, k5, k6]
    exact he

theorem tot_same {o : Opt} (p q : Int) {a b : St} (h : Rel a b) (t : Table) (time : Int) :
    Same Rel (handleTot o a t time) (handleTot (retime p q o) b t time) := by
  have h0 := h
  unfold handleTot
  refine Same.ite Iff.rfl (fun _ => h0) fun _ => ?_
  have h1 : Rel (if (!a.streaming) = true then checkTimeLimit o a time else a)
      (if (!b.streaming) = true then checkTimeLimit (retime p q o) b time else b) := by
    obtain ⟨x, y, rfl, hc, he⟩ := h
    unfold checkTimeLimit
    rw [show (tune x y a).streaming = a.streaming from rfl, show (retime p q o).waitUntil = o.waitUntil from rfl]
    split
    · cases o.waitUntil with
      | none => exact h0
      | some l =>
        dsimp only
        split
        · exact ⟨x, y, rfl, hc, he⟩
        · exact h0
    · exact h0
  dsimp only
  generalize (if (!a.streaming) = true then checkTimeLimit o a time else a) = a1 at h1
  generalize (if (!b.streaming) = true then checkTimeLimit (retime p q o) b time else b) = b1 at h1
  have hb : b1.clockTimeReady = a1.clockTimeReady := by
    obtain ⟨x, y, rfl, _, _⟩ := h1
    rfl
  rw [hb]
  exact Same.ite Iff.rfl (fun _ => h1) fun _ => clockTime_same h1 time

/-- One table. -/
theorem table_same {o : Opt} (p q : Int) {a b : St} (h : Rel a b) (t : Table)
    (hf : ∀ es e, serviceEit o.sid t = some es → listedIn o.eid es = some e → Fine o e) :
    Same Rel (handleTable o a t) (handleTable (retime p q o) b t) := by
  unfold handleTable
  cases hb : t.body with
  | pat pat => exact pat_same p q h t pat
  | pmt pmt => exact pmt_same p q h t pmt
  | eit eit => exact eit_same p q h t eit hf hb
  | tot time => exact tot_same p q h t time
  | _ => exact h

/-- The tables of a packet. -/
theorem tables_same {o : Opt} (p q : Int) (pid : Nat) : ∀ (ts : List Table)
    (_ : ∀ t ∈ ts, ∀ es e, serviceEit o.sid t = some es → listedIn o.eid es = some e → Fine o e) {a b : St}, Rel a b →
    Same (fun r r' => Rel r.1 r'.1 ∧ r'.2 = r.2) (feedDemux St.demux (handleTable o) pid ts a)
      (feedDemux St.demux (handleTable (retime p q o)) pid ts b)
  | [], _, _, _, h => ⟨h, rfl⟩
  | t :: ts, hf, a, b, h => by
    simp only [feedDemux]
    have hd : b.demux = a.demux := by obtain ⟨x, y, rfl, _, _⟩ := h; rfl
    rw [hd]
    refine Same.ite Iff.rfl (fun _ => ?_) fun _ => tables_same p q pid ts (fun u hu => hf u (by simp [hu])) h
    refine (table_same p q h t (hf t (by simp))).bind fun a1 b1 h1 => ?_
    exact (tables_same p q pid ts (fun u hu => hf u (by simp [hu])) h1).bind fun r r' hr => ⟨hr.1, by rw [hr.2]⟩

theorem sync_same {a b : St} (h : Rel a b) (p : Int) : Same Rel (syncClock a p) (syncClock b p) := by
  unfold syncClock
  have hn : needClockSync b = needClockSync a := by obtain ⟨x, y, rfl, _, _⟩ := h; rfl
  rw [hn]
  exact Same.ite Iff.rfl (fun _ => clockPcr_same h p) fun _ => h

/-- What of a state is not affected. -/
structure View (a b : St) : Prop where
  rel : Rel a b
  need : needClockSync b = needClockSync a
  startPcr : b.startPcr = a.startPcr
  endPcr : b.endPcr = a.endPcr
  lastPat : b.lastPat = a.lastPat
  stop : b.stop = a.stop
  pcrPid : b.pcrPid = a.pcrPid
  pcrPidReady : b.pcrPidReady = a.pcrPidReady
  eventTimeReady : b.eventTimeReady = a.eventTimeReady
  streaming : b.streaming = a.streaming
  retry : b.retry = a.retry
  pmtPid : b.pmtPid = a.pmtPid
  black : b.black = a.black
  pk : b.pk = a.pk

theorem view {a b : St} (h : Rel a b) : View a b := by
  have h0 := h
  obtain ⟨x, y, rfl, _, _⟩ := h
  exact ⟨h0, rfl, rfl, rfl, rfl, rfl, rfl, rfl, rfl, rfl, rfl, rfl, rfl, rfl⟩

theorem save_same {a b : St} (h : Rel a b) (p : Packet) : Rel (savePat a p) (savePat b p) := by
  have h0 := h
  obtain ⟨x, y, rfl, hc, he⟩ := h
  unfold savePat
  split
  · exact ⟨x, y, rfl, hc, he⟩
  · exact h0

/-- Waiting for the start. -/
theorem wait_same {o : Opt} (p q : Int) {a b : St} (h : Rel a b) (pkt : Packet) :
    Same (fun r r' => Rel r.1 r'.1 ∧ r'.2 = r.2) (waitStart o a pkt) (waitStart (retime p q o) b pkt) := by
  have v := view h
  unfold waitStart
  rw [v.stop, show (retime p q o).preStreaming = o.preStreaming from rfl]
  refine Same.ite Iff.rfl (fun _ => ?_) fun _ => Same.ite Iff.rfl (fun _ => ⟨h, rfl⟩) fun _ => ?_
  · obtain ⟨x, y, rfl, hc, he⟩ := h
    exact ⟨⟨x, y, rfl, hc, he⟩, rfl⟩
  · have h1 := save_same h pkt
    dsimp only
    generalize savePat a pkt = a1 at h1
    generalize savePat b pkt = b1 at h1
    have v1 := view h1
    rw [v1.pcrPidReady, v1.eventTimeReady, v1.pcrPid]
    refine Same.ite Iff.rfl (fun _ => ⟨h1, rfl⟩) fun _ => Same.ite Iff.rfl (fun _ => ⟨h1, rfl⟩) fun _ => ?_
    cases pkt.pcr with
    | none => exact ⟨h1, rfl⟩
    | some pcr =>
      refine (sync_same h1 pcr).bind fun a2 b2 h2 => ?_
      have v2 := view h2
      rw [v2.need, v2.endPcr, v2.startPcr, v2.lastPat]
      exact Same.ite Iff.rfl (fun _ => ⟨h2, rfl⟩) fun _ => Same.keep fun c => Same.ite Iff.rfl (fun _ => ⟨h2, rfl⟩) fun _ =>
        Same.keep fun c' => Same.ite Iff.rfl (fun _ => ⟨h2, rfl⟩) fun _ => Same.keep fun _ => ⟨h2, rfl⟩

theorem next_tune (extra : Pmt → Nat) (x y : Int) (s : St) :
    nextPmt extra (tune x y s) = (nextPmt extra s).map fun r => (r.1, tune x y r.2) :=
  bind_keep fun _ => bind_keep fun _ => rfl

theorem cycle_tune (extra : Pmt → Nat) (x y : Int) : ∀ (fuel : Nat) (s : St),
    sendCycle extra fuel (tune x y s) = (sendCycle extra fuel s).map fun r => (r.1, tune x y r.2)
  | 0, _ => rfl
  | fuel + 1, s => by
    unfold sendCycle
    refine bind_map (next_tune extra x y s) fun a => ?_
    dsimp only [tune]
    split
    · rfl
    · exact bind_map (cycle_tune extra x y fuel a.2) fun _ => rfl

theorem next_clock {extra : Pmt → Nat} {s : St} {r : Out × St} (h : nextPmt extra s = .ok r) : ∃ k, r.2 = { s with pk := k } := by
  obtain ⟨_, _, h⟩ := bind_ok_iff.1 h
  obtain ⟨_, _, h⟩ := bind_ok_iff.1 h
  cases h
  exact ⟨_, rfl⟩

theorem cycle_clock {extra : Pmt → Nat} : ∀ {fuel : Nat} {s : St} {r : List Out × St}, sendCycle extra fuel s = .ok r →
    ∃ k, r.2 = { s with pk := k }
  | 0, _, _, h => by cases h
  | fuel + 1, s, r, h => by
    unfold sendCycle at h
    obtain ⟨a, h1, h⟩ := bind_ok_iff.1 h
    obtain ⟨k, hk⟩ := next_clock h1
    dsimp only at h
    split at h
    · cases h
      exact ⟨k, hk⟩
    · obtain ⟨c, h2, h⟩ := bind_ok_iff.1 h
      obtain ⟨k', hk'⟩ := cycle_clock h2
      cases h
      exact ⟨k', by show c.2 = _; rw [hk', hk]⟩

theorem next_same (extra : Pmt → Nat) {a b : St} (h : Rel a b) :
    Same (fun r r' => Rel r.2 r'.2 ∧ r'.1 = r.1) (nextPmt extra a) (nextPmt extra b) := by
  obtain ⟨x, y, rfl, hc, he⟩ := h
  refine Same.map (next_tune extra x y a) fun r hr => ⟨?_, rfl⟩
  obtain ⟨k, hk⟩ := next_clock hr
  rw [hk]
  exact ⟨x, y, rfl, hc, he⟩

theorem cycle_same (extra : Pmt → Nat) (fuel : Nat) {a b : St} (h : Rel a b) :
    Same (fun r r' => Rel r.2 r'.2 ∧ r'.1 = r.1) (sendCycle extra fuel a) (sendCycle extra fuel b) := by
  obtain ⟨x, y, rfl, hc, he⟩ := h
  refine Same.map (cycle_tune extra x y fuel a) fun r hr => ⟨?_, rfl⟩
  obtain ⟨k, hk⟩ := cycle_clock hr
  rw [hk]
  exact ⟨x, y, rfl, hc, he⟩

theorem forward_same (extra : Pmt → Nat) {a b : St} (h : Rel a b) (pkt : Packet) :
    Same (fun r r' => Rel r.1 r'.1 ∧ r'.2 = r.2) (forward extra a pkt) (forward extra b pkt) := by
  have v := view h
  unfold forward
  rw [v.pmtPid, v.black]
  exact Same.ite Iff.rfl (fun _ => (next_same extra h).bind fun r r' hr => ⟨hr.1, by rw [hr.2]⟩) fun _ =>
    Same.ite Iff.rfl (fun _ => ⟨h, rfl⟩) fun _ => ⟨h, rfl⟩

theorem streaming_same (extra : Pmt → Nat) {a b : St} (h : Rel a b) (pkt : Packet) :
    Same (fun r r' => Rel r.1 r'.1 ∧ r'.2 = r.2) (doStreaming extra a pkt) (doStreaming extra b pkt) := by
  have v := view h
  unfold doStreaming
  rw [v.stop, v.pcrPid]
  refine Same.ite Iff.rfl (fun _ => ⟨h, rfl⟩) fun _ => Same.ite Iff.rfl (fun _ => ?_) fun _ => forward_same extra h pkt
  cases pkt.pcr with
  | none => exact ⟨h, rfl⟩
  | some pcr =>
    refine (sync_same h pcr).bind fun a2 b2 h2 => ?_
    have v2 := view h2
    rw [v2.need, v2.endPcr]
    exact Same.ite Iff.rfl (fun _ => ⟨h2, rfl⟩) fun _ => Same.keep fun c => Same.ite Iff.rfl (fun _ => ⟨h2, rfl⟩) fun _ =>
      forward_same extra h2 pkt

theorem ready_same (extra : Pmt → Nat) {o : Opt} (p q : Int) {a b : St} (h : Rel a b) (pkt : Packet) :
    Same (fun r r' => Rel r.1 r'.1 ∧ r'.2 = r.2) (waitReady extra o a pkt) (waitReady extra (retime p q o) b pkt) := by
  unfold waitReady
  refine (wait_same p q h pkt).bind fun r r' hr => ?_
  obtain ⟨a1, c⟩ := r
  obtain ⟨b1, c'⟩ := r'
  obtain ⟨h1, h2⟩ := hr
  dsimp only at h1 h2
  subst h2
  cases c' with
  | some out => exact ⟨h1, rfl⟩
  | none =>
    have v1 := view h1
    dsimp only [pendingPat]
    rw [show (retime p q o).preStreaming = o.preStreaming from rfl, v1.lastPat]
    have h3 : Rel (if o.preStreaming = true then a1 else { a1 with lastPat := [] })
        (if o.preStreaming = true then b1 else { b1 with lastPat := [] }) := by
      split
      · exact h1
      · obtain ⟨x, y, rfl, hc, he⟩ := h1
        exact ⟨x, y, rfl, hc, he⟩
    generalize (if o.preStreaming = true then a1 else { a1 with lastPat := [] }) = a2 at h3
    generalize (if o.preStreaming = true then b1 else { b1 with lastPat := [] }) = b2 at h3
    have v3 := view h3
    rw [v3.pk]
    refine (cycle_same extra _ h3).bind fun r r' hr => ?_
    obtain ⟨h4, h5⟩ := hr
    refine ⟨?_, by rw [h5]⟩
    obtain ⟨x, y, h6, hc, he⟩ := h4
    dsimp only
    rw [h6]
    exact ⟨x, y, rfl, hc, he⟩

/-- One packet. -/
theorem step_same (extra : Pmt → Nat) {o : Opt} (p q : Int) {a b : St} (h : Rel a b) (i : Input)
    (hf : ∀ t ∈ i.tables, ∀ es e, serviceEit o.sid t = some es → listedIn o.eid es = some e → Fine o e) :
    Same (fun r r' => Rel r.1 r'.1 ∧ r'.2 = r.2) (step extra o a i) (step extra (retime p q o) b i) ∧
      announced (retime p q o) b i = announced o a i := by
  have ht := tables_same p q i.packet.pid i.tables hf h
  constructor
  · unfold step
    refine ht.bind fun r r' hr => ?_
    obtain ⟨a1, l⟩ := r
    obtain ⟨b1, l'⟩ := r'
    obtain ⟨h1, h2⟩ := hr
    dsimp only at h1 h2 ⊢
    subst h2
    rw [(view h1).streaming]
    exact Same.ite Iff.rfl (fun _ => (streaming_same extra h1 i.packet).bind fun r r' hr => ⟨hr.1, congrArg (Prod.mk l') hr.2⟩) fun _ =>
      (ready_same extra p q h1 i.packet).bind fun r r' hr => ⟨hr.1, congrArg (Prod.mk l') hr.2⟩
  · unfold announced
    revert ht
    cases feedDemux St.demux (handleTable o) i.packet.pid i.tables a <;>
      cases feedDemux St.demux (handleTable (retime p q o)) i.packet.pid i.tables b <;> intro ht
    · rfl
    · exact ht.elim
    · exact ht.elim
    · next r r' =>
      obtain ⟨a1, l⟩ := r
      obtain ⟨b1, l'⟩ := r'
      obtain ⟨h1, h2⟩ := ht
      dsimp only at h1 h2 ⊢
      rw [(view h1).streaming]
      split
      · rfl
      · have hw := wait_same (o := o) p q h1 i.packet
        revert hw
        cases waitStart o a1 i.packet <;> cases waitStart (retime p q o) b1 i.packet <;> intro hw
        · rfl
        · exact hw.elim
        · exact hw.elim
        · next r r' =>
          obtain ⟨a2, c⟩ := r
          obtain ⟨b2, c'⟩ := r'
          obtain ⟨h3, h4⟩ := hw
          dsimp only at h3 h4
          subst h4
          cases c' with
          | some => rfl
          | none =>
            show pendingPat (retime p q o) b2 = pendingPat o a2
            unfold pendingPat
            rw [(view h3).lastPat]
            rfl

/-- The program filter with its sink. -/
theorem program_same {σ : Type} (extra : Pmt → Nat) (o : Opt) (p q : Int) {k : Sink Out σ}
    (hk : ∀ s r, k.start s = .ok r → r.1 = true) :
    SinkSim (fun i => ∀ t ∈ i.tables, ∀ es e, serviceEit o.sid t = some es → listedIn o.eid es = some e → Fine o e)
      (fun a b => Rel a.1 b.1 ∧ b.2 = a.2) (fun a b => Rel a.1 b.1 ∧ b.2 = a.2)
      (sink extra o k) (sink extra (retime p q o) k) where
  start s s' h r hr := by
    obtain ⟨⟨ok, d⟩, h1, hr⟩ := bind_ok_iff.1 hr
    cases hr
    refine ⟨(ok, s'.1, d), ?_, rfl, hk _ _ h1, h.1, rfl⟩
    show (k.start s'.2 >>= _) = _
    rw [h.2, h1]
    rfl
  handle s s' i hi h r hr := by
    obtain ⟨a, d⟩ := s
    obtain ⟨b, d'⟩ := s'
    obtain ⟨h1, h2⟩ := h
    dsimp only at h1 h2
    subst h2
    obtain ⟨hs, ha⟩ := step_same extra p q h1 i hi
    unfold sink at hr ⊢
    dsimp only at hr ⊢
    revert hs hr
    cases step extra o a i <;> cases step extra (retime p q o) b i <;> intro hr hs
    · next e e' =>
      cases hs
      dsimp only at hr ⊢
      obtain ⟨⟨ok, d⟩, h3, hr⟩ := bind_ok_iff.1 hr
      rw [ha, h3]
      dsimp only at hr
      split at hr
      · cases hr
      · next hok =>
        cases hr
        refine ⟨(false, b, d), ?_, rfl, h1, rfl⟩
        rw [ok_bind]
        simp only [hok]
        rfl
    · exact hs.elim
    · exact hs.elim
    · next x y =>
      obtain ⟨f, l, outs, more⟩ := x
      obtain ⟨g, l', outs', more'⟩ := y
      obtain ⟨h3, h4⟩ := hs
      cases h4
      dsimp only at hr h3 ⊢
      obtain ⟨⟨ok, d⟩, h5, hr⟩ := bind_ok_iff.1 hr
      cases hr
      rw [h5]
      exact ⟨_, rfl, rfl, h3, rfl⟩
  finish s s' h r hr := by
    obtain ⟨d, h1, hr⟩ := bind_ok_iff.1 hr
    cases hr
    refine ⟨(s'.1, d), ?_, h.1, rfl⟩
    show (k.finish s'.2 >>= _) = _
    rw [h.2, h1]
    rfl
  exitCode s s' h := by
    show (if s'.1.retry then exitRetry else k.exitCode s'.2) = (if s.1.retry then exitRetry else k.exitCode s.2)
    rw [h.2, (view h.1).retry]

/-- The command with a clock that says the same. -/
theorem filterProgram_same {w : World} {ps : List (List UInt8)} (hr : Reads w ps) (o : Opt) (p q : Int)
    (h1 : PcrValue o.clockPcr) (h2 : PcrValue p) (h3 : SameClock o.clockPcr o.clockTime p q) (h4 : Near o.clockTime)
    (h5 : Near q) (hf : ∀ e, Spec.Margins.Described o (Spec.Margins.TableOf w) e → Fine o e)
    {e : Ended} (h : Main.filterProgram w o = .ok e) : Main.filterProgram w (retime p q o) = .ok e := by
  have H := service_sim (via_sim (program_same w.extra o p q (k := behind w.codec) (fun s r hr => by cases hr; rfl))
    (between w.codec w.tables2)) (fun t n m u hu es e k1 k2 => hf e ⟨u, es, ⟨_, _, hu⟩, k1, k2⟩) { sid := o.sid }
  have key := around_sim H (ps := seen (input w.codec w.tables) 0 ps)
    (s := (ServiceFilter.init { sid := o.sid }, 0, ProgramFilter.init o, 0, StdoutSink.init w.write))
    (s' := (ServiceFilter.init { sid := o.sid }, 0, ProgramFilter.init (retime p q o), 0, StdoutSink.init w.write))
    (fun i _ _ m u hu es e k1 k2 => hf e ⟨u, es, ⟨_, _, hu⟩, k1, k2⟩)
    ⟨rfl, rfl, ⟨p, q, rfl, Or.inl ⟨rfl, rfl, h1, h2, h3, h4, h5⟩, fun k => by cases k⟩, rfl⟩
  have hA := feed_around hr (input w.codec w.tables) (ServiceFilter.sink { sid := o.sid }
    (via (between w.codec w.tables2) (ProgramFilter.sink w.extra o (behind w.codec))))
    (ServiceFilter.init { sid := o.sid }, 0, ProgramFilter.init o, 0, StdoutSink.init w.write)
    (fun r => (.ok { code := r.1, bytes := r.2.2.2.2.2.out } : Except Stop Ended))
  have hB := feed_around hr (input w.codec w.tables) (ServiceFilter.sink { sid := o.sid }
    (via (between w.codec w.tables2) (ProgramFilter.sink w.extra (retime p q o) (behind w.codec))))
    (ServiceFilter.init { sid := o.sid }, 0, ProgramFilter.init (retime p q o), 0, StdoutSink.init w.write)
    (fun r => (.ok { code := r.1, bytes := r.2.2.2.2.2.out } : Except Stop Ended))
  change Main.filterProgram w o = _ at hA
  change Main.filterProgram w (retime p q o) = _ at hB
  rw [hA] at h
  rw [hB]
  obtain ⟨⟨code, r⟩, g1, h⟩ := bind_ok_iff.1 h
  cases h
  obtain ⟨⟨code', r'⟩, g2, g3, g4⟩ := key _ (mapError_ok_iff.1 g1)
  refine bind_ok_iff.2 ⟨(code', r'), mapError_ok_iff.2 g2, ?_⟩
  dsimp only at g3 g4
  obtain ⟨z1, z2, z3, z4⟩ := g4
  rw [g3, z4]

end Mirakc.Retimed
