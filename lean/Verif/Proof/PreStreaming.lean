import Verif.Proof.ExitCodes
import Verif.Proof.Pipeline
/-
Lemmas: what pre-streaming adds.
-/
namespace Mirakc.PreStreaming
open Mirakc.Main Mirakc.Pipeline Mirakc.Spec.Main Mirakc.Spec.Pipeline

/-! One run follows another as long as the other does not fail. -/

/-- If the first succeeds, the second succeeds with a related result. -/
def Sim {ε α β : Type} (R : α → β → Prop) (x : Except ε α) (y : Except ε β) : Prop :=
  ∀ a, x = .ok a → ∃ b, y = .ok b ∧ R a b

theorem Sim.bind {ε α β γ δ : Type} {R : α → β → Prop} {S : γ → δ → Prop} {x : Except ε α} {y : Except ε β}
    {f : α → Except ε γ} {g : β → Except ε δ} (h : Sim R x y) (hf : ∀ a b, R a b → Sim S (f a) (g b)) :
    Sim S (x >>= f) (y >>= g) := by
  intro c hc
  obtain ⟨a, h1, h2⟩ := bind_ok_iff.1 hc
  obtain ⟨b, h3, h4⟩ := h a h1
  obtain ⟨d, h5, h6⟩ := hf a b h4 c h2
  exact ⟨d, bind_ok_iff.2 ⟨b, h3, h5⟩, h6⟩

theorem Sim.ok {ε α β : Type} {R : α → β → Prop} {a : α} {b : β} (h : R a b) :
    Sim (ε := ε) R (.ok a) (.ok b) := fun c hc => by cases hc; exact ⟨b, rfl, h⟩

theorem Sim.mapError {ε ε' α β : Type} {R : α → β → Prop} {f : ε → ε'} {x : Except ε α} {y : Except ε β} (h : Sim R x y) :
    Sim R (x.mapError f) (y.mapError f) := by
  intro a ha
  obtain ⟨b, h1, h2⟩ := h a (mapError_ok_iff.1 ha)
  exact ⟨b, mapError_ok_iff.2 h1, h2⟩

/-- A sink that follows another: related by `S` until the end, by `T` then. -/
structure SinkSim {P σ σ' : Type} (G : P → Prop) (S T : σ → σ' → Prop) (k : Sink P σ) (k' : Sink P σ') : Prop where
  start : ∀ s s', S s s' → Sim (fun a b => b.1 = a.1 ∧ a.1 = true ∧ S a.2 b.2) (k.start s) (k'.start s')
  handle : ∀ s s' p, G p → S s s' → Sim (fun a b => b.1 = a.1 ∧ S a.2 b.2) (k.handle s p) (k'.handle s' p)
  finish : ∀ s s', S s s' → Sim T (k.finish s) (k'.finish s')
  exitCode : ∀ s s', T s s' → k'.exitCode s' = k.exitCode s

section
variable {P σ σ' : Type} {G : P → Prop} {S T : σ → σ' → Prop} {k : Sink P σ} {k' : Sink P σ'}

theorem foldP_sim (h : SinkSim G S T k k') : ∀ (ps : List P) (_ : ∀ p ∈ ps, G p) (s : σ) (s' : σ'), S s s' →
    Sim S (foldP k ps s) (foldP k' ps s')
  | [], _, _, _, hs => Sim.ok hs
  | p :: ps, hp, s, s', hs => by
    refine (h.handle s s' p (hp p (by simp)) hs).bind fun a b hab => ?_
    obtain ⟨ok, a⟩ := a
    obtain ⟨ok', b⟩ := b
    obtain ⟨h1, h2⟩ := hab
    cases h1
    cases ok with
    | false => exact Sim.ok h2
    | true => exact foldP_sim h ps (fun q hq => hp q (by simp [hq])) _ _ h2

theorem around_sim (h : SinkSim G S T k k') {ps : List P} (hp : ∀ p ∈ ps, G p) {s : σ} {s' : σ'} (hs : S s s') :
    Sim (fun a b => b.1 = a.1 ∧ T a.2 b.2) (around k s (foldP k ps)) (around k' s' (foldP k' ps)) := by
  unfold around
  refine (h.start s s' hs).bind fun a b hab => ?_
  obtain ⟨ok, a⟩ := a
  obtain ⟨ok', b⟩ := b
  obtain ⟨h1, h3, h2⟩ := hab
  cases h1
  cases h3
  refine (foldP_sim h ps hp _ _ h2).bind fun c d hcd => ?_
  refine (h.finish _ _ hcd).bind fun e f hef => ?_
  exact Sim.ok ⟨h.exitCode _ _ hef, hef⟩

theorem via_sim {Q : Type} (h : SinkSim G S T k k') (f : Nat → Q → P) :
    SinkSim (fun q => ∀ n, G (f n q)) (fun a b => b.1 = a.1 ∧ S a.2 b.2) (fun a b => b.1 = a.1 ∧ T a.2 b.2)
      (via f k) (via f k') where
  start s s' hs := (h.start _ _ hs.2).bind fun a b hab => Sim.ok ⟨hab.1, hab.2.1, hs.1, hab.2.2⟩
  handle s s' q hq hs := by
    obtain ⟨n, s⟩ := s
    obtain ⟨n', s'⟩ := s'
    obtain ⟨h1, h2⟩ := hs
    cases h1
    exact (h.handle _ _ _ (hq n) h2).bind fun a b hab => Sim.ok ⟨hab.1, rfl, hab.2⟩
  finish s s' hs := (h.finish _ _ hs.2).bind fun a b hab => Sim.ok ⟨hs.1, hab⟩
  exitCode s s' hs := h.exitCode _ _ hs.2

end

theorem sends_orig {o : ServiceFilter.Opt} {s f : ServiceFilter.St} {i : Input} {log : List Table} {p : Packet}
    (h : ServiceFilter.step o s i = .ok (f, log, .send (.orig p))) : p = i.packet ∧ p.pid ≠ 0 := by
  unfold ServiceFilter.step at h
  obtain ⟨⟨s1, log1⟩, _, h⟩ := bind_ok_iff.1 h
  dsimp only at h
  split at h
  · cases h
  · split at h
    · cases h
    · split at h
      · split at h <;> cases h
      · next hp =>
        obtain ⟨_, _, h⟩ := bind_ok_iff.1 h
        cases h
        exact ⟨rfl, by simpa [pidPat] using hp⟩

/-- The service filter in front. -/
theorem service_sim {σ σ' : Type} {G : ServiceFilter.Out → Prop} {S T : σ → σ' → Prop} {k : Sink ServiceFilter.Out σ}
    {k' : Sink ServiceFilter.Out σ'} (h : SinkSim G S T k k') (hp : ∀ t n, G (.pat t n)) (o : ServiceFilter.Opt) :
    SinkSim (fun i => i.packet.pid ≠ 0 → G (.orig i.packet)) (fun a b => b.1 = a.1 ∧ S a.2 b.2)
      (fun a b => b.1 = a.1 ∧ T a.2 b.2) (ServiceFilter.sink o k) (ServiceFilter.sink o k') where
  start s s' hs := (h.start _ _ hs.2).bind fun a b hab => Sim.ok ⟨hab.1, hab.2.1, hs.1, hab.2.2⟩
  handle s s' i hi hs := by
    obtain ⟨f, s⟩ := s
    obtain ⟨f', s'⟩ := s'
    obtain ⟨h1, h2⟩ := hs
    cases h1
    intro a ha
    obtain ⟨⟨f1, log, act⟩, hstep, ha⟩ := bind_ok_iff.1 ha
    suffices H : ∃ b, (match act with
        | .stop => .ok (false, f1, s')
        | .drop => .ok (true, f1, s')
        | .send x => do
          let (ok, d) ← k'.handle s' x
          .ok (ok, f1, d) : Except Fault (Bool × ServiceFilter.St × σ')) = .ok b ∧
        b.1 = a.1 ∧ b.2.1 = a.2.1 ∧ S a.2.2 b.2.2 by
      obtain ⟨b, hb, hr⟩ := H
      exact ⟨b, bind_ok_iff.2 ⟨_, hstep, hb⟩, hr⟩
    cases act with
    | stop => cases ha; exact ⟨_, rfl, rfl, rfl, h2⟩
    | drop => cases ha; exact ⟨_, rfl, rfl, rfl, h2⟩
    | send x =>
      obtain ⟨⟨ok, d⟩, h3, ha⟩ := bind_ok_iff.1 ha
      cases ha
      have hg : G x := by
        cases x with
        | pat t n => exact hp t n
        | orig p =>
          obtain ⟨rfl, h5⟩ := sends_orig hstep
          exact hi h5
      obtain ⟨⟨ok', d'⟩, h4, h5, h6⟩ := h.handle _ _ _ hg h2 _ h3
      exact ⟨_, bind_ok_iff.2 ⟨_, h4, rfl⟩, h5, rfl, h6⟩
  finish s s' hs := (h.finish _ _ hs.2).bind fun a b hab => Sim.ok ⟨hs.1, hab⟩
  exitCode s s' hs := by
    have h1 := h.exitCode _ _ hs.2
    have h2 : s'.1 = s.1 := hs.1
    show (if k'.exitCode s'.2 == exitSuccess then if s'.1.error then exitFailure else k'.exitCode s'.2 else k'.exitCode s'.2) = _
    rw [h1, h2]
    rfl

/-! The packets of the PAT that are kept have no influence on anything else. -/

section
open ProgramFilter

/-- The state with other packets kept. -/
def keep (l : List Packet) (s : St) : St := { s with lastPat := l }

theorem map_ok {ε α β : Type} {f : α → β} {x : Except ε α} {b : β} (h : x.map f = .ok b) : ∃ a, x = .ok a ∧ b = f a := by
  cases x with
  | error => cases h
  | ok a => cases h; exact ⟨a, rfl, rfl⟩

theorem bind_map {ε α β γ δ : Type} {x : Except ε α} {y : Except ε β} {g : α → β} {f : α → Except ε γ} {f' : β → Except ε δ}
    {h : γ → δ} (hx : y = x.map g) (hf : ∀ a, f' (g a) = (f a).map h) : (y >>= f') = (x >>= f).map h := by
  subst hx
  cases x with
  | error => rfl
  | ok a => exact hf a

theorem bind_keep {ε α γ δ : Type} {x : Except ε α} {f : α → Except ε γ} {f' : α → Except ε δ}
    {h : γ → δ} (hf : ∀ a, f' a = (f a).map h) : (x >>= f') = (x >>= f).map h := by
  cases x with
  | error => rfl
  | ok a => exact hf a

theorem ite_map {ε γ δ : Type} {c c' : Prop} [Decidable c] [Decidable c'] {a b : Except ε γ} {a' b' : Except ε δ} {h : γ → δ}
    (hc : c' ↔ c) (h1 : a' = a.map h) (h2 : b' = b.map h) :
    (if c' then a' else b') = (if c then a else b).map h := by
  by_cases hx : c
  · rw [if_pos hx, if_pos (hc.2 hx), h1]
  · rw [if_neg hx, if_neg (fun h => hx (hc.1 h)), h2]

theorem ite_of {α β : Type} {c c' : Prop} [Decidable c] [Decidable c'] {a b : α} {a' b' : β} {h : α → β}
    (hc : c' ↔ c) (h1 : a' = h a) (h2 : b' = h b) : (if c' then a' else b') = h (if c then a else b) := by
  by_cases hx : c
  · rw [if_pos hx, if_pos (hc.2 hx), h1]
  · rw [if_neg hx, if_neg (fun h => hx (hc.1 h)), h2]

theorem range_keep (l : List Packet) (s : St) : updatePcrRange (keep l s) = (updatePcrRange s).map (keep l) :=
  bind_keep fun _ => bind_keep fun _ => bind_keep fun _ => bind_keep fun _ => bind_keep fun _ => rfl

theorem clockPcr_keep (l : List Packet) (s : St) (x : Int) :
    updateClockPcr (keep l s) x = (updateClockPcr s x).map (keep l) := by
  refine bind_keep fun _ => ?_
  dsimp only [keep]
  split
  · exact range_keep l { s with clockPcr := x, clockPcrReady := true }
  · rfl

theorem clockTime_keep (l : List Packet) (s : St) (x : Int) :
    updateClockTime (keep l s) x = (updateClockTime s x).map (keep l) := by
  refine bind_keep fun _ => ?_
  dsimp only [keep]
  split
  · exact range_keep l { s with clockTime := x, clockTimeReady := true }
  · rfl

theorem event_keep (o : Opt) (b : Bool) (l : List Packet) (s : St) (e : Event) :
    updateEventTime { o with preStreaming := b } (keep l s) e = (updateEventTime o s e).map (keep l) := by
  refine bind_keep fun _ => bind_keep fun d => ?_
  dsimp only [keep]
  split
  · exact range_keep l { s with eventStart := e.startTime - o.startMargin, eventEnd := e.startTime + d, eventTimeReady := true }
  · rfl

theorem sync_keep (l : List Packet) (s : St) (x : Int) : syncClock (keep l s) x = (syncClock s x).map (keep l) := by
  unfold syncClock
  have : needClockSync (keep l s) = needClockSync s := rfl
  rw [this]
  split
  · exact clockPcr_keep l s x
  · rfl

theorem pat_keep (o : Opt) (b : Bool) (l : List Packet) (s : St) (t : Table) (pat : Pat) :
    handlePat { o with preStreaming := b } (keep l s) t pat = (handlePat o s t pat).map (keep l) := by
  unfold handlePat
  split
  · rfl
  · split
    · rfl
    · split
      · rfl
      · dsimp only
        cases pat.pmts.find? o.sid with
        | none => rfl
        | some pid => rfl

theorem pmt_keep (o : Opt) (b : Bool) (l : List Packet) (s : St) (t : Table) (pmt : Pmt) :
    handlePmt { o with preStreaming := b } (keep l s) t pmt = (handlePmt o s t pmt).map (keep l) := by
  unfold handlePmt
  dsimp only [keep]
  split
  · rfl
  · split
    · rfl
    · by_cases h : (s.clockPid != pmt.pcrPid) = true
      · rw [if_pos h, if_pos h]; rfl
      · rw [if_neg h, if_neg h]; rfl

theorem eit_keep (o : Opt) (b : Bool) (l : List Packet) (s : St) (t : Table) (eit : Eit) :
    handleEit { o with preStreaming := b } (keep l s) t eit = (handleEit o s t eit).map (keep l) := by
  unfold handleEit
  split
  · rfl
  · split
    · rfl
    · cases eit.events with
      | nil => rfl
      | cons e es =>
        dsimp only
        split
        · exact event_keep o b l s e
        · cases es with
          | nil =>
            exact ite_map Iff.rfl rfl rfl
          | cons f es =>
            exact ite_map Iff.rfl (event_keep o b l s f) (ite_map Iff.rfl rfl (ite_map Iff.rfl rfl rfl))

theorem tot_keep (o : Opt) (b : Bool) (l : List Packet) (s : St) (t : Table) (x : Int) :
    handleTot { o with preStreaming := b } (keep l s) t x = (handleTot o s t x).map (keep l) := by
  unfold handleTot
  split
  · rfl
  · dsimp only
    have : (if (!(keep l s).streaming) = true then checkTimeLimit { o with preStreaming := b } (keep l s) x else keep l s) =
        keep l (if (!s.streaming) = true then checkTimeLimit o s x else s) := by
      refine ite_of (h := keep l) Iff.rfl ?_ rfl
      unfold checkTimeLimit
      dsimp only
      cases o.waitUntil with
      | none => rfl
      | some lim => exact ite_of (h := keep l) Iff.rfl rfl rfl
    rw [this]
    generalize (if (!s.streaming) = true then checkTimeLimit o s x else s) = s1
    have h : (keep l s1).clockTimeReady = s1.clockTimeReady := rfl
    rw [h]
    split
    · rfl
    · exact clockTime_keep l s1 x

theorem table_keep (o : Opt) (b : Bool) (l : List Packet) (s : St) (t : Table) :
    handleTable { o with preStreaming := b } (keep l s) t = (handleTable o s t).map (keep l) := by
  unfold handleTable
  cases t.body with
  | pat p => exact pat_keep o b l s t p
  | pmt p => exact pmt_keep o b l s t p
  | eit p => exact eit_keep o b l s t p
  | tot p => exact tot_keep o b l s t p
  | _ => rfl

theorem tables_keep (o : Opt) (b : Bool) (l : List Packet) (pid : Nat) : ∀ (ts : List Table) (s : St),
    feedDemux St.demux (handleTable { o with preStreaming := b }) pid ts (keep l s) =
      (feedDemux St.demux (handleTable o) pid ts s).map fun r => (keep l r.1, r.2)
  | [], s => rfl
  | t :: ts, s => by
    simp only [feedDemux]
    have : (keep l s).demux = s.demux := rfl
    rw [this]
    split
    · exact bind_map (table_keep o b l s t) fun a => bind_map (tables_keep o b l pid ts a) fun _ => rfl
    · exact tables_keep o b l pid ts s

theorem next_keep (extra : Pmt → Nat) (l : List Packet) (s : St) :
    nextPmt extra (keep l s) = (nextPmt extra s).map fun r => (r.1, keep l r.2) :=
  bind_keep fun _ => bind_keep fun _ => rfl

theorem cycle_keep (extra : Pmt → Nat) (l : List Packet) : ∀ (fuel : Nat) (s : St),
    sendCycle extra fuel (keep l s) = (sendCycle extra fuel s).map fun r => (r.1, keep l r.2)
  | 0, _ => rfl
  | fuel + 1, s => by
    unfold sendCycle
    refine bind_map (next_keep extra l s) fun a => ?_
    dsimp only [keep]
    split
    · rfl
    · exact bind_map (cycle_keep extra l fuel a.2) fun _ => rfl

theorem forward_keep (extra : Pmt → Nat) (l : List Packet) (s : St) (p : Packet) :
    forward extra (keep l s) p = (forward extra s p).map fun r => (keep l r.1, r.2) := by
  unfold forward
  exact ite_map Iff.rfl (bind_map (next_keep extra l s) fun _ => rfl) (ite_map Iff.rfl rfl rfl)

theorem streaming_keep (extra : Pmt → Nat) (l : List Packet) (s : St) (p : Packet) :
    doStreaming extra (keep l s) p = (doStreaming extra s p).map fun r => (keep l r.1, r.2) := by
  unfold doStreaming
  refine ite_map Iff.rfl rfl (ite_map Iff.rfl ?_ (forward_keep extra l s p))
  cases p.pcr with
  | none => rfl
  | some pcr =>
    refine bind_map (sync_keep l s _) fun a => ?_
    refine ite_map Iff.rfl rfl (bind_keep fun c => ite_map Iff.rfl rfl (forward_keep extra l a p))

/-- What is left alone. -/
theorem tables_kept {o : Opt} {pid : Nat} {ts log : List Table} {s s' : St}
    (h : feedDemux St.demux (handleTable o) pid ts s = .ok (s', log)) : s'.lastPat = s.lastPat := by
  have := tables_keep o o.preStreaming s.lastPat pid ts s
  change feedDemux St.demux (handleTable o) pid ts s = _ at this
  rw [h] at this
  have := Except.ok.inj this
  exact congrArg (fun r => r.1.lastPat) this

theorem sync_kept {s s' : St} {x : Int} (h : syncClock s x = .ok s') : s'.lastPat = s.lastPat := by
  have := sync_keep s.lastPat s x
  change syncClock s x = _ at this
  rw [h] at this
  have := Except.ok.inj this
  exact congrArg (fun r => r.lastPat) this

/-- Without and with pre-streaming. -/
def off (o : Opt) : Opt := { o with preStreaming := false }
def on (o : Opt) : Opt := { o with preStreaming := true }

/-- The packets kept after a packet. -/
def after (s : St) (p : Packet) : List Packet :=
  if p.pid = 0 then (if p.pusi then [] else s.lastPat) ++ [p] else s.lastPat

theorem save_eq (s : St) (p : Packet) : savePat s p = keep (after s p) s := by
  unfold savePat after
  by_cases h : p.pid = 0
  · rw [if_pos (by simpa [pidPat] using h), if_pos h]; rfl
  · rw [if_neg (by simpa [pidPat] using h), if_neg h]; rfl

/-- `waitStart` after the packet was kept. -/
def later (b : Bool) (s : St) (p : Packet) : Except Fault (St × Option (List Out × Bool)) := do
  if !s.pcrPidReady || !s.eventTimeReady then .ok (s, some ([], true))
  else if p.pid != s.pcrPid then .ok (s, some ([], true))
  else
    match p.pcr with
    | none => .ok (s, some ([], true))
    | some pcr => do
      let s ← syncClock s pcr
      if needClockSync s then .ok (s, some ([], true))
      else
        let c ← comparePcr pcr s.endPcr
        if c ≥ 0 then .ok (s, some ([], false))
        else
          let c ← comparePcr pcr s.startPcr
          if c < 0 then .ok (s, some ([], true))
          else
            assertThat (b || !s.lastPat.isEmpty)
            .ok (s, none)

theorem waitStart_later (o : Opt) (s : St) (p : Packet) : waitStart o s p =
    if s.stop then .ok ({ s with retry := true }, some ([], false))
    else if p.pid == pidPat && o.preStreaming then .ok (s, some ([.orig p], true))
    else later o.preStreaming (savePat s p) p := rfl

/-- The packets kept do not matter with pre-streaming. -/
theorem later_keep (l : List Packet) (s : St) (p : Packet) :
    later true (keep l s) p = (later true s p).map fun r => (keep l r.1, r.2) := by
  unfold later
  refine ite_map Iff.rfl rfl (ite_map Iff.rfl rfl ?_)
  cases p.pcr with
  | none => rfl
  | some pcr =>
    refine bind_map (sync_keep l s _) fun a => ?_
    refine ite_map Iff.rfl rfl (bind_keep fun c => ite_map Iff.rfl rfl (bind_keep fun c => ite_map Iff.rfl rfl rfl))

theorem later_on {s : St} {p : Packet} {r : St × Option (List Out × Bool)} (h : later false s p = .ok r) :
    later true s p = .ok r ∧ r.1.lastPat = s.lastPat ∧ (r.2 = none ∨ ∃ more, r.2 = some ([], more)) ∧
      (p.pcr = none → r = (s, some ([], true))) := by
  unfold later at h ⊢
  split at h
  · next hc => cases h; rw [if_pos hc]; exact ⟨rfl, rfl, Or.inr ⟨_, rfl⟩, fun _ => rfl⟩
  · next hc =>
    rw [if_neg hc]
    split at h
    · next hc => cases h; rw [if_pos hc]; exact ⟨rfl, rfl, Or.inr ⟨_, rfl⟩, fun _ => rfl⟩
    · next hc =>
      rw [if_neg hc]
      cases hp : p.pcr with
      | none => rw [hp] at h; cases h; exact ⟨rfl, rfl, Or.inr ⟨_, rfl⟩, fun _ => rfl⟩
      | some pcr =>
        rw [hp] at h
        dsimp only at h ⊢
        obtain ⟨s2, h2, h⟩ := bind_ok_iff.1 h
        have hk := sync_kept h2
        suffices H : ∀ x : Except Fault (St × Option (List Out × Bool)), x = .ok r ∧ r.1.lastPat = s2.lastPat ∧
            (r.2 = none ∨ ∃ more, r.2 = some ([], more)) → (syncClock s pcr >>= fun _ => x) = .ok r ∧
            r.1.lastPat = s.lastPat ∧ (r.2 = none ∨ ∃ more, r.2 = some ([], more)) ∧
            (some pcr = none → r = (s, some ([], true))) by
          rw [h2] at H ⊢
          refine H _ ?_
          clear H
          split at h
          · next hc => cases h; rw [if_pos hc]; exact ⟨rfl, rfl, Or.inr ⟨_, rfl⟩⟩
          · next hc =>
            rw [if_neg hc]
            obtain ⟨c, h3, h⟩ := bind_ok_iff.1 h
            rw [h3]
            refine (?_ : (if c ≥ 0 then _ else _) = _ ∧ _)
            split at h
            · next hc => cases h; rw [if_pos hc]; exact ⟨rfl, rfl, Or.inr ⟨_, rfl⟩⟩
            · next hc =>
              rw [if_neg hc]
              obtain ⟨c, h4, h⟩ := bind_ok_iff.1 h
              rw [h4]
              refine (?_ : (if c < 0 then _ else _) = _ ∧ _)
              split at h
              · next hc => cases h; rw [if_pos hc]; exact ⟨rfl, rfl, Or.inr ⟨_, rfl⟩⟩
              · next hc =>
                rw [if_neg hc]
                obtain ⟨_, _, h⟩ := bind_ok_iff.1 h
                cases h
                exact ⟨rfl, rfl, Or.inl rfl⟩
        intro x ⟨h5, h6, h7⟩
        rw [h2]
        exact ⟨h5, h6.trans hk, h7, fun h => by cases h⟩

/-- Waiting for the start: the same, except for the packets of the PAT. -/
theorem waitStart_both {o : Opt} {s s1 : St} {p : Packet} {r : Option (List Out × Bool)} (hp : p.pid = 0 → p.pcr = none)
    (h : waitStart (off o) s p = .ok (s1, r)) :
    (∃ more, r = some ([], more) ∧ s1.lastPat = s.lastPat ∧ waitStart (on o) (keep [] s) p = .ok (keep [] s1, some ([], more))) ∨
    (r = some ([], true) ∧ p.pid = 0 ∧ s1.lastPat = after s p ∧
      waitStart (on o) (keep [] s) p = .ok (keep [] s1, some ([.orig p], true))) ∨
    (r = none ∧ s1.lastPat = s.lastPat ∧ waitStart (on o) (keep [] s) p = .ok (keep [] s1, none)) := by
  rw [waitStart_later] at h ⊢
  by_cases hs : s.stop = true
  · rw [if_pos hs] at h
    cases h
    rw [if_pos (show (keep [] s).stop = true from hs)]
    exact Or.inl ⟨false, rfl, rfl, rfl⟩
  · rw [if_neg hs, if_neg (by simp [off])] at h
    rw [if_neg (show ¬ (keep [] s).stop = true from hs)]
    obtain ⟨h1, h2, h3, h4⟩ := later_on h
    by_cases h0 : p.pid = 0
    · have := h4 (hp h0)
      cases this
      rw [if_pos (by simp [on, pidPat, h0])]
      refine Or.inr (Or.inl ⟨rfl, h0, ?_, ?_⟩)
      · rw [save_eq]; rfl
      · rw [save_eq]; rfl
    · have ha : after s p = s.lastPat := by unfold after; rw [if_neg h0]
      have hsv : savePat s p = s := by rw [save_eq, ha]; rfl
      have hsv' : savePat (keep [] s) p = keep [] s := by
        unfold savePat; rw [if_neg (by simpa [pidPat] using h0)]
      rw [if_neg (by simp [pidPat, h0]), hsv']
      rw [hsv] at h1 h2
      have h5 := later_keep [] s p
      rw [h1] at h5
      change later true (keep [] s) p = .ok (keep [] s1, r) at h5
      change _ ∨ _ ∨ _
      rw [show (on o).preStreaming = true from rfl, h5]
      rcases h3 with h3 | ⟨more, h3⟩
      · cases h3; exact Or.inr (Or.inr ⟨rfl, h2, rfl⟩)
      · cases h3; exact Or.inl ⟨more, rfl, h2, rfl⟩

/-- What a packet leads to without and with pre-streaming. -/
inductive Next (s f : St) (p : Packet) : List Out → List Out → Prop where
  | streaming {outs} : s.streaming = true → f.streaming = true → f.lastPat = s.lastPat → Next s f p outs outs
  | begin {outs} : s.streaming = false → f.streaming = true → f.lastPat = [] →
      Next s f p (s.lastPat.map .orig ++ outs) outs
  | waiting : s.streaming = false → f.streaming = false → f.lastPat = s.lastPat → Next s f p [] []
  | pat : s.streaming = false → f.streaming = false → p.pid = 0 → f.lastPat = after s p → Next s f p [] [.orig p]

theorem step_both {extra : Pmt → Nat} {o : Opt} {s f : St} {i : Input} {log : List Table} {outs : List Out} {more : Bool}
    (hp : i.packet.pid = 0 → i.packet.pcr = none) (h : step extra (off o) s i = .ok (f, log, outs, more)) :
    ∃ outs', step extra (on o) (keep [] s) i = .ok (keep [] f, log, outs', more) ∧ Next s f i.packet outs outs' := by
  unfold step at h ⊢
  obtain ⟨⟨s1, log1⟩, h1, h⟩ := bind_ok_iff.1 h
  have h1' := tables_keep (off o) true [] i.packet.pid i.tables s
  rw [h1] at h1'
  change feedDemux St.demux (handleTable (on o)) i.packet.pid i.tables (keep [] s) = .ok (keep [] s1, log1) at h1'
  rw [h1']
  have hk := tables_kept h1
  have hf := ExitCodes.tables_flags h1
  dsimp only at h
  show ∃ outs', (if (keep [] s1).streaming then doStreaming extra (keep [] s1) i.packet >>= fun r => .ok (r.1, log1, r.2.1, r.2.2)
    else waitReady extra (on o) (keep [] s1) i.packet >>= fun r => .ok (r.1, log1, r.2.1, r.2.2)) =
      .ok (keep [] f, log, outs', more) ∧ Next s f i.packet outs outs'
  by_cases hs : s1.streaming = true
  · rw [if_pos hs] at h
    rw [if_pos (show (keep [] s1).streaming = true from hs)]
    obtain ⟨⟨s2, outs2, more2⟩, h2, h⟩ := bind_ok_iff.1 h
    cases h
    have h3 := streaming_keep extra [] s1 i.packet
    rw [h2] at h3
    rw [h3]
    have h4 := streaming_keep extra s1.lastPat s1 i.packet
    change doStreaming extra s1 i.packet = _ at h4
    rw [h2] at h4
    have h5 := congrArg (fun r => r.1.lastPat) (Except.ok.inj h4)
    have h6 := ExitCodes.streaming_flags h2
    exact ⟨_, rfl, .streaming (hf.1.symm.trans hs) (h6.1.trans hs) (Eq.trans h5 hk)⟩
  · have hs' : s.streaming = false := by
      rw [← hf.1]; simpa using hs
    rw [if_neg hs] at h
    rw [if_neg (show ¬ (keep [] s1).streaming = true from hs)]
    obtain ⟨⟨s2, outs2, more2⟩, h2, h⟩ := bind_ok_iff.1 h
    cases h
    unfold waitReady at h2 ⊢
    obtain ⟨⟨s3, r⟩, h3, h2⟩ := bind_ok_iff.1 h2
    rcases waitStart_both hp h3 with ⟨more', rfl, h4, h5⟩ | ⟨rfl, h0, h4, h5⟩ | ⟨rfl, h4, h5⟩
    · cases h2
      have g := ExitCodes.waitStart_flags h3
      rw [h5]
      exact ⟨[], rfl, .waiting hs' (by rw [g.1]; simpa using hs) (h4.trans hk)⟩
    · cases h2
      have g := ExitCodes.waitStart_flags h3
      rw [h5]
      refine ⟨_, rfl, .pat hs' (by rw [g.1]; simpa using hs) h0 ?_⟩
      rw [h4]
      unfold after
      rw [hk]
    · rw [h5]
      dsimp only at h2
      obtain ⟨⟨pmts, s4⟩, h6, h2⟩ := bind_ok_iff.1 h2
      cases h2
      change sendCycle extra ((s3.pk.cur.map (extra ·.1)).getD 0 + (s3.pk.table.map extra).getD 0 + 1) (keep [] s3) = .ok (pmts, s4) at h6
      have h7 : s4.lastPat = [] := by
        have h7 := cycle_keep extra [] ((s3.pk.cur.map (extra ·.1)).getD 0 + (s3.pk.table.map extra).getD 0 + 1) s3
        rw [h6] at h7
        obtain ⟨r, _, hr⟩ := map_ok h7.symm
        have := congrArg (fun r => r.2.lastPat) hr
        exact this
      refine ⟨pmts ++ [.orig i.packet], ?_, ?_⟩
      · show ((sendCycle extra ((s3.pk.cur.map (extra ·.1)).getD 0 + (s3.pk.table.map extra).getD 0 + 1) (keep [] s3) >>= fun r =>
          (.ok ({ r.2 with streaming := true }, r.1 ++ [.orig i.packet], true) : Except Fault _)) >>= fun r => .ok (r.1, log, r.2.1, r.2.2)) = _
        rw [h6]
        show Except.ok ({ s4 with streaming := true }, log, pmts ++ [.orig i.packet], true) = _
        rw [show keep [] { s4 with streaming := true } = { s4 with streaming := true } by
          unfold keep; rw [← h7]]
      · have : pendingPat (off o) s3 ++ pmts ++ [.orig i.packet] = s.lastPat.map .orig ++ (pmts ++ [.orig i.packet]) := by
          rw [List.append_assoc]
          congr 1
          show s3.lastPat.map _ = _
          rw [h4, hk]
        rw [this]
        exact .begin hs' rfl h7

/-! Standard output. -/

theorem stdout_takes {ws : List Int} (hw : ∀ x ∈ ws, 0 ≤ x) {F : List UInt8} {d : StdoutSink.St}
    (h : StdoutSink.Inv ws F d) {p : List UInt8} (hp : p.length = 188) :
    ∃ d', StdoutSink.handlePacket d p = .ok (true, d') ∧ StdoutSink.Inv ws (F ++ p) d' := by
  rcases StdoutSink.handle_spec h p hp with h1 | ⟨_, _, h2⟩
  · exact h1
  · obtain ⟨used, w, _, h4, h5⟩ := h2.oracle
    have := hw w (by rw [h5]; simp)
    omega

theorem stdout_ends {ws : List Int} (hw : ∀ x ∈ ws, 0 ≤ x) {F : List UInt8} {d : StdoutSink.St}
    (h : StdoutSink.Inv ws F d) : (StdoutSink.flush d).2.out = F := by
  obtain ⟨_, h2, used0, _, h4⟩ := h
  obtain ⟨used, h | h⟩ := StdoutSink.flush_spec d
  · obtain ⟨rest, _, _, h7⟩ := h
    rw [h7, ← h2]
  · obtain ⟨rest, k, w, _, h6, h7, _⟩ := h
    have := hw w (by rw [h4, h6]; simp)
    omega

/-- The bytes of packets. -/
def bytesOf (c : Codec) (xs : List Out) : List UInt8 := (xs.map (programBytes c)).flatten

/-- The sink behind the program filter. -/
abbrev behind (c : Codec) : Sink Out (Nat × StdoutSink.St) := via (fun _ => programBytes c) StdoutSink.sink

theorem all_sent {c : Codec} {ws : List Int} (hw : ∀ x ∈ ws, 0 ≤ x) : ∀ (xs : List Out) (n : Nat) (F : List UInt8)
    (d : StdoutSink.St), (∀ x ∈ xs, (programBytes c x).length = 188) → StdoutSink.Inv ws F d →
    ∃ m d', sendAll (behind c) xs (n, d) = .ok (true, m, d') ∧ StdoutSink.Inv ws (F ++ bytesOf c xs) d'
  | [], n, F, d, _, hi => ⟨n, d, rfl, by simpa [bytesOf] using hi⟩
  | x :: xs, n, F, d, hx, hi => by
    obtain ⟨d1, h1, h2⟩ := stdout_takes hw hi (hx x (by simp))
    obtain ⟨m, d2, h3, h4⟩ := all_sent hw xs (n + 1) _ d1 (fun y hy => hx y (by simp [hy])) h2
    refine ⟨m, d2, ?_, by simpa [bytesOf] using h4⟩
    have : (behind c).handle (n, d) x = .ok (true, n + 1, d1) := by
      show (StdoutSink.handlePacket d (programBytes c x) >>= fun r => .ok (r.1, n + 1, r.2)) = _
      rw [h1]; rfl
    unfold sendAll
    rw [this]
    exact h3

/-! Both filters. -/

/-- What has been passed on without (`a`) and with (`b`) pre-streaming. -/
def Passed (s : St) (a b : List Out) : Prop :=
  ∃ pre : List Packet, (∀ p ∈ pre, p.pid = 0) ∧
    ((s.streaming = true ∧ s.lastPat = [] ∧ b = pre.map .orig ++ a) ∨
     (s.streaming = false ∧ a = [] ∧ (∀ p ∈ s.lastPat, p.pid = 0) ∧ b = (pre ++ s.lastPat).map .orig))

theorem passed_next {s f : St} {p : Packet} {a b outs outs' : List Out} (h : Passed s a b) (hn : Next s f p outs outs') :
    Passed f (a ++ outs) (b ++ outs') := by
  obtain ⟨pre, hpre, h⟩ := h
  cases hn with
  | streaming h1 h2 h3 =>
    rcases h with ⟨_, h5, h6⟩ | ⟨h4, _⟩
    · exact ⟨pre, hpre, Or.inl ⟨h2, h3.trans h5, by rw [h6, List.append_assoc]⟩⟩
    · rw [h1] at h4; cases h4
  | begin h1 h2 h3 =>
    rcases h with ⟨h4, _⟩ | ⟨_, h5, h7, h6⟩
    · rw [h1] at h4; cases h4
    · exact ⟨pre, hpre, Or.inl ⟨h2, h3, by rw [h6, h5]; simp⟩⟩
  | waiting h1 h2 h3 =>
    rcases h with ⟨h4, _⟩ | ⟨_, h5, h7, h6⟩
    · rw [h1] at h4; cases h4
    · exact ⟨pre, hpre, Or.inr ⟨h2, by rw [h5]; rfl, by rw [h3]; exact h7, by rw [h3, List.append_nil]; exact h6⟩⟩
  | pat h1 h2 h0 h3 =>
    rcases h with ⟨h4, _⟩ | ⟨_, h5, h7, h6⟩
    · rw [h1] at h4; cases h4
    · unfold after at h3
      rw [if_pos h0] at h3
      by_cases hu : p.pusi = true
      · rw [if_pos hu] at h3
        refine ⟨pre ++ s.lastPat, ?_, Or.inr ⟨h2, by rw [h5]; rfl, ?_, ?_⟩⟩
        · intro q hq
          rcases List.mem_append.1 hq with hq | hq
          · exact hpre q hq
          · exact h7 q hq
        · intro q hq
          rw [h3] at hq
          cases List.mem_singleton.1 hq
          exact h0
        · rw [h3, h6]; simp
      · rw [if_neg hu] at h3
        refine ⟨pre, hpre, Or.inr ⟨h2, by rw [h5]; rfl, ?_, ?_⟩⟩
        · intro q hq
          rw [h3] at hq
          rcases List.mem_append.1 hq with hq | hq
          · exact h7 q hq
          · cases List.mem_singleton.1 hq; exact h0
        · rw [h3, h6]; simp

/-- The packets kept are of a kind (`Q`), and so is what has been passed on. -/
structure Both (c : Codec) (ws : List Int) (Q : Packet → Prop) (s s' : St × Nat × StdoutSink.St) : Prop where
  state : s'.1 = keep [] s.1
  kept : ∀ p ∈ s.1.lastPat, Q p
  out : ∃ a b, Passed s.1 a b ∧ (∀ p, .orig p ∈ b → Q p) ∧ StdoutSink.Inv ws (bytesOf c a) s.2.2 ∧
    StdoutSink.Inv ws (bytesOf c b) s'.2.2

/-- In the end. -/
def Done (c : Codec) (Q : Packet → Prop) (s s' : St × Nat × StdoutSink.St) : Prop :=
  s'.1.retry = s.1.retry ∧
    ∃ pats : List Packet, (∀ p ∈ pats, p.pid = 0 ∧ Q p) ∧ s'.2.2.out = (pats.map c.bytes).flatten ++ s.2.2.out

theorem program_sim {c : Codec} (hc : Faithful c) {ws : List Int} (hw : ∀ x ∈ ws, 0 ≤ x) (extra : Pmt → Nat) (o : Opt)
    {Q : Packet → Prop} (hQ : ∀ p, Q p → (c.bytes p).length = 188) :
    SinkSim (fun i => (i.packet.pid = 0 → i.packet.pcr = none) ∧ Q i.packet) (Both c ws Q) (Done c Q)
      (sink extra (off o) (behind c)) (sink extra (on o) (behind c)) where
  start s s' h a ha := by
    cases ha
    exact ⟨(true, s'.1, s'.2), rfl, rfl, rfl, h⟩
  handle s s' i hi h r hr := by
    obtain ⟨s, n, d⟩ := s
    obtain ⟨s', n', d'⟩ := s'
    obtain ⟨h1, h2, a, b, h3, h4, h5, h6⟩ := h
    change s' = keep [] s at h1
    subst h1
    have hlen : ∀ (xs : List Out), (∀ q, .orig q ∈ xs → Q q) → ∀ x ∈ xs, (programBytes c x).length = 188 := by
      intro xs hxs x hx
      cases x with
      | pmt => exact hc.pmt _ _ _ _
      | orig q => exact hQ q (hxs q hx)
    unfold sink at hr
    dsimp only at hr
    split at hr
    · next f log outs more he =>
      obtain ⟨outs', g1, g2⟩ := step_both hi.1 he
      obtain ⟨s1, k1, k2⟩ := step_split he
      have hk := decide_known (Q := Q) (by rw [tables_kept k1]; exact h2) hi.2 k2
      obtain ⟨s1', k1', k2'⟩ := step_split g1
      have hk' := decide_known (Q := Q) (by rw [tables_kept k1']; intro q hq; cases hq) hi.2 k2'
      obtain ⟨m, e, j1, j2⟩ := all_sent hw outs n _ d (hlen outs hk.2) h5
      obtain ⟨m', e', j3, j4⟩ := all_sent hw outs' n' _ d' (hlen outs' hk'.2) h6
      rw [show sendAll (behind c) outs (n, d) = _ from j1] at hr
      cases hr
      refine ⟨(true && more, keep [] f, m', e'), ?_, rfl, rfl, hk.1, a ++ outs, b ++ outs', passed_next h3 g2, ?_, ?_, ?_⟩
      · unfold sink
        dsimp only
        rw [g1]
        show (sendAll (behind c) outs' (n', d') >>= fun r => .ok (r.1 && more, keep [] f, r.2)) = _
        rw [j3]
        rfl
      · intro p hp
        rcases List.mem_append.1 hp with hp | hp
        · exact h4 p hp
        · exact hk'.2 p hp
      · simpa [bytesOf] using j2
      · simpa [bytesOf] using j4
    · next e he =>
      have hann : ∀ x ∈ announced (off o) s i, (programBytes c x).length = 188 := by
        unfold announced
        split
        · intro x hx; cases hx
        · next s1 log k1 =>
          split
          · intro x hx; cases hx
          · split
            · next s2 k2 =>
              rcases waitStart_both hi.1 k2 with ⟨_, g, _⟩ | ⟨g, _⟩ | ⟨_, g, _⟩
              · cases g
              · cases g
              · intro x hx
                change x ∈ s2.lastPat.map Out.orig at hx
                rw [g, tables_kept k1] at hx
                obtain ⟨q, hq, rfl⟩ := List.mem_map.1 hx
                exact hQ q (h2 q hq)
            · intro x hx; cases hx
      obtain ⟨m, e', j1, _⟩ := all_sent hw _ n _ d hann h5
      rw [show sendAll (behind c) _ (n, d) = _ from j1] at hr
      cases hr
  finish s s' h r hr := by
    obtain ⟨s, n, d⟩ := s
    obtain ⟨s', n', d'⟩ := s'
    obtain ⟨h1, _, a, b, ⟨pre, hpre, h3⟩, h4, h5, h6⟩ := h
    cases h1
    cases hr
    refine ⟨(keep [] s, n', (StdoutSink.flush d').2), rfl, rfl, ?_⟩
    show ∃ pats, _ ∧ (StdoutSink.flush d').2.out = _ ++ (StdoutSink.flush d).2.out
    rw [stdout_ends hw h5, stdout_ends hw h6]
    rcases h3 with ⟨_, _, rfl⟩ | ⟨_, rfl, h7, rfl⟩
    · refine ⟨pre, fun p hp => ⟨hpre p hp, h4 p (by simp [hp])⟩, ?_⟩
      simp [bytesOf, programBytes, Function.comp_def]
    · refine ⟨pre ++ s.lastPat, fun p hp => ⟨?_, h4 p (List.mem_map.2 ⟨p, hp, rfl⟩)⟩, ?_⟩
      · rcases List.mem_append.1 hp with hp | hp
        · exact hpre p hp
        · exact h7 p hp
      · simp [bytesOf, programBytes, Function.comp_def]
  exitCode s s' h := by
    show (if s'.1.retry then exitRetry else exitSuccess) = (if s.1.retry then exitRetry else exitSuccess)
    rw [h.1]

end

/-- The commands. -/
theorem filterProgram_both {w : World} (hc : Faithful w.codec) {ps : List (List UInt8)} (hr : Reads w ps)
    (hw : ∀ x ∈ w.write, 0 ≤ x) (o : ProgramFilter.Opt) {e : Ended} (h : Main.filterProgram w (off o) = .ok e) :
    ∃ e', Main.filterProgram w (on o) = .ok e' ∧ e'.code = e.code ∧ e'.docs = e.docs ∧ e'.ops = e.ops ∧
      ∃ pats : List (Pat × Nat), e'.bytes = (pats.map fun x => w.codec.patBytes x.1 x.2).flatten ++ e.bytes := by
  let Q : Packet → Prop := fun p => (w.codec.bytes p).length = 188 ∧ (p.pid = 0 → ∃ t n, w.codec.bytes p = w.codec.patBytes t n)
  have H := service_sim (via_sim (program_sim hc hw w.extra o (Q := Q) (fun p hp => hp.1)) (between w.codec w.tables2)) (fun t n m => by
    refine ⟨fun _ => hc.patPcr t n, ?_, fun _ => ⟨t, n, hc.keep _ (hc.pat t n)⟩⟩
    show (w.codec.bytes (w.codec.packet (w.codec.patBytes t n))).length = 188
    rw [hc.keep _ (hc.pat t n)]
    exact hc.pat t n) { sid := o.sid }
  have key := around_sim H (ps := seen (input w.codec w.tables) 0 ps) (s := (ServiceFilter.init { sid := o.sid }, 0, ProgramFilter.init (off o), 0, StdoutSink.init w.write))
    (s' := (ServiceFilter.init { sid := o.sid }, 0, ProgramFilter.init (on o), 0, StdoutSink.init w.write))
    (by
      intro i hi h0 n
      obtain ⟨m, b, hb, rfl⟩ := mem_seen hi
      have hl := packets_188 hr.2 b hb
      refine ⟨fun h => absurd h h0, ?_, fun h => absurd h h0⟩
      show (w.codec.bytes (w.codec.packet b)).length = 188
      rw [hc.keep b hl]
      exact hl)
    ⟨rfl, rfl, rfl, (fun p hp => by cases hp), [], [], ⟨[], (fun p hp => by cases hp), Or.inr ⟨rfl, rfl, (fun p hp => by cases hp), rfl⟩⟩,
      (fun p hp => by cases hp), StdoutSink.inv_init _, StdoutSink.inv_init _⟩
  have hA := feed_around hr (input w.codec w.tables) (ServiceFilter.sink { sid := o.sid }
    (via (between w.codec w.tables2) (ProgramFilter.sink w.extra (off o) (behind w.codec))))
    (ServiceFilter.init { sid := o.sid }, 0, ProgramFilter.init (off o), 0, StdoutSink.init w.write)
    (fun r => (.ok { code := r.1, bytes := r.2.2.2.2.2.out } : Except Stop Ended))
  have hB := feed_around hr (input w.codec w.tables) (ServiceFilter.sink { sid := o.sid }
    (via (between w.codec w.tables2) (ProgramFilter.sink w.extra (on o) (behind w.codec))))
    (ServiceFilter.init { sid := o.sid }, 0, ProgramFilter.init (on o), 0, StdoutSink.init w.write)
    (fun r => (.ok { code := r.1, bytes := r.2.2.2.2.2.out } : Except Stop Ended))
  change Main.filterProgram w (off o) = _ at hA
  change Main.filterProgram w (on o) = _ at hB
  rw [hA] at h
  rw [hB]
  obtain ⟨⟨code, r⟩, h1, h⟩ := bind_ok_iff.1 h
  cases h
  obtain ⟨⟨code', r'⟩, h2, h3, h4, h5, h6, pats, h7, h8⟩ := key.mapError _ h1
  refine ⟨_, bind_ok_iff.2 ⟨_, h2, rfl⟩, h3, rfl, rfl, ?_⟩
  dsimp only
  rw [h8]
  have : ∀ l : List Packet, (∀ p ∈ l, p.pid = 0 ∧ Q p) → ∃ pats : List (Pat × Nat),
      (l.map w.codec.bytes) = pats.map fun x => w.codec.patBytes x.1 x.2 := by
    intro l
    induction l with
    | nil => exact fun _ => ⟨[], rfl⟩
    | cons p l ih =>
      intro hl
      obtain ⟨pats, hp⟩ := ih (fun q hq => hl q (by simp [hq]))
      obtain ⟨g1, g2⟩ := hl p (by simp)
      obtain ⟨t, n, g3⟩ := g2.2 g1
      exact ⟨(t, n) :: pats, by rw [List.map_cons, List.map_cons, hp, g3]⟩
  obtain ⟨l, hl⟩ := this pats h7
  exact ⟨l, by rw [hl]⟩

end Mirakc.PreStreaming
