import Verif.Spec.ServiceRecorder
import Verif.Proof.Table
import Verif.Proof.Clock
import Verif.Proof.ServiceFilter
import Verif.Proof.RingFileSink
/-
Invariants of `ServiceRecorder`.
-/
set_option linter.unusedSimpArgs false

namespace Mirakc.ServiceRecorder
open Mirakc.Spec Mirakc.Spec.ServiceRecorder
open Mirakc.Spec.ServiceFilter (latest validPmt validTot usablePat)
open Mirakc.ServiceFilter (latest_append latest_some latest_none latest_mem)

/-! ### Histories -/

/-- The recorder, started in `s0`, has processed the packets of `items`. -/
inductive Reach (o : Opt) (s0 : St) : List Item → St → Prop
  | nil : Reach o s0 [] s0
  | snoc {items s i s' it} : Reach o s0 items s → (∀ x ∈ items, x.more = true) →
      step o s i = .ok (s', it) → Reach o s0 (items ++ [it]) s'

theorem step_input {o : Opt} {s : St} {i : Input} {s' : St} {it : Item}
    (h : step o s i = .ok (s', it)) : it.input = i := by
  unfold step at h
  obtain ⟨s1, _, h1⟩ := bind_eq_ok h
  obtain ⟨⟨s2, log⟩, _, h2⟩ := bind_eq_ok h1
  dsimp only at h2
  split at h2
  · obtain ⟨⟨ok, s3, out⟩, _, h3⟩ := bind_eq_ok h2
    simp only [Except.ok.injEq, Prod.mk.injEq] at h3
    rw [← h3.2]
  · obtain ⟨⟨s3, out⟩, _, h3⟩ := bind_eq_ok h2
    simp only [Except.ok.injEq, Prod.mk.injEq] at h3
    rw [← h3.2]

theorem reach_of_consumes {o : Opt} {s0 : St} {h h' : Hist} {is cs : List Input}
    (hc : Consumes (sink o) h is cs h') (hr : Reach o s0 h.items h.st)
    (hm : ∀ x ∈ h.items, x.more = true) :
    ∃ items, h'.items = h.items ++ items ∧ Reach o s0 h'.items h'.st ∧
      h'.trace = h.trace ++ items.flatMap (·.out) ∧ items.map (·.input) = cs ∧ cs <+: is ∧
      (cs = is ∧ (∀ x ∈ items, x.more = true) ∨ ∃ x, items.getLast? = some x ∧ x.more = false) := by
  induction hc with
  | eof => exact ⟨[], by simp, hr, by simp, rfl, List.prefix_refl _, .inl ⟨rfl, by simp⟩⟩
  | @refuse h h' i is e =>
    simp only [sink] at e
    obtain ⟨⟨s, it⟩, e1, e2⟩ := bind_eq_ok e
    simp only [Except.ok.injEq, Prod.mk.injEq] at e2
    obtain ⟨e2, e3⟩ := e2
    subst e3
    exact ⟨[it], rfl, .snoc hr hm e1, by simp, by simp [step_input e1], by simp,
      .inr ⟨it, rfl, e2⟩⟩
  | @accept h h' h'' i is cs e _ ih =>
    simp only [sink] at e
    obtain ⟨⟨s, it⟩, e1, e2⟩ := bind_eq_ok e
    simp only [Except.ok.injEq, Prod.mk.injEq] at e2
    obtain ⟨e2, e3⟩ := e2
    subst e3
    obtain ⟨items, h1, h2, h3, h4, h5, h6⟩ := ih (.snoc hr hm e1) (by
      intro x hx
      rcases List.mem_append.1 hx with hx | hx
      · exact hm x hx
      · simp at hx; rw [hx]; exact e2)
    refine ⟨it :: items, ?_, h2, ?_, ?_, ?_, ?_⟩
    · simp only at h1; rw [h1]; simp
    · simp only at h3; rw [h3]; simp
    · simp [step_input e1, h4]
    · exact List.cons_prefix_cons.2 ⟨rfl, h5⟩
    · rcases h6 with ⟨h6, h7⟩ | ⟨x, h6, h7⟩
      · refine .inl ⟨by rw [h6], ?_⟩
        intro x hx
        rcases List.mem_cons.1 hx with rfl | hx
        · exact e2
        · exact h7 x hx
      · exact .inr ⟨x, Clock.getLast?_cons_ne _ h6, h7⟩

/-- Initial segments of a history are histories. -/
theorem Reach.split {o : Opt} {s0 : St} {items : List Item} {s : St} (h : Reach o s0 items s) :
    ∀ a it b, items = a ++ it :: b →
      ∃ s1 s2, Reach o s0 a s1 ∧ (∀ x ∈ a, x.more = true) ∧ step o s1 it.input = .ok (s2, it) ∧
        Reach o s0 (a ++ [it]) s2 ∧ (b ≠ [] → it.more = true) := by
  induction h with
  | nil => intro a it b h; simp at h
  | @snoc items s i s' u hr hm hs ih =>
    intro a it b h
    rcases List.eq_nil_or_concat b with rfl | ⟨b', x, rfl⟩
    · have := List.append_inj' h rfl
      simp at this
      obtain ⟨rfl, rfl⟩ := this
      have hi := step_input hs
      exact ⟨s, s', hr, hm, by rw [hi]; exact hs, .snoc hr hm hs, by simp⟩
    · rw [List.concat_eq_append] at h
      have h' : items ++ [u] = (a ++ it :: b') ++ [x] := by simpa using h
      have := List.append_inj' h' rfl
      obtain ⟨s1, s2, h1, h2, h3, h4, _⟩ := ih a it b' this.1
      refine ⟨s1, s2, h1, h2, h3, h4, fun _ => hm it ?_⟩
      rw [this.1]; simp

/-! ### The clock and the tables -/

theorem received_append (a b : List Item) : received (a ++ b) = received a ++ received b := by
  simp [received]

theorem tableCalls_append (sid : Nat) (l : Int) : ∀ (ts us rs : List Table),
    tableCalls sid l rs (ts ++ us) = tableCalls sid l rs ts ++ tableCalls sid l (rs ++ ts) us := by
  intro ts
  induction ts with
  | nil => intro us rs; simp [tableCalls]
  | cons t ts ih => intro us rs; simp [tableCalls, ih]

theorem clockCalls_append (sid : Nat) : ∀ (a b : List Item) (rs : List Table),
    clockCalls sid rs (a ++ b) = clockCalls sid rs a ++ clockCalls sid (rs ++ received a) b := by
  intro a
  induction a with
  | nil => intro b rs; simp [clockCalls, received]
  | cons t ts ih => intro us rs; simp [clockCalls, ih, received]

theorem run_snoc {ops : List Clock.Op} {c c' : Clock} {op : Clock.Op}
    (h : Clock.run {} ops = .ok c) (h' : c.step op = .ok c') :
    Clock.run {} (ops ++ [op]) = .ok c' := by
  rw [Clock.run_append, h, ok_bind]
  simp [Clock.run, h']

/-- Fields that neither the clock nor the tables change. -/
structure Frame (s s' : St) : Prop where
  ring : s'.ring = s.ring
  eit : s'.eit = s.eit
  recording : s'.recording = s.recording
  started : s'.started = s.started
  boundTime : s'.boundTime = s.boundTime
  boundPos : s'.boundPos = s.boundPos

theorem Frame.refl (s : St) : Frame s s := ⟨rfl, rfl, rfl, rfl, rfl, rfl⟩

theorem Frame.trans {a b c : St} (h : Frame a b) (k : Frame b c) : Frame a c :=
  ⟨k.1.trans h.1, k.2.trans h.2, k.3.trans h.3, k.4.trans h.4, k.5.trans h.5, k.6.trans h.6⟩

/-- The clock has been told `ops`, and the tables `rs` have been received. -/
structure Told (o : Opt) (ops : List Clock.Op) (rs : List Table) (s : St) : Prop where
  clock : Clock.run {} ops = .ok s.clock
  pid : s.clock.baseline.pid = pcrPid o.sid rs
  eit : s.newEit.or s.eit = latest (presentEit o.sid) rs

theorem updatePcr_pid {c c' : Clock} {p : Int} (h : c.updatePcr p = .ok c') :
    c'.baseline.pid = c.baseline.pid := by
  have key : ∀ d d' : Clock, Clock.acceptPcr d p = .ok d' → d'.baseline.pid = d.baseline.pid := by
    intro d d' h
    have hb : ∀ e : Clock, e.baseline.pid = d.baseline.pid →
        (if !e.baseline.isReady then e.syncPcr else .ok e) = .ok d' →
        d'.baseline.pid = d.baseline.pid := by
      intro e he h
      split at h
      · simp only [Clock.syncPcr, ClockBaseline.setPcr] at h
        obtain ⟨b, h1, h2⟩ := bind_eq_ok h
        obtain ⟨u, h3, h4⟩ := bind_eq_ok h1
        simp only [Except.ok.injEq] at h2 h4
        subst h4; subst h2; exact he
      · cases h; exact he
    refine hb _ ?_ h
    simp only; split <;> rfl
  simp only [Clock.updatePcr] at h
  obtain ⟨u, h1, h2⟩ := bind_eq_ok h
  split at h2
  · obtain ⟨u, h3, h4⟩ := bind_eq_ok h2
    split at h4
    · split at h4
      · cases h4; rfl
      · cases h4; rfl
    · have := key _ _ h4; exact this
  · exact key _ _ h2

theorem updateTime_pid {c c' : Clock} {t l : Int} (h : c.updateTime t l = .ok c') :
    c'.baseline.pid = c.baseline.pid := by
  simp only [Clock.updateTime, Clock.syncPcr, ClockBaseline.setPcr] at h
  split at h
  · obtain ⟨b, h1, h2⟩ := bind_eq_ok h
    obtain ⟨u, h3, h4⟩ := bind_eq_ok h1
    simp only [Except.ok.injEq] at h2 h4
    subst h4; subst h2; rfl
  · cases h; rfl

theorem tick_spec {o : Opt} {s s' : St} {p : Packet} {ops : List Clock.Op} {rs : List Table}
    (ht : Told o ops rs s) (h : tick s p = .ok s') :
    Told o (ops ++ packetCalls o.sid rs p) rs s' ∧ Frame s s' := by
  simp only [tick] at h
  have hpid := ht.pid
  split at h
  · next hc =>
    simp only [Bool.and_eq_true, beq_iff_eq, Clock.hasPid, ClockBaseline.hasPid, bne_iff_ne,
      pidNull] at hc
    split at h
    · next hp =>
      cases h
      simp only [packetCalls, hp, List.append_nil]
      exact ⟨ht, .refl _⟩
    · next pcr hp =>
      obtain ⟨c, h1, h2⟩ := bind_eq_ok h
      cases h2
      simp only [packetCalls, hp]
      rw [if_pos ⟨by rw [← hpid]; exact hc.1, by rw [← hpid]; exact hc.2.symm⟩]
      refine ⟨⟨run_snoc ht.clock h1, ?_, ht.eit⟩, ⟨rfl, rfl, rfl, rfl, rfl, rfl⟩⟩
      rw [← hpid]; exact updatePcr_pid h1
  · next hc =>
    cases h
    refine ⟨?_, .refl _⟩
    have : packetCalls o.sid rs p = [] := by
      unfold packetCalls
      split
      · rw [if_neg]
        rintro ⟨h1, h2⟩
        apply hc
        rw [← hpid] at h1 h2
        simp [Clock.hasPid, ClockBaseline.hasPid, pidNull, h1, h2]
      · rfl
    rw [this, List.append_nil]; exact ht

theorem table_spec {o : Opt} {l : Int} {s s' : St} {t : Table} {ops : List Clock.Op}
    {rs : List Table} (ht : Told o ops rs s) (h : handleTable o l s t = .ok s') :
    Told o (ops ++ tableCalls o.sid l rs [t]) (rs ++ [t]) s' ∧ Frame s s' := by
  have same : ∀ {s'}, s' = s → presentEit o.sid t = none → validPmt o.sid t = none →
      validTot t = none →
      Told o (ops ++ tableCalls o.sid l rs [t]) (rs ++ [t]) s' ∧ Frame s s' := by
    rintro _ rfl h1 h2 h3
    refine ⟨?_, .refl _⟩
    simp only [tableCalls, h2, h3, List.append_nil]
    refine ⟨ht.clock, ?_, ?_⟩
    · rw [pcrPid, latest_none _ _ _ h2]; exact ht.pid
    · rw [latest_none _ _ _ h1]; exact ht.eit
  unfold handleTable at h
  split at h
  · next pat hb =>
    have h1 : presentEit o.sid t = none := by simp [presentEit, hb]
    have h2 : validPmt o.sid t = none := by simp [validPmt, hb]
    have h3 : validTot t = none := by simp [validTot, hb]
    unfold handlePat at h
    split at h
    · cases h; exact same rfl h1 h2 h3
    split at h
    · cases h; exact same rfl h1 h2 h3
    split at h
    · cases h; exact same rfl h1 h2 h3
    split at h
    · cases h
    · cases h
      refine ⟨?_, ⟨rfl, rfl, rfl, rfl, rfl, rfl⟩⟩
      have := (same rfl h1 h2 h3).1
      exact ⟨this.clock, this.pid, this.eit⟩
  · next pmt hb =>
    have h1 : presentEit o.sid t = none := by simp [presentEit, hb]
    have h3 : validTot t = none := by simp [validTot, hb]
    unfold handlePmt at h
    split at h
    · next hv => cases h; exact same rfl h1 (by simp at hv; simp [validPmt, hb, hv]) h3
    next hv =>
    split at h
    · next hn => cases h; exact same rfl h1 (by simp at hn; simp [validPmt, hb, hn]) h3
    next hn =>
    simp only [Bool.not_eq_true', Bool.not_eq_false, bne_iff_ne, Decidable.not_not] at hv hn
    have h2 : validPmt o.sid t = some pmt := by simp [validPmt, hb, hv, hn]
    have hset : pcrPid o.sid rs = 0x1FFF ∨ pcrPid o.sid rs ≠ pmt.pcrPid →
        Told o (ops ++ tableCalls o.sid l rs [t]) (rs ++ [t])
          { s with clock := s.clock.setPid pmt.pcrPid } := by
      intro hc
      simp only [tableCalls, h2, List.append_nil]
      rw [if_pos hc]
      refine ⟨run_snoc ht.clock rfl, ?_, ?_⟩
      · rw [pcrPid, latest_some _ _ _ h2]; rfl
      · rw [latest_none _ _ _ h1]; exact ht.eit
    split at h
    · next hp =>
      cases h
      refine ⟨hset (.inl ?_), ⟨rfl, rfl, rfl, rfl, rfl, rfl⟩⟩
      rw [← ht.pid]
      simpa [Clock.hasPid, ClockBaseline.hasPid, pidNull] using hp
    next hp =>
    split at h
    · next hq =>
      cases h
      refine ⟨hset (.inr ?_), ⟨rfl, rfl, rfl, rfl, rfl, rfl⟩⟩
      rw [← ht.pid]
      simpa using hq
    · next hq =>
      cases h
      have e1 : pcrPid o.sid rs ≠ 0x1FFF := by
        rw [← ht.pid]; simpa [Clock.hasPid, ClockBaseline.hasPid, pidNull] using hp
      have e2 : pcrPid o.sid rs = pmt.pcrPid := by rw [← ht.pid]; simpa using hq
      refine ⟨?_, .refl _⟩
      simp only [tableCalls, h2, List.append_nil]
      rw [if_neg (fun k => k.elim e1 (fun k => k e2))]
      refine ⟨by simpa using ht.clock, ?_, ?_⟩
      · rw [pcrPid, latest_some _ _ _ h2, ht.pid, e2]
      · rw [latest_none _ _ _ h1]; exact ht.eit
  · next eit hb =>
    have h2 : validPmt o.sid t = none := by simp [validPmt, hb]
    have h3 : validTot t = none := by simp [validTot, hb]
    unfold handleEit at h
    split at h
    · next hv => cases h; exact same rfl (by simp at hv; simp [presentEit, hb, hv]) h2 h3
    next hv =>
    split at h
    · next hn => cases h; exact same rfl (by simp at hn; simp [presentEit, hb, hn]) h2 h3
    next hn =>
    split at h
    · next he => cases h; exact same rfl (by simp at he; simp [presentEit, hb, he]) h2 h3
    next he =>
    simp only [Bool.not_eq_true', Bool.not_eq_false, bne_iff_ne, Decidable.not_not, beq_iff_eq,
      List.length_eq_zero_iff] at hv hn he
    have h1 : presentEit o.sid t = some eit := by simp [presentEit, hb, hv, hn, he]
    cases h
    refine ⟨?_, ⟨rfl, rfl, rfl, rfl, rfl, rfl⟩⟩
    simp only [tableCalls, h2, h3, List.append_nil]
    refine ⟨ht.clock, ?_, ?_⟩
    · rw [pcrPid, latest_none _ _ _ h2]; exact ht.pid
    · rw [latest_some _ _ _ h1]; rfl
  · next time hb =>
    have h1 : presentEit o.sid t = none := by simp [presentEit, hb]
    have h2 : validPmt o.sid t = none := by simp [validPmt, hb]
    unfold handleTot at h
    split at h
    · next hv => cases h; exact same rfl h1 h2 (by simp at hv; simp [validTot, hb, hv])
    next hv =>
    obtain ⟨c, h4, h5⟩ := bind_eq_ok h
    cases h5
    simp only [Bool.not_eq_true', Bool.not_eq_false] at hv
    have h3 : validTot t = some time := by simp [validTot, hb, hv]
    refine ⟨?_, ⟨rfl, rfl, rfl, rfl, rfl, rfl⟩⟩
    simp only [tableCalls, h2, h3, List.append_nil]
    refine ⟨run_snoc ht.clock h4, ?_, ?_⟩
    · rw [pcrPid, latest_none _ _ _ h2, updateTime_pid h4]; exact ht.pid
    · rw [latest_none _ _ _ h1]; exact ht.eit
  · next h4 h5 h6 h7 =>
    cases h
    refine same rfl ?_ ?_ ?_
    · unfold presentEit; split
      · next e he => exact absurd he (h6 e)
      · rfl
    · unfold validPmt; split
      · next e he => exact absurd he (h5 e)
      · rfl
    · unfold validTot; split
      · next e he => exact absurd he (h7 e)
      · rfl

/-- The state when the state machine is run: the clock and the tables are up to date. -/
theorem feed_spec {o : Opt} {s s1 s2 : St} {i : Input} {log : List Table}
    {ops : List Clock.Op} {rs : List Table} (ht : Told o ops rs s)
    (h1 : tick s i.packet = .ok s1)
    (h2 : feedDemux St.demux (handleTable o i.totLocal) i.packet.pid i.tables s1 = .ok (s2, log)) :
    Told o (ops ++ (packetCalls o.sid rs i.packet ++ tableCalls o.sid i.totLocal rs log))
      (rs ++ log) s2 ∧ Frame s s2 := by
  obtain ⟨ht1, hf1⟩ := tick_spec ht h1
  have := feedDemux_inv (pid := i.packet.pid)
    (fun s' rs' => Told o (ops ++ (packetCalls o.sid rs i.packet ++
      tableCalls o.sid i.totLocal rs rs')) (rs ++ rs') s' ∧ Frame s s')
    (fun a t a' rs' hI _ _ hh => by
      obtain ⟨k1, k2⟩ := table_spec hI.1 hh
      refine ⟨?_, hI.2.trans k2⟩
      rw [tableCalls_append]
      simpa using k1)
    i.tables s1 s2 log [] (by simpa [tableCalls] using ⟨ht1, hf1⟩) h2
  simpa using this

end Mirakc.ServiceRecorder
