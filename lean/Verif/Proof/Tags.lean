import Verif.Proof.Retimed
import Verif.Spec.Tags
/-
Lemmas: filter-program with and without component tags.
-/
namespace Mirakc.Tags
open Mirakc.Main Mirakc.Pipeline Mirakc.Spec.Main Mirakc.Spec.Pipeline Mirakc.PreStreaming
open Mirakc.Spec.Tags
open Mirakc.Retimed (Same)
open ProgramFilter
open Mirakc.Spec.ServiceFilter (validPmt)

/-! Two program filters whose steps are similar, each in front of standard output. -/

section
variable {c : Codec} {ws : List Int} {extra : Pmt → Nat} {o o' : Opt} {R : St → St → Prop} {U : List Out → List Out → Prop}
  {Q : Packet → Prop}

/-- All packets have 188 bytes. -/
def Long (c : Codec) (xs : List Out) : Prop := ∀ x ∈ xs, (programBytes c x).length = 188

theorem Long.append {xs ys : List Out} (h : Long c xs) (h' : Long c ys) : Long c (xs ++ ys) := by
  intro x hx
  rcases List.mem_append.1 hx with hx | hx
  · exact h x hx
  · exact h' x hx

/-- While packets arrive. -/
structure Pair (c : Codec) (ws : List Int) (Q : Packet → Prop) (R : St → St → Prop) (U : List Out → List Out → Prop)
    (s s' : St × Nat × StdoutSink.St) : Prop where
  rel : R s.1 s'.1
  kept : ∀ p ∈ s.1.lastPat, Q p
  kept' : ∀ p ∈ s'.1.lastPat, Q p
  out : ∃ xs ys, U xs ys ∧ Long c xs ∧ Long c ys ∧ StdoutSink.Inv ws (bytesOf c xs) s.2.2 ∧ StdoutSink.Inv ws (bytesOf c ys) s'.2.2

/-- In the end. -/
def Over (c : Codec) (U : List Out → List Out → Prop) (s s' : St × Nat × StdoutSink.St) : Prop :=
  s'.1.retry = s.1.retry ∧ ∃ xs ys, U xs ys ∧ Long c xs ∧ Long c ys ∧ s.2.2.out = bytesOf c xs ∧ s'.2.2.out = bytesOf c ys

theorem save_known {s : St} {p : Packet} (hs : ∀ q ∈ s.lastPat, Q q) (hp : Q p) : ∀ q ∈ (savePat s p).lastPat, Q q := by
  unfold savePat
  split
  · intro q hq
    rcases List.mem_append.1 hq with hq | hq
    · split at hq
      · cases hq
      · exact hs q hq
    · cases List.mem_singleton.1 hq
      exact hp
  · exact hs

theorem waitStart_known {s s' : St} {p : Packet} (hs : ∀ q ∈ s.lastPat, Q q) (hp : Q p)
    (h : waitStart o s p = .ok (s', none)) : ∀ q ∈ s'.lastPat, Q q := by
  unfold waitStart at h
  split at h
  · cases h
  · split at h
    · cases h
    · have hk := save_known hs hp
      dsimp only at h
      split at h
      · cases h
      · split at h
        · cases h
        · split at h
          · cases h
          · obtain ⟨s2, h2, h⟩ := bind_ok_iff.1 h
            have := sync_kept h2
            split at h
            · cases h
            · obtain ⟨_, _, h⟩ := bind_ok_iff.1 h
              split at h
              · cases h
              · obtain ⟨_, _, h⟩ := bind_ok_iff.1 h
                split at h
                · cases h
                · obtain ⟨_, _, h⟩ := bind_ok_iff.1 h
                  cases h
                  rw [this]
                  exact hk

theorem announced_known {s : St} {i : Input} (hs : ∀ q ∈ s.lastPat, Q q) (hp : Q i.packet) :
    ∀ q, .orig q ∈ announced o s i → Q q := by
  intro q hq
  unfold announced at hq
  split at hq
  · cases hq
  · next s1 log k1 =>
    split at hq
    · cases hq
    · split at hq
      · next s2 k2 =>
        unfold pendingPat at hq
        split at hq
        · cases hq
        · obtain ⟨p, hp', he⟩ := List.mem_map.1 hq
          cases he
          refine waitStart_known (Q := Q) (s := s1) (fun q hq => hs q ?_) hp k2 _ hp'
          have k3 := tables_keep o o.preStreaming s.lastPat i.packet.pid i.tables s
          change feedDemux St.demux (handleTable o) i.packet.pid i.tables s = _ at k3
          rw [k1] at k3
          have := congrArg (fun r : St × List Table => r.1.lastPat) (Except.ok.inj k3)
          rw [show s1.lastPat = s.lastPat from this] at hq
          exact hq
      · cases hq

theorem outs_sim (hc : Faithful c) (hw : ∀ x ∈ ws, 0 ≤ x) (hQ : ∀ p, Q p → (c.bytes p).length = 188)
    (happ : ∀ a b a' b', U a b → U a' b' → U (a ++ a') (b ++ b')) {G : Input → Prop}
    (hR : ∀ a b, R a b → b.retry = a.retry)
    (hstep : ∀ a b i, G i → R a b → ∀ f log outs more, step extra o a i = .ok (f, log, outs, more) →
      ∃ g log' outs', step extra o' b i = .ok (g, log', outs', more) ∧ R f g ∧ U outs outs') :
    SinkSim (fun i => G i ∧ Q i.packet) (Pair c ws Q R U) (Over c U) (sink extra o (behind c)) (sink extra o' (behind c)) where
  start s s' h a ha := by
    cases ha
    exact ⟨(true, s'.1, s'.2), rfl, rfl, rfl, h⟩
  handle s s' i hi h r hr := by
    obtain ⟨a, n, d⟩ := s
    obtain ⟨b, n', d'⟩ := s'
    obtain ⟨h1, h2, h2', xs, ys, h3, h4, h4', h5, h6⟩ := h
    have hlen : ∀ (zs : List Out), (∀ q, .orig q ∈ zs → Q q) → Long c zs := by
      intro zs hzs x hx
      cases x with
      | pmt => exact hc.pmt _ _ _ _
      | orig q => exact hQ q (hzs q hx)
    have tkept : ∀ {o : Opt} {s s' : St} {log : List Table}, feedDemux St.demux (handleTable o) i.packet.pid i.tables s = .ok (s', log) →
        s'.lastPat = s.lastPat := by
      intro o s s' log k1
      have k3 := tables_keep o o.preStreaming s.lastPat i.packet.pid i.tables s
      change feedDemux St.demux (handleTable o) i.packet.pid i.tables s = _ at k3
      rw [k1] at k3
      exact congrArg (fun r : St × List Table => r.1.lastPat) (Except.ok.inj k3)
    unfold sink at hr
    dsimp only at hr
    split at hr
    · next f log outs more he =>
      obtain ⟨g, log', outs', g1, g2, g3⟩ := hstep _ _ i hi.1 h1 _ _ _ _ he
      obtain ⟨s1, k1, k2⟩ := step_split he
      have hk := decide_known (Q := Q) (by rw [tkept k1]; exact h2) hi.2 k2
      obtain ⟨s1', k1', k2'⟩ := step_split g1
      have hk' := decide_known (Q := Q) (by rw [tkept k1']; exact h2') hi.2 k2'
      obtain ⟨m, e, j1, j2⟩ := all_sent hw outs n _ d (hlen outs hk.2) h5
      obtain ⟨m', e', j3, j4⟩ := all_sent hw outs' n' _ d' (hlen outs' hk'.2) h6
      rw [show sendAll (behind c) outs (n, d) = _ from j1] at hr
      cases hr
      refine ⟨(true && more, g, m', e'), ?_, rfl, g2, hk.1, hk'.1, xs ++ outs, ys ++ outs', happ _ _ _ _ h3 g3,
        h4.append (hlen _ hk.2), h4'.append (hlen _ hk'.2), ?_, ?_⟩
      · unfold sink
        dsimp only
        rw [g1]
        show (sendAll (behind c) outs' (n', d') >>= fun r => .ok (r.1 && more, g, r.2)) = _
        rw [j3]
        rfl
      · simpa [bytesOf] using j2
      · simpa [bytesOf] using j4
    · next e he =>
      obtain ⟨m, e', j1, _⟩ := all_sent hw _ n _ d (hlen _ (announced_known (o := o) h2 hi.2)) h5
      rw [show sendAll (behind c) _ (n, d) = _ from j1] at hr
      cases hr
  finish s s' h r hr := by
    obtain ⟨a, n, d⟩ := s
    obtain ⟨b, n', d'⟩ := s'
    obtain ⟨h1, h2, h2', xs, ys, h3, h4, h4', h5, h6⟩ := h
    cases hr
    refine ⟨(b, n', (StdoutSink.flush d').2), rfl, hR _ _ h1, xs, ys, h3, h4, h4', ?_, ?_⟩
    · exact stdout_ends hw h5
    · exact stdout_ends hw h6
  exitCode s s' h := by
    show (if s'.1.retry then exitRetry else exitSuccess) = (if s.1.retry then exitRetry else exitSuccess)
    rw [h.1]

/-- The command with two sets of options whose steps are similar. -/
theorem filterProgram_outs {w : World} (hc : Faithful w.codec) {ps : List (List UInt8)} (hr : Reads w ps)
    (hw : ∀ x ∈ w.write, 0 ≤ x) (hsid : o'.sid = o.sid)
    (happ : ∀ a b a' b', U a b → U a' b' → U (a ++ a') (b ++ b')) (hnil : U [] []) {T : Table → Prop}
    (hT : ∀ n x, ∀ t ∈ w.tables2 n x, T t) (hi : R (init o) (init o'))
    (hR : ∀ a b, R a b → b.retry = a.retry)
    (hstep : ∀ a b i, (∀ t ∈ i.tables, T t) → R a b → ∀ f log outs more, step w.extra o a i = .ok (f, log, outs, more) →
      ∃ g log' outs', step w.extra o' b i = .ok (g, log', outs', more) ∧ R f g ∧ U outs outs')
    {e : Ended} (h : Main.filterProgram w o = .ok e) :
    ∃ e', Main.filterProgram w o' = .ok e' ∧ e'.code = e.code ∧ ∃ xs ys, U xs ys ∧ Long w.codec xs ∧ Long w.codec ys ∧
      e.bytes = bytesOf w.codec xs ∧ e'.bytes = bytesOf w.codec ys := by
  let Q : Packet → Prop := fun p => (w.codec.bytes p).length = 188
  have H := service_sim (via_sim (outs_sim (ws := w.write) (Q := Q) hc hw (fun _ h => h) happ hR hstep) (between w.codec w.tables2))
    (fun t n m => ⟨fun u hu => hT _ _ u hu, by
      show (w.codec.bytes (w.codec.packet (w.codec.patBytes t n))).length = 188
      rw [hc.keep _ (hc.pat t n)]
      exact hc.pat t n⟩) { sid := o.sid }
  have key := around_sim H (ps := seen (input w.codec w.tables) 0 ps)
    (s := (ServiceFilter.init { sid := o.sid }, 0, ProgramFilter.init o, 0, StdoutSink.init w.write))
    (s' := (ServiceFilter.init { sid := o.sid }, 0, ProgramFilter.init o', 0, StdoutSink.init w.write))
    (by
      intro i hi h0 n
      obtain ⟨m, b, hb, rfl⟩ := mem_seen hi
      have hl := packets_188 hr.2 b hb
      refine ⟨fun u hu => hT _ _ u hu, ?_⟩
      show (w.codec.bytes (w.codec.packet b)).length = 188
      rw [hc.keep b hl]
      exact hl)
    ⟨rfl, rfl, hi, (fun p hp => by cases hp), (fun p hp => by cases hp), [], [], hnil, (fun x hx => by cases hx),
      (fun x hx => by cases hx), StdoutSink.inv_init _, StdoutSink.inv_init _⟩
  have hA := feed_around hr (input w.codec w.tables) (ServiceFilter.sink { sid := o.sid }
    (via (between w.codec w.tables2) (ProgramFilter.sink w.extra o (behind w.codec))))
    (ServiceFilter.init { sid := o.sid }, 0, ProgramFilter.init o, 0, StdoutSink.init w.write)
    (fun r => (.ok { code := r.1, bytes := r.2.2.2.2.2.out } : Except Stop Ended))
  have hB := feed_around hr (input w.codec w.tables) (ServiceFilter.sink { sid := o'.sid }
    (via (between w.codec w.tables2) (ProgramFilter.sink w.extra o' (behind w.codec))))
    (ServiceFilter.init { sid := o'.sid }, 0, ProgramFilter.init o', 0, StdoutSink.init w.write)
    (fun r => (.ok { code := r.1, bytes := r.2.2.2.2.2.out } : Except Stop Ended))
  change Main.filterProgram w o = _ at hA
  change Main.filterProgram w o' = _ at hB
  rw [hA] at h
  obtain ⟨⟨code, r⟩, g1, h⟩ := bind_ok_iff.1 h
  cases h
  obtain ⟨⟨code', r'⟩, g2, g3, g4⟩ := key _ (mapError_ok_iff.1 g1)
  rw [hB, hsid]
  obtain ⟨z1, z2, z3, xs, ys, z4⟩ := g4
  exact ⟨{ code := code', bytes := r'.2.2.2.2.out }, bind_ok_iff.2 ⟨(code', r'), mapError_ok_iff.2 g2, rfl⟩, g3, xs, ys, z4⟩

end

/-! With and without tags. -/

section
variable {extra : Pmt → Nat} {E : Nat → Prop}

/-- The options without tags. -/
def noTags (o : Opt) : Opt := { o with audioTags := [], videoTags := [] }

/-- A packetizer in order. -/
def Sound (extra : Pmt → Nat) (k : Packetizer) : Prop :=
  (k.cur.isSome = true → k.table.isSome = true) ∧ ∀ t i, k.cur = some (t, i) → i ≤ extra t

/-- Packetizers in order for the same PID, both with or both without a table. -/
structure Alike (extra : Pmt → Nat) (k k' : Packetizer) : Prop where
  pid : k'.pid = k.pid
  table : k'.table.isSome = k.table.isSome
  sound : Sound extra k
  sound' : Sound extra k'

/-- The state with nothing excluded. -/
def bare (k : Packetizer) (s : St) : St := { s with black := [], pk := k }

/-- The states of the two filters. -/
def Rel (extra : Pmt → Nat) (E : Nat → Prop) (a b : St) : Prop :=
  ∃ k, b = bare k a ∧ (∀ pid ∈ a.black, E pid) ∧ Alike extra a.pk k

/-- What is passed on. -/
def Fewer (E : Nat → Prop) (xs ys : List Out) : Prop := Without E (originals xs) (originals ys)

theorem without_append {a b a' b' : List Packet} (h : Without E a b) (h' : Without E a' b') : Without E (a ++ a') (b ++ b') := by
  induction h with
  | nil => exact h'
  | keep p _ ih => exact .keep p ih
  | drop p he _ ih => exact .drop p he ih

theorem without_refl : ∀ xs : List Packet, Without E xs xs
  | [] => .nil
  | p :: xs => .keep p (without_refl xs)

theorem Fewer.append {a b a' b' : List Out} (h : Fewer E a b) (h' : Fewer E a' b') : Fewer E (a ++ a') (b ++ b') := by
  unfold Fewer originals at *
  rw [List.filterMap_append, List.filterMap_append]
  exact without_append h h'

theorem Fewer.refl (xs : List Out) : Fewer E xs xs := without_refl _

theorem fewer_pmts {xs ys : List Out} (h : originals xs = []) (h' : originals ys = []) : Fewer E xs ys := by
  unfold Fewer
  rw [h, h']
  exact .nil

theorem range_rel {a b : St} (h : Rel extra E a b) : Same (Rel extra E) (updatePcrRange a) (updatePcrRange b) := by
  obtain ⟨k, rfl, h1, h2⟩ := h
  unfold updatePcrRange
  refine Same.keep fun _ => Same.keep fun _ => Same.keep fun _ => ?_
  rw [show ∀ t, convertTimeToPcr (bare k a) t = convertTimeToPcr a t from fun _ => rfl,
    show ∀ t, convertTimeToPcr (bare k a) t = convertTimeToPcr a t from fun _ => rfl]
  exact Same.keep fun _ => Same.keep fun _ => ⟨k, rfl, h1, h2⟩

theorem clockPcr_rel {a b : St} (h : Rel extra E a b) (p : Int) : Same (Rel extra E) (updateClockPcr a p) (updateClockPcr b p) := by
  obtain ⟨k, rfl, h1, h2⟩ := h
  unfold updateClockPcr
  refine Same.keep fun _ => ?_
  have hrel : Rel extra E { a with clockPcr := p, clockPcrReady := true } { bare k a with clockPcr := p, clockPcrReady := true } :=
    ⟨k, rfl, h1, h2⟩
  exact Same.ite Iff.rfl (fun _ => range_rel hrel) (fun _ => hrel)

theorem clockTime_rel {a b : St} (h : Rel extra E a b) (t : Int) : Same (Rel extra E) (updateClockTime a t) (updateClockTime b t) := by
  obtain ⟨k, rfl, h1, h2⟩ := h
  unfold updateClockTime
  refine Same.keep fun _ => ?_
  have hrel : Rel extra E { a with clockTime := t, clockTimeReady := true } { bare k a with clockTime := t, clockTimeReady := true } :=
    ⟨k, rfl, h1, h2⟩
  exact Same.ite Iff.rfl (fun _ => range_rel hrel) (fun _ => hrel)

theorem event_rel {o : Opt} {a b : St} (h : Rel extra E a b) (e : Event) :
    Same (Rel extra E) (updateEventTime o a e) (updateEventTime (noTags o) b e) := by
  obtain ⟨k, rfl, h1, h2⟩ := h
  unfold updateEventTime
  refine Same.keep fun _ => ?_
  rw [show (noTags o).endMargin = o.endMargin from rfl]
  refine Same.keep fun d => ?_
  have hrel : Rel extra E { a with eventStart := e.startTime - o.startMargin, eventEnd := e.startTime + d, eventTimeReady := true }
      { bare k a with eventStart := e.startTime - o.startMargin, eventEnd := e.startTime + d, eventTimeReady := true } :=
    ⟨k, rfl, h1, h2⟩
  exact Same.ite Iff.rfl (fun _ => range_rel hrel) (fun _ => hrel)

theorem eit_rel {o : Opt} {a b : St} (h : Rel extra E a b) (t : Table) (eit : Eit) :
    Same (Rel extra E) (handleEit o a t eit) (handleEit (noTags o) b t eit) := by
  have h0 := h
  obtain ⟨k, rfl, h1, h2⟩ := h
  unfold handleEit
  refine Same.ite Iff.rfl (fun _ => h0) fun hv => Same.ite Iff.rfl (fun _ => h0) fun hi => ?_
  rcases heq : eit.events with _ | ⟨e, _ | ⟨f, r⟩⟩
  · exact ⟨k, rfl, h1, h2⟩
  · exact Same.ite Iff.rfl (fun _ => event_rel h0 e) fun _ => Same.ite Iff.rfl (fun _ => h0) (fun _ => ⟨k, rfl, h1, h2⟩)
  · exact Same.ite Iff.rfl (fun _ => event_rel h0 e) fun _ => Same.ite Iff.rfl (fun _ => event_rel h0 f) fun _ =>
      Same.ite Iff.rfl (fun _ => h0) fun _ => Same.ite Iff.rfl (fun _ => ⟨k, rfl, h1, h2⟩) (fun _ => h0)

theorem pat_rel {o : Opt} {a b : St} (h : Rel extra E a b) (t : Table) (pat : Pat) :
    Same (Rel extra E) (handlePat o a t pat) (handlePat (noTags o) b t pat) := by
  have h0 := h
  obtain ⟨k, rfl, h1, h2⟩ := h
  unfold handlePat
  refine Same.ite Iff.rfl (fun _ => h0) fun _ => Same.ite Iff.rfl (fun _ => h0) fun _ => Same.ite Iff.rfl (fun _ => h0) fun _ => ?_
  rw [show (noTags o).sid = o.sid from rfl]
  cases pat.pmts.find? o.sid with
  | none => exact rfl
  | some pid => exact ⟨k, rfl, h1, h2⟩

theorem tot_rel {o : Opt} {a b : St} (h : Rel extra E a b) (t : Table) (time : Int) :
    Same (Rel extra E) (handleTot o a t time) (handleTot (noTags o) b t time) := by
  have h0 := h
  unfold handleTot
  refine Same.ite Iff.rfl (fun _ => h0) fun _ => ?_
  have h1 : Rel extra E (if (!a.streaming) = true then checkTimeLimit o a time else a)
      (if (!b.streaming) = true then checkTimeLimit (noTags o) b time else b) := by
    obtain ⟨k, rfl, h1, h2⟩ := h
    unfold checkTimeLimit
    rw [show (bare k a).streaming = a.streaming from rfl, show (noTags o).waitUntil = o.waitUntil from rfl]
    split
    · cases o.waitUntil with
      | none => exact h0
      | some l =>
        dsimp only
        split
        · exact ⟨k, rfl, h1, h2⟩
        · exact h0
    · exact h0
  dsimp only
  generalize (if (!a.streaming) = true then checkTimeLimit o a time else a) = a1 at h1
  generalize (if (!b.streaming) = true then checkTimeLimit (noTags o) b time else b) = b1 at h1
  have hb : b1.clockTimeReady = a1.clockTimeReady := by
    obtain ⟨k, rfl, _, _⟩ := h1
    rfl
  rw [hb]
  exact Same.ite Iff.rfl (fun _ => h1) fun _ => clockTime_rel h1 time

/-- The part of handling a PMT that concerns the clock. -/
def reset (s : St) (pid : Nat) : St :=
  if s.clockPid != pid then
    { s with pcrPid := pid, pcrPidReady := true, clockPid := pid, clockPcrReady := false, clockTimeReady := false }
  else { s with pcrPid := pid, pcrPidReady := true }

theorem pmt_eq {o : Opt} {s : St} {t : Table} {pmt : Pmt} (hv : t.valid = true) (hs : pmt.serviceId = o.sid) :
    ∃ p, handlePmt o s t pmt = .ok { reset s pmt.pcrPid with
      black := (pmt.streams.entries.filter (fun e => excluded o e.2)).map (·.1)
      pk := { s.pk with pid := t.sourcePid, table := some p } } := by
  refine ⟨if ((pmt.streams.entries.filter (fun e => excluded o e.2)).map (·.1)).isEmpty then pmt
      else { pmt with streams := pmt.streams.filter (fun e => !((pmt.streams.entries.filter (fun e => excluded o e.2)).map (·.1)).contains e.1) }, ?_⟩
  unfold handlePmt reset
  rw [if_neg (by simp [hv]), if_neg (by simp [hs])]
  dsimp only
  by_cases h : (s.clockPid != pmt.pcrPid) = true
  · simp only [if_pos h]
  · simp only [if_neg h]

theorem pmt_rel {o : Opt} {a b : St} (h : Rel extra E a b) (t : Table) (pmt : Pmt) (hb : t.body = .pmt pmt)
    (hE : ∀ pmt pid st, validPmt o.sid t = some pmt → (pid, st) ∈ pmt.streams.entries → Spec.ProgramFilter.Excluded o st → E pid) :
    Same (Rel extra E) (handlePmt o a t pmt) (handlePmt (noTags o) b t pmt) := by
  have h0 := h
  obtain ⟨k, rfl, h1, h2⟩ := h
  by_cases hv : t.valid = true
  · by_cases hs : pmt.serviceId = o.sid
    · obtain ⟨p, hp⟩ := pmt_eq (s := a) hv hs
      obtain ⟨p', hp'⟩ := pmt_eq (o := noTags o) (s := bare k a) hv hs
      rw [hp, hp']
      have hnone : (pmt.streams.entries.filter (fun e => excluded (noTags o) e.2)).map (·.1) = [] := by
        have : ∀ e : Nat × Stream, excluded (noTags o) e.2 = false := by
          intro e
          cases hx : excluded (noTags o) e.2 with
          | false => rfl
          | true =>
            rcases (excluded_iff _ _).1 hx with ⟨_, h, _⟩ | ⟨_, _, h, _⟩
            · exact absurd rfl h
            · exact absurd rfl h
        simp [this]
      rw [hnone]
      refine ⟨{ k with pid := t.sourcePid, table := some p' }, ?_, ?_, ?_⟩
      · unfold reset bare
        dsimp only
        by_cases hc : (a.clockPid != pmt.pcrPid) = true
        · simp only [if_pos hc]
        · simp only [if_neg hc]
      · intro pid hpid
        obtain ⟨e, he, rfl⟩ := List.mem_map.1 hpid
        obtain ⟨he1, he2⟩ := List.mem_filter.1 he
        exact hE pmt e.1 e.2 (by simp [validPmt, hb, hv, hs]) he1 ((excluded_iff _ _).1 he2)
      · exact ⟨rfl, rfl, ⟨fun _ => rfl, h2.sound.2⟩, ⟨fun _ => rfl, h2.sound'.2⟩⟩
    · have h1 : handlePmt o a t pmt = .ok a := by
        unfold handlePmt
        rw [if_neg (by simp [hv]), if_pos (by simp [hs])]
      have h2 : handlePmt (noTags o) (bare k a) t pmt = .ok (bare k a) := by
        unfold handlePmt
        rw [if_neg (by simp [hv]), if_pos (by simp [hs, noTags])]
      rw [h1, h2]
      exact h0
  · have h1 : handlePmt o a t pmt = .ok a := by
      unfold handlePmt
      rw [if_pos (by simp [hv])]
    have h2 : handlePmt (noTags o) (bare k a) t pmt = .ok (bare k a) := by
      unfold handlePmt
      rw [if_pos (by simp [hv])]
    rw [h1, h2]
    exact h0

/-- One table. -/
theorem table_rel {o : Opt} {a b : St} (h : Rel extra E a b) (t : Table)
    (hE : ∀ pmt pid st, validPmt o.sid t = some pmt → (pid, st) ∈ pmt.streams.entries → Spec.ProgramFilter.Excluded o st → E pid) :
    Same (Rel extra E) (handleTable o a t) (handleTable (noTags o) b t) := by
  unfold handleTable
  cases hb : t.body with
  | pat pat => exact pat_rel h t pat
  | pmt pmt => exact pmt_rel h t pmt hb hE
  | eit eit => exact eit_rel h t eit
  | tot time => exact tot_rel h t time
  | _ => exact h

/-- The tables of a packet. -/
theorem tables_rel {o : Opt} (pid : Nat) : ∀ (ts : List Table)
    (_ : ∀ t ∈ ts, ∀ pmt pid st, validPmt o.sid t = some pmt → (pid, st) ∈ pmt.streams.entries → Spec.ProgramFilter.Excluded o st → E pid)
    {a b : St}, Rel extra E a b →
    Same (fun r r' => Rel extra E r.1 r'.1 ∧ r'.2 = r.2) (feedDemux St.demux (handleTable o) pid ts a)
      (feedDemux St.demux (handleTable (noTags o)) pid ts b)
  | [], _, _, _, h => ⟨h, rfl⟩
  | t :: ts, hf, a, b, h => by
    simp only [feedDemux]
    have hd : b.demux = a.demux := by obtain ⟨k, rfl, _, _⟩ := h; rfl
    rw [hd]
    refine Same.ite Iff.rfl (fun _ => ?_) fun _ => tables_rel pid ts (fun u hu => hf u (by simp [hu])) h
    refine (table_rel h t (hf t (by simp))).bind fun a1 b1 h1 => ?_
    exact (tables_rel pid ts (fun u hu => hf u (by simp [hu])) h1).bind fun r r' hr => ⟨hr.1, by rw [hr.2]⟩

theorem sync_rel {a b : St} (h : Rel extra E a b) (p : Int) : Same (Rel extra E) (syncClock a p) (syncClock b p) := by
  unfold syncClock
  have hn : needClockSync b = needClockSync a := by obtain ⟨k, rfl, _, _⟩ := h; rfl
  rw [hn]
  exact Same.ite Iff.rfl (fun _ => clockPcr_rel h p) fun _ => h

/-- What of a state is not affected. -/
structure View (a b : St) : Prop where
  need : needClockSync b = needClockSync a
  startPcr : b.startPcr = a.startPcr
  endPcr : b.endPcr = a.endPcr
  lastPat : b.lastPat = a.lastPat
  stop : b.stop = a.stop
  pcrPid : b.pcrPid = a.pcrPid
  pcrPidReady : b.pcrPidReady = a.pcrPidReady
  eventTimeReady : b.eventTimeReady = a.eventTimeReady
  streaming : b.streaming = a.streaming
  retry : b.retry = a.retry
  pmtPid : b.pmtPid = a.pmtPid
  black : b.black = []

theorem view {a b : St} (h : Rel extra E a b) : View a b := by
  obtain ⟨k, rfl, _, _⟩ := h
  exact ⟨rfl, rfl, rfl, rfl, rfl, rfl, rfl, rfl, rfl, rfl, rfl, rfl⟩

theorem save_rel {a b : St} (h : Rel extra E a b) (p : Packet) : Rel extra E (savePat a p) (savePat b p) := by
  have h0 := h
  obtain ⟨k, rfl, h1, h2⟩ := h
  unfold savePat
  split
  · exact ⟨k, rfl, h1, h2⟩
  · exact h0

/-- Waiting for the start. -/
theorem wait_rel {o : Opt} {a b : St} (h : Rel extra E a b) (pkt : Packet) :
    Same (fun r r' => Rel extra E r.1 r'.1 ∧ r'.2 = r.2) (waitStart o a pkt) (waitStart (noTags o) b pkt) := by
  have v := view h
  unfold waitStart
  rw [v.stop, show (noTags o).preStreaming = o.preStreaming from rfl]
  refine Same.ite Iff.rfl (fun _ => ?_) fun _ => Same.ite Iff.rfl (fun _ => ⟨h, rfl⟩) fun _ => ?_
  · obtain ⟨k, rfl, h1, h2⟩ := h
    exact ⟨⟨k, rfl, h1, h2⟩, rfl⟩
  · have h1 := save_rel h pkt
    dsimp only
    generalize savePat a pkt = a1 at h1
    generalize savePat b pkt = b1 at h1
    have v1 := view h1
    rw [v1.pcrPidReady, v1.eventTimeReady, v1.pcrPid]
    refine Same.ite Iff.rfl (fun _ => ⟨h1, rfl⟩) fun _ => Same.ite Iff.rfl (fun _ => ⟨h1, rfl⟩) fun _ => ?_
    cases pkt.pcr with
    | none => exact ⟨h1, rfl⟩
    | some pcr =>
      refine (sync_rel h1 pcr).bind fun a2 b2 h2 => ?_
      have v2 := view h2
      rw [v2.need, v2.endPcr, v2.startPcr, v2.lastPat]
      exact Same.ite Iff.rfl (fun _ => ⟨h2, rfl⟩) fun _ => Same.keep fun c => Same.ite Iff.rfl (fun _ => ⟨h2, rfl⟩) fun _ =>
        Same.keep fun c' => Same.ite Iff.rfl (fun _ => ⟨h2, rfl⟩) fun _ => Same.keep fun _ => ⟨h2, rfl⟩

theorem next_fails {s : St} (h : s.pk.cur.or (s.pk.table.map (·, 0)) = none ∨ s.pk.pid ≠ s.pmtPid) :
    nextPmt extra s = .error .assertFail := by
  unfold nextPmt Packetizer.next
  cases hx : s.pk.cur.or (s.pk.table.map (·, 0)) with
  | none => rfl
  | some x =>
    obtain ⟨t, i⟩ := x
    rcases h with h | h
    · rw [hx] at h; cases h
    · dsimp only
      rw [ok_bind]
      dsimp only
      rw [show (s.pk.pid == s.pmtPid) = false by simpa using h]
      rfl

theorem ready {k k' : Packetizer} (h : Alike extra k k') :
    k'.cur.or (k'.table.map (·, 0)) = none ↔ k.cur.or (k.table.map (·, 0)) = none := by
  have h1 := h.table
  have h2 := h.sound.1
  have h3 := h.sound'.1
  cases hk : k.table <;> cases hk' : k'.table <;> cases hc : k.cur <;> cases hc' : k'.cur <;> simp_all

theorem sound_at {k : Packetizer} (h : Sound extra k) {t : Pmt} {i : Nat} (hi : k.cur.or (k.table.map (·, 0)) = some (t, i)) :
    i ≤ extra t ∧ k.table.isSome = true := by
  cases hc : k.cur with
  | none =>
    rw [hc] at hi
    cases ht : k.table with
    | none => rw [ht] at hi; cases hi
    | some t' =>
      rw [ht] at hi
      cases hi
      exact ⟨Nat.zero_le _, rfl⟩
  | some x =>
    rw [hc] at hi
    cases hi
    exact ⟨h.2 _ _ hc, h.1 (by rw [hc]; rfl)⟩

theorem next_rel {a b : St} (h : Rel extra E a b) :
    Same (fun r r' => Rel extra E r.2 r'.2 ∧ originals [r.1] = [] ∧ originals [r'.1] = []) (nextPmt extra a) (nextPmt extra b) := by
  obtain ⟨k, rfl, h1, h2⟩ := h
  by_cases hn : a.pk.cur.or (a.pk.table.map (·, 0)) = none ∨ a.pk.pid ≠ a.pmtPid
  · rw [next_fails hn, next_fails (s := bare k a) (hn.imp (ready h2).2 (fun h => by show k.pid ≠ _; rw [h2.pid]; exact h))]
    exact rfl
  · have hn1 : a.pk.cur.or (a.pk.table.map (·, 0)) ≠ none := fun h => hn (Or.inl h)
    have hn2 : a.pk.pid = a.pmtPid := Decidable.not_not.1 fun h => hn (Or.inr h)
    have hn1' : k.cur.or (k.table.map (·, 0)) ≠ none := fun h => hn1 ((ready h2).1 h)
    obtain ⟨⟨t, i⟩, hx⟩ := Option.ne_none_iff_exists'.1 hn1
    obtain ⟨⟨t', i'⟩, hx'⟩ := Option.ne_none_iff_exists'.1 hn1'
    obtain ⟨s1, s2⟩ := sound_at h2.sound hx
    obtain ⟨s1', s2'⟩ := sound_at h2.sound' hx'
    have e1 : nextPmt extra a = .ok (.pmt a.pk.pid t i a.pk.count, { a with pk := { a.pk with
        cur := if i < extra t then some (t, i + 1) else none, count := a.pk.count + 1 } }) := by
      unfold nextPmt Packetizer.next
      rw [hx]
      simp [hn2]
    have e2 : nextPmt extra (bare k a) = .ok (.pmt k.pid t' i' k.count, bare { k with
        cur := if i' < extra t' then some (t', i' + 1) else none, count := k.count + 1 } a) := by
      unfold nextPmt Packetizer.next
      rw [show (bare k a).pk = k from rfl, hx']
      have : k.pid = (bare k a).pmtPid := h2.pid.trans hn2
      simp [this]
      rfl
    rw [e1, e2]
    refine ⟨⟨_, rfl, h1, h2.pid, h2.table, ⟨fun _ => s2, fun u j hu => ?_⟩, ⟨fun _ => s2', fun u j hu => ?_⟩⟩, rfl, rfl⟩
    · dsimp only at hu
      split at hu
      · cases hu; omega
      · cases hu
    · dsimp only at hu
      split at hu
      · cases hu; omega
      · cases hu

theorem originals_cycle {f : Nat → Out} {n : Nat} (h : ∀ j, originals [f j] = []) : originals ((List.range n).map f) = [] := by
  unfold originals at *
  rw [List.filterMap_map, List.filterMap_eq_nil_iff]
  intro j _
  have := h j
  simp only [List.filterMap_cons, List.filterMap_nil] at this
  dsimp only [Function.comp]
  cases hf : f j with
  | orig p => rw [hf] at this; cases this
  | pmt => rfl

/-- Enough for a whole cycle, as in `waitReady`. -/
def enough (extra : Pmt → Nat) (k : Packetizer) : Nat :=
  ((k.cur.map (extra ·.1)).getD 0) + ((k.table.map extra).getD 0) + 1

theorem enough_for {k : Packetizer} {t : Pmt} {i : Nat} (hi : k.cur.or (k.table.map (·, 0)) = some (t, i)) :
    extra t - i < enough extra k := by
  unfold enough
  cases hc : k.cur with
  | none =>
    rw [hc] at hi
    cases ht : k.table with
    | none => rw [ht] at hi; cases hi
    | some t' =>
      rw [ht] at hi
      cases hi
      simp
  | some x =>
    rw [hc] at hi
    cases hi
    simp
    omega

theorem cycle_rel {a b : St} (h : Rel extra E a b) :
    Same (fun r r' => Rel extra E r.2 r'.2 ∧ originals r.1 = [] ∧ originals r'.1 = [])
      (sendCycle extra (enough extra a.pk) a) (sendCycle extra (enough extra b.pk) b) := by
  obtain ⟨k, rfl, h1, h2⟩ := h
  by_cases hn : a.pk.cur.or (a.pk.table.map (·, 0)) = none ∨ a.pk.pid ≠ a.pmtPid
  · have e1 : sendCycle extra (enough extra a.pk) a = .error .assertFail := by
      unfold enough sendCycle
      rw [next_fails hn]
      rfl
    have e2 : sendCycle extra (enough extra (bare k a).pk) (bare k a) = .error .assertFail := by
      unfold enough sendCycle
      rw [next_fails (s := bare k a) (hn.imp (ready h2).2 (fun h => by show k.pid ≠ _; rw [h2.pid]; exact h))]
      rfl
    rw [e1, e2]
    exact rfl
  · have hn1 : a.pk.cur.or (a.pk.table.map (·, 0)) ≠ none := fun h => hn (Or.inl h)
    have hn2 : a.pk.pid = a.pmtPid := Decidable.not_not.1 fun h => hn (Or.inr h)
    have hn1' : k.cur.or (k.table.map (·, 0)) ≠ none := fun h => hn1 ((ready h2).1 h)
    obtain ⟨⟨t, i⟩, hx⟩ := Option.ne_none_iff_exists'.1 hn1
    obtain ⟨⟨t', i'⟩, hx'⟩ := Option.ne_none_iff_exists'.1 hn1'
    obtain ⟨s1, s2⟩ := sound_at h2.sound hx
    obtain ⟨s1', s2'⟩ := sound_at h2.sound' hx'
    rw [sendCycle_spec _ a t i hx hn2 s1 (enough_for hx), show (bare k a).pk = k from rfl,
      sendCycle_spec _ (bare k a) t' i' hx' (h2.pid.trans hn2) s1' (enough_for (k := k) hx')]
    refine ⟨⟨{ k with cur := none, count := k.count + (extra t' - i' + 1) }, rfl, h1, h2.pid, h2.table,
      ⟨(fun hh => by cases hh), (fun u j hu => by cases hu)⟩, ⟨(fun hh => by cases hh), (fun u j hu => by cases hu)⟩⟩, ?_, ?_⟩
    · exact originals_cycle fun _ => rfl
    · exact originals_cycle fun _ => rfl

/-- The result of deciding on a packet. -/
def Res (extra : Pmt → Nat) (E : Nat → Prop) (r r' : St × List Out × Bool) : Prop :=
  Rel extra E r.1 r'.1 ∧ Fewer E r.2.1 r'.2.1 ∧ r'.2.2 = r.2.2

theorem forward_rel {a b : St} (h : Rel extra E a b) (pkt : Packet) :
    Same (Res extra E) (forward extra a pkt) (forward extra b pkt) := by
  have v := view h
  unfold forward
  rw [v.pmtPid, v.black]
  refine Same.ite Iff.rfl (fun _ => (next_rel h).bind fun r r' hr => ⟨hr.1, fewer_pmts hr.2.1 hr.2.2, rfl⟩) fun _ => ?_
  rw [if_neg (show ¬ (([] : List Nat).contains pkt.pid = true) by simp)]
  by_cases hb : a.black.contains pkt.pid = true
  · rw [if_pos hb]
    obtain ⟨k, rfl, h1, h2⟩ := h
    exact ⟨⟨k, rfl, h1, h2⟩, .drop _ (h1 _ (by simpa using hb)) .nil, rfl⟩
  · rw [if_neg hb]
    exact ⟨h, Fewer.refl _, rfl⟩

theorem streaming_rel {a b : St} (h : Rel extra E a b) (pkt : Packet) :
    Same (Res extra E) (doStreaming extra a pkt) (doStreaming extra b pkt) := by
  have v := view h
  unfold doStreaming
  rw [v.stop, v.pcrPid]
  refine Same.ite Iff.rfl (fun _ => ⟨h, Fewer.refl _, rfl⟩) fun _ => Same.ite Iff.rfl (fun _ => ?_) fun _ => forward_rel h pkt
  cases pkt.pcr with
  | none => exact ⟨h, Fewer.refl _, rfl⟩
  | some pcr =>
    refine (sync_rel h pcr).bind fun a2 b2 h2 => ?_
    have v2 := view h2
    rw [v2.need, v2.endPcr]
    exact Same.ite Iff.rfl (fun _ => ⟨h2, Fewer.refl _, rfl⟩) fun _ => Same.keep fun c =>
      Same.ite Iff.rfl (fun _ => ⟨h2, Fewer.refl _, rfl⟩) fun _ => forward_rel h2 pkt

theorem ready_rel {o : Opt} {a b : St} (h : Rel extra E a b) (pkt : Packet) :
    Same (Res extra E) (waitReady extra o a pkt) (waitReady extra (noTags o) b pkt) := by
  unfold waitReady
  refine (wait_rel h pkt).bind fun r r' hr => ?_
  obtain ⟨a1, c⟩ := r
  obtain ⟨b1, c'⟩ := r'
  obtain ⟨h1, h2⟩ := hr
  dsimp only at h1 h2
  subst h2
  cases c' with
  | some out => exact ⟨h1, Fewer.refl _, rfl⟩
  | none =>
    have v1 := view h1
    dsimp only [pendingPat]
    rw [show (noTags o).preStreaming = o.preStreaming from rfl, v1.lastPat]
    have h3 : Rel extra E (if o.preStreaming = true then a1 else { a1 with lastPat := [] })
        (if o.preStreaming = true then b1 else { b1 with lastPat := [] }) := by
      split
      · exact h1
      · obtain ⟨k, rfl, hc, he⟩ := h1
        exact ⟨k, rfl, hc, he⟩
    generalize (if o.preStreaming = true then a1 else { a1 with lastPat := [] }) = a2 at h3
    generalize (if o.preStreaming = true then b1 else { b1 with lastPat := [] }) = b2 at h3
    refine (cycle_rel h3).bind fun r r' hr => ?_
    obtain ⟨h4, h5, h6⟩ := hr
    refine ⟨?_, ?_, rfl⟩
    · obtain ⟨k, h7, hc, he⟩ := h4
      dsimp only
      rw [h7]
      exact ⟨k, rfl, hc, he⟩
    · exact ((Fewer.refl _).append (fewer_pmts h5 h6)).append (Fewer.refl _)

/-- One packet. -/
theorem step_rel {o : Opt} {a b : St} (h : Rel extra E a b) (i : Input)
    (hE : ∀ t ∈ i.tables, ∀ pmt pid st, validPmt o.sid t = some pmt → (pid, st) ∈ pmt.streams.entries →
      Spec.ProgramFilter.Excluded o st → E pid) :
    Same (fun r r' => Rel extra E r.1 r'.1 ∧ Fewer E r.2.2.1 r'.2.2.1 ∧ r'.2.2.2 = r.2.2.2) (step extra o a i)
      (step extra (noTags o) b i) := by
  unfold step
  refine (tables_rel i.packet.pid i.tables hE h).bind fun r r' hr => ?_
  obtain ⟨a1, l⟩ := r
  obtain ⟨b1, l'⟩ := r'
  obtain ⟨h1, h2⟩ := hr
  dsimp only at h1 h2 ⊢
  subst h2
  rw [(view h1).streaming]
  exact Same.ite Iff.rfl (fun _ => (streaming_rel h1 i.packet).bind fun r r' hr => hr) fun _ =>
    (ready_rel h1 i.packet).bind fun r r' hr => hr

theorem Same.left {ε α β : Type} {R : α → β → Prop} {x : Except ε α} {y : Except ε β} (h : Same R x y) {a : α} (ha : x = .ok a) :
    ∃ b, y = .ok b ∧ R a b := by
  subst ha
  cases y with
  | error => exact h.elim
  | ok b => exact ⟨b, rfl, h⟩

theorem Same.right {ε α β : Type} {R : α → β → Prop} {x : Except ε α} {y : Except ε β} (h : Same R x y) {b : β} (hb : y = .ok b) :
    ∃ a, x = .ok a ∧ R a b := by
  subst hb
  cases x with
  | error => exact h.elim
  | ok a => exact ⟨a, rfl, h⟩

theorem init_rel (o : Opt) : Rel extra E (init o) (init (noTags o)) :=
  ⟨{}, rfl, (fun p hp => by cases hp), rfl, rfl, ⟨(fun hh => by cases hh), (fun t i hh => by cases hh)⟩,
    ⟨(fun hh => by cases hh), (fun t i hh => by cases hh)⟩⟩

/-- The command with tags and without. -/
theorem filterProgram_tags {w : World} (hc : Faithful w.codec) {ps : List (List UInt8)} (hr : Reads w ps)
    (hw : ∀ x ∈ w.write, 0 ≤ x) (o : Opt) :
    (∀ e, Main.filterProgram w o = .ok e → ∃ e', Main.filterProgram w (noTags o) = .ok e' ∧ e'.code = e.code ∧
      ∃ xs ys, Fewer (SomeExcluded o (Spec.Margins.TableOf w)) xs ys ∧ Long w.codec xs ∧ Long w.codec ys ∧
        e.bytes = bytesOf w.codec xs ∧ e'.bytes = bytesOf w.codec ys) ∧
    (∀ e', Main.filterProgram w (noTags o) = .ok e' → ∃ e, Main.filterProgram w o = .ok e) := by
  have hE : ∀ (i : Input), (∀ t ∈ i.tables, Spec.Margins.TableOf w t) → ∀ t ∈ i.tables, ∀ pmt pid st, validPmt o.sid t = some pmt →
      (pid, st) ∈ pmt.streams.entries → Spec.ProgramFilter.Excluded o st → SomeExcluded o (Spec.Margins.TableOf w) pid :=
    fun i hi t ht pmt pid st h1 h2 h3 => ⟨t, pmt, st, hi t ht, h1, h2, h3⟩
  constructor
  · intro e h
    refine filterProgram_outs (o := o) (o' := noTags o) (R := Rel w.extra (SomeExcluded o (Spec.Margins.TableOf w)))
      (U := Fewer (SomeExcluded o (Spec.Margins.TableOf w))) hc hr hw rfl (fun _ _ _ _ h h' => h.append h') (Fewer.refl _)
      (T := Spec.Margins.TableOf w) (fun n x t ht => ⟨n, x, ht⟩) (init_rel o) (fun _ _ h => (view h).retry) ?_ h
    intro a b i hi hab f log outs more hs
    obtain ⟨⟨g, log', outs', more'⟩, h1, h2, h3, h4⟩ := Same.left (step_rel hab i (hE i hi)) hs
    dsimp only at h2 h3 h4
    subst h4
    exact ⟨g, log', outs', h1, h2, h3⟩
  · intro e' h
    obtain ⟨e, h1, _⟩ := filterProgram_outs (o := noTags o) (o' := o) (R := fun a b => Rel w.extra (SomeExcluded o (Spec.Margins.TableOf w)) b a)
      (U := fun _ _ => True) hc hr hw rfl (fun _ _ _ _ _ _ => trivial) trivial
      (T := Spec.Margins.TableOf w) (fun n x t ht => ⟨n, x, ht⟩) (init_rel o) (fun _ _ h => (view h).retry.symm) (by
        intro a b i hi hab f log outs more hs
        obtain ⟨⟨g, log', outs', more'⟩, h1, h2, h3, h4⟩ := Same.right (step_rel hab i (hE i hi)) hs
        dsimp only at h2 h3 h4
        subst h4
        exact ⟨g, log', outs', h1, h2, trivial⟩) h
    exact ⟨e, h1⟩

end
end Mirakc.Tags
