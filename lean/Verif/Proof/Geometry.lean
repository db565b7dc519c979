import Verif.Spec.Geometry
import Verif.Proof.ServiceRecorderTotal
import Verif.Proof.ServiceRecorderHist
import Verif.Props.RingFileSink
/-
Two recorders that differ in their ring files only.
-/
set_option linter.unusedSimpArgs false

namespace Mirakc.Geometry
open Mirakc.ServiceRecorder Mirakc.Spec Mirakc.Spec.ServiceRecorder Mirakc.Spec.Geometry

/-- The state with another ring file and another position of the last boundary. -/
def geo (r : RingFileSink.St) (p : Nat) (s : St) : St := { s with ring := r, boundPos := p }

theorem tick_geo (r : RingFileSink.St) (bp : Nat) (s : St) (p : Packet) :
    tick (geo r bp s) p = (tick s p).map (geo r bp) := by
  unfold tick
  have e : (geo r bp s).clock = s.clock := rfl
  rw [e]
  by_cases h : (s.clock.hasPid && s.clock.baseline.pid == p.pid) = true
  · rw [if_pos h, if_pos h]
    cases p.pcr with
    | none => rfl
    | some x =>
      dsimp only
      cases s.clock.updatePcr x <;> rfl
  · rw [if_neg h, if_neg h]; rfl

theorem ite_map {α β : Type} (f : α → β) (b : Bool) (x y : Except Fault α) :
    (if b = true then x else y).map f = if b = true then x.map f else y.map f := by
  split <;> rfl

theorem table_geo {o o' : Opt} (ho : o'.sid = o.sid) (l : Int) (r : RingFileSink.St) (bp : Nat) (s : St) (t : Table) :
    handleTable o' l (geo r bp s) t = (handleTable o l s t).map (geo r bp) := by
  unfold handleTable
  cases t.body with
  | pat pat =>
    simp only [handlePat, ho, ite_map]
    cases pat.pmts.find? o.sid <;> rfl
  | pmt pmt => simp only [handlePmt, ho, ite_map]; rfl
  | eit eit => simp only [handleEit, ho, ite_map]; rfl
  | tot time =>
    simp only [handleTot, ite_map]
    have e : (geo r bp s).clock = s.clock := rfl
    rw [e]
    cases s.clock.updateTime time l <;> rfl
  | _ => rfl

theorem feed_geo {o o' : Opt} (ho : o'.sid = o.sid) (l : Int) (r : RingFileSink.St) (bp : Nat) (pid : Nat) :
    ∀ (ts : List Table) (s : St), feedDemux St.demux (handleTable o' l) pid ts (geo r bp s) =
      (feedDemux St.demux (handleTable o l) pid ts s).map fun x => (geo r bp x.1, x.2)
  | [], _ => rfl
  | t :: ts, s => by
    unfold feedDemux
    have hd : (geo r bp s).demux = s.demux := rfl
    rw [hd]
    split
    · rw [table_geo ho]
      cases handleTable o l s t with
      | error f => rfl
      | ok s1 =>
        show (do let (s', log) ← feedDemux St.demux (handleTable o' l) pid ts (geo r bp s1); _) = _
        rw [feed_geo ho l r bp pid ts s1]
        simp only [ok_bind]
        cases feedDemux St.demux (handleTable o l) pid ts s1 <;> rfl
    · exact feed_geo ho l r bp pid ts s

/-- Two positions reached with the same number of bytes. -/
def Same (S R S' R' : Nat) (p p' : Nat) : Prop := ∃ k, p = (S + k) % R ∧ p' = (S' + k) % R'

/-- Two lists of event messages that differ in the ring file only. -/
def Twins (S R S' R' : Nat) (ms ms' : List Msg) : Prop :=
  ∃ ks : List Msg, ms = ks.map (place S R) ∧ ms' = ks.map (place S' R')

theorem Twins.nil {S R S' R' : Nat} : Twins S R S' R' [] [] := ⟨[], rfl, rfl⟩

theorem Twins.append {S R S' R' : Nat} {a a' b b' : List Msg} (h : Twins S R S' R' a a') (k : Twins S R S' R' b b') :
    Twins S R S' R' (a ++ b) (a' ++ b') := by
  obtain ⟨x, rfl, rfl⟩ := h
  obtain ⟨y, rfl, rfl⟩ := k
  exact ⟨x ++ y, by simp, by simp⟩

theorem Twins.start {S R S' R' p p' : Nat} (h : Same S R S' R' p p') (e : Eit) (ev : Event) (t : Int) :
    Twins S R S' R' [.eventStart e ev t p] [.eventStart e ev t p'] := by
  obtain ⟨k, rfl, rfl⟩ := h
  exact ⟨[.eventStart e ev t k], rfl, rfl⟩

theorem Twins.stop {S R S' R' p p' : Nat} (h : Same S R S' R' p p') (e : Eit) (ev : Event) (t : Int) :
    Twins S R S' R' [.eventEnd e ev t p] [.eventEnd e ev t p'] := by
  obtain ⟨k, rfl, rfl⟩ := h
  exact ⟨[.eventEnd e ev t k], rfl, rfl⟩

theorem edges_append (x y : List Msg) : edges (x ++ y) = edges x ++ edges y := by simp [edges]

theorem expand_edges {s : St} {l : Int} {ops : List RingFileSink.Op} {tr : List Tr} (h : expand s l ops = .ok tr) :
    edges (messages tr) = [] := by
  obtain ⟨now, hx, _⟩ := expand_spec h
  unfold edges
  rw [List.filter_eq_nil_iff]
  intro m hm
  rcases expandTo_no_event hx m hm with ⟨p, rfl⟩ | ⟨e, ev, p, rfl, _⟩ <;> simp

theorem updateEit_geo (r : RingFileSink.St) (bp : Nat) (s : St) :
    updateEit (geo r bp s) = (updateEit s).map fun x => (x.1, x.2.1, geo r bp x.2.2) := by
  obtain ⟨d, r', c, bt, bp', eit, newEit, pp, rec, st⟩ := s
  cases newEit with
  | none => rfl
  | some n =>
    simp only [updateEit, geo]
    cases getEvent eit with
    | error f => rfl
    | ok x =>
      simp only [ok_bind]
      cases getEvent (some n) with
      | error f => rfl
      | ok y =>
        simp only [ok_bind]
        by_cases h : (x.2.eventId != y.2.eventId) = true
        · rw [if_pos h, if_pos h]; rfl
        · rw [if_neg h, if_neg h]; rfl

section
variable {S R S' R' : Nat}

/-- The event part of `OnRecording`: the same for both ring files. -/
theorem updateEvent_geo {r : RingFileSink.St} {bp : Nat} {s s2 s2' : St} {now : Int} {changed : Bool} {eit newEit : Option Eit}
    {out out' : List Tr} (hp : Same S R S' R' s.ring.ringPos r.ringPos) (hb : Same S R S' R' s.boundPos bp)
    (h : updateEvent s now changed eit newEit = .ok (s2, out))
    (h' : updateEvent (geo r bp s) now changed eit newEit = .ok (s2', out')) :
    (∃ bp', s2' = geo r bp' s2 ∧ Same S R S' R' s2.boundPos bp') ∧ s2.ring = s.ring ∧
      Twins S R S' R' (edges (messages out)) (edges (messages out')) := by
  unfold updateEvent at h h'
  have hst : (geo r bp s).started = s.started := rfl
  rw [hst] at h'
  by_cases h1 : s.started = true
  · rw [if_pos h1] at h h'
    by_cases h2 : changed = true
    · rw [if_pos h2] at h h'
      obtain ⟨⟨e, ev⟩, h3, h⟩ := bind_eq_ok h
      obtain ⟨⟨e2, ev2⟩, h4, h⟩ := bind_eq_ok h
      rw [h3] at h'
      simp only [ok_bind] at h'
      rw [h4] at h'
      simp only [ok_bind] at h'
      cases h; cases h'
      exact ⟨⟨_, rfl, hp⟩, rfl, (Twins.stop hp e ev now).append (Twins.start hp e2 ev2 now)⟩
    · rw [if_neg h2] at h h'
      obtain ⟨⟨e, ev⟩, h3, h⟩ := bind_eq_ok h
      rw [h3] at h'
      simp only [ok_bind] at h'
      dsimp only at h h'
      by_cases h4 : unspecified ev = true
      · rw [if_pos h4] at h h'
        cases h; cases h'
        exact ⟨⟨_, rfl, hb⟩, rfl, Twins.nil⟩
      · rw [if_neg h4] at h h'
        by_cases h5 : now ≥ endTime ev
        · rw [if_pos h5] at h h'
          cases h; cases h'
          exact ⟨⟨_, rfl, hp⟩, rfl, Twins.stop hp e ev _⟩
        · rw [if_neg h5] at h h'
          cases h; cases h'
          exact ⟨⟨_, rfl, hb⟩, rfl, Twins.nil⟩
  · rw [if_neg h1] at h h'
    by_cases h2 : changed = true
    · rw [if_pos h2] at h h'
      obtain ⟨⟨e2, ev2⟩, h4, h⟩ := bind_eq_ok h
      rw [h4] at h'
      simp only [ok_bind] at h'
      cases h; cases h'
      exact ⟨⟨_, rfl, hb⟩, rfl, Twins.start hb e2 ev2 _⟩
    · rw [if_neg h2] at h h'
      cases h; cases h'
      exact ⟨⟨_, rfl, hb⟩, rfl, Twins.nil⟩

/-- The recorders agree on everything but the ring file. -/
structure Alike (S R S' R' : Nat) (s s' : St) : Prop where
  eq : ∃ r bp, s' = geo r bp s
  bound : s.recording = true → Same S R S' R' s.boundPos s'.boundPos

theorem record_geo {r : RingFileSink.St} {bp : Nat} {s t t' : St} {i : ServiceRecorder.Input} {ok ok' : Bool} {out out' : List Tr}
    (hp : Same S R S' R' s.ring.ringPos r.ringPos) (hb : Same S R S' R' s.boundPos bp)
    (h : onRecording s i = .ok (ok, t, out)) (h' : onRecording (geo r bp s) i = .ok (ok', t', out')) :
    Alike S R S' R' t t' ∧ Twins S R S' R' (edges (messages out)) (edges (messages out')) := by
  unfold onRecording at h h'
  obtain ⟨now, h1, h⟩ := bind_eq_ok h
  obtain ⟨⟨changed, eit, s1⟩, h2, h⟩ := bind_eq_ok h
  obtain ⟨⟨s2, out1⟩, h3, h⟩ := bind_eq_ok h
  obtain ⟨⟨ok1, ring⟩, h4, h⟩ := bind_eq_ok h
  obtain ⟨ops, h5, h⟩ := bind_eq_ok h
  cases h
  have e1 : (geo r bp s).clock.now i.nowLocal = .ok now := h1
  have e2 : updateEit (geo r bp s) = .ok (changed, eit, geo r bp s1) := by rw [updateEit_geo, h2]; rfl
  rw [e1] at h'
  simp only [ok_bind] at h'
  rw [e2] at h'
  simp only [ok_bind] at h'
  obtain ⟨⟨s2', out1'⟩, h3', h'⟩ := bind_eq_ok h'
  obtain ⟨⟨ok1', ring'⟩, h4', h'⟩ := bind_eq_ok h'
  obtain ⟨ops', h5', h'⟩ := bind_eq_ok h'
  cases h'
  have hs1 : s1.ring = s.ring ∧ s1.boundPos = s.boundPos := by
    unfold updateEit at h2
    split at h2
    · cases h2; exact ⟨rfl, rfl⟩
    · obtain ⟨⟨_, _⟩, _, h2⟩ := bind_eq_ok h2
      obtain ⟨⟨_, _⟩, _, h2⟩ := bind_eq_ok h2
      dsimp only at h2
      split at h2 <;> cases h2 <;> exact ⟨rfl, rfl⟩
  obtain ⟨⟨bp', rfl, hb'⟩, _, ht⟩ := updateEvent_geo (S := S) (R := R) (S' := S') (R' := R')
    (by rw [hs1.1]; exact hp) (by rw [hs1.2]; exact hb) h3 h3'
  refine ⟨⟨⟨ring', bp', rfl⟩, fun _ => hb'⟩, ?_⟩
  simp only [messages_append, edges_append, expand_edges h5, expand_edges h5', List.append_nil]
  exact ht

theorem prepare_geo {o o' : Opt} {r : RingFileSink.St} {bp : Nat} {s t t' : St} {i : ServiceRecorder.Input} {out out' : List Tr}
    (hrec : s.recording = false) (hp : Same S R S' R' s.ring.ringPos r.ringPos)
    (h : onPreparing o s i = .ok (t, out)) (h' : onPreparing o' (geo r bp s) i = .ok (t', out')) :
    Alike S R S' R' t t' ∧ Twins S R S' R' (edges (messages out)) (edges (messages out')) := by
  rcases prepare_spec h with ⟨h1, rfl, rfl⟩ | ⟨h1, e, ev, now, h2, h3, h4, _, _, h5⟩
  · rcases prepare_spec h' with ⟨_, rfl, rfl⟩ | ⟨h1', e', ev', now', h2', _⟩
    · exact ⟨⟨⟨r, bp, rfl⟩, fun h => by rw [hrec] at h; cases h⟩, Twins.nil⟩
    · exact absurd ⟨h1', by rw [show t.newEit = some e' from h2']; rfl⟩ h1
  · rcases prepare_spec h' with ⟨h1', _⟩ | ⟨_, e', ev', now', h2', h3', h4', _, _, h5'⟩
    · exact absurd ⟨h1, by rw [show (geo r bp s).newEit = some e from h2]; rfl⟩ h1'
    · have q1 : e' = e := by
        have : some e' = some e := by rw [← h2]; exact h2'.symm
        exact Option.some.inj this
      subst q1
      have q2 : ev' = ev := by rw [h3] at h3'; exact (Option.some.inj h3').symm
      subst q2
      have q3 : now' = now := by
        have : s.clock.now i.nowLocal = .ok now' := h4'
        rw [h4] at this; cases this; rfl
      subst q3
      rcases h5 with ⟨g, rfl, rfl⟩ | ⟨g, rfl, rfl⟩
      · rcases h5' with ⟨_, rfl, rfl⟩ | ⟨g', _⟩
        · exact ⟨⟨⟨r, _, rfl⟩, fun _ => hp⟩, Twins.nil⟩
        · exact absurd g g'
      · rcases h5' with ⟨g', _⟩ | ⟨_, rfl, rfl⟩
        · exact absurd g' g
        · exact ⟨⟨⟨r, _, rfl⟩, fun _ => hp⟩, Twins.start hp e' ev' now'⟩

theorem tick_recording {s s1 : St} {p : Packet} (h : tick s p = .ok s1) :
    s1.recording = s.recording ∧ s1.ring = s.ring ∧ s1.boundPos = s.boundPos := by
  unfold tick at h
  split at h
  · split at h
    · cases h; exact ⟨rfl, rfl, rfl⟩
    · obtain ⟨c, _, h⟩ := bind_eq_ok h
      cases h; exact ⟨rfl, rfl, rfl⟩
  · cases h; exact ⟨rfl, rfl, rfl⟩

theorem table_recording {o : Opt} {l : Int} {s s1 : St} {t : Table} (h : handleTable o l s t = .ok s1) :
    s1.recording = s.recording ∧ s1.ring = s.ring ∧ s1.boundPos = s.boundPos := by
  unfold handleTable at h
  split at h
  · unfold handlePat at h
    repeat' (first | (cases h; exact ⟨rfl, rfl, rfl⟩) | split at h)
    all_goals cases h
  · unfold handlePmt at h
    repeat' (first | (cases h; exact ⟨rfl, rfl, rfl⟩) | split at h)
  · unfold handleEit at h
    repeat' (first | (cases h; exact ⟨rfl, rfl, rfl⟩) | split at h)
  · unfold handleTot at h
    split at h
    · cases h; exact ⟨rfl, rfl, rfl⟩
    · obtain ⟨c, _, h⟩ := bind_eq_ok h
      cases h; exact ⟨rfl, rfl, rfl⟩
  · cases h; exact ⟨rfl, rfl, rfl⟩

theorem feed_recording {o : Opt} {l : Int} {pid : Nat} {ts log : List Table} {s s1 : St}
    (h : feedDemux St.demux (handleTable o l) pid ts s = .ok (s1, log)) :
    s1.recording = s.recording ∧ s1.ring = s.ring ∧ s1.boundPos = s.boundPos :=
  feedDemux_inv (fun s' _ => s'.recording = s.recording ∧ s'.ring = s.ring ∧ s'.boundPos = s.boundPos)
    (fun _ _ _ _ h1 _ _ h2 => by
      obtain ⟨a, b, c⟩ := table_recording h2
      exact ⟨a.trans h1.1, b.trans h1.2.1, c.trans h1.2.2⟩) ts s s1 log [] ⟨rfl, rfl, rfl⟩ h

/-- The part of `HandlePacket` before the state machine. -/
theorem front_geo {o o' : Opt} (ho : o'.sid = o.sid) {r : RingFileSink.St} {bp : Nat} {s s1 sf : St} {i : ServiceRecorder.Input}
    {log : List Table} (h1 : tick s i.packet = .ok s1)
    (h2 : feedDemux St.demux (handleTable o i.totLocal) i.packet.pid i.tables s1 = .ok (sf, log)) :
    tick (geo r bp s) i.packet = .ok (geo r bp s1) ∧
    feedDemux St.demux (handleTable o' i.totLocal) i.packet.pid i.tables (geo r bp s1) = .ok (geo r bp sf, log) := by
  constructor
  · rw [tick_geo, h1]; rfl
  · rw [feed_geo ho, h2]; rfl

theorem step_geo {o o' : Opt} (ho : o'.sid = o.sid) {s s' t t' : St} {i : ServiceRecorder.Input} {it it' : Item}
    (ha : Alike S R S' R' s s') (hp : Same S R S' R' s.ring.ringPos s'.ring.ringPos)
    (h : step o s i = .ok (t, it)) (h' : step o' s' i = .ok (t', it')) :
    Alike S R S' R' t t' ∧ Twins S R S' R' (edges (messages it.out)) (edges (messages it'.out)) ∧
      it'.stored = it.stored ∧ it'.handled = it.handled := by
  obtain ⟨⟨r, bp, rfl⟩, hb⟩ := ha
  unfold step at h h'
  obtain ⟨s1, h1, h⟩ := bind_eq_ok h
  obtain ⟨⟨sf, log⟩, h2, h⟩ := bind_eq_ok h
  obtain ⟨e1, e2⟩ := front_geo ho (r := r) (bp := bp) h1 h2
  rw [e1] at h'
  simp only [ok_bind] at h'
  rw [e2] at h'
  simp only [ok_bind] at h'
  obtain ⟨a1, a2, a3⟩ := tick_recording h1
  obtain ⟨b1, b2, b3⟩ := feed_recording h2
  have c1 : sf.recording = s.recording := b1.trans a1
  have c2 : sf.ring = s.ring := b2.trans a2
  have c3 : sf.boundPos = s.boundPos := b3.trans a3
  dsimp only at h
  have hrec : (geo r bp sf).recording = sf.recording := rfl
  rw [hrec] at h'
  by_cases hr : sf.recording = true
  · rw [if_pos hr] at h h'
    obtain ⟨⟨ok, t1, out⟩, h3, h⟩ := bind_eq_ok h
    obtain ⟨⟨ok', t1', out'⟩, h3', h'⟩ := bind_eq_ok h'
    cases h; cases h'
    obtain ⟨k1, k2⟩ := record_geo (S := S) (R := R) (S' := S') (R' := R')
      (by rw [c2]; exact hp) (by rw [c3]; exact hb (by rw [← c1]; exact hr)) h3 h3'
    exact ⟨k1, k2, rfl, rfl⟩
  · rw [if_neg hr] at h h'
    obtain ⟨⟨t1, out⟩, h3, h⟩ := bind_eq_ok h
    obtain ⟨⟨t1', out'⟩, h3', h'⟩ := bind_eq_ok h'
    cases h; cases h'
    obtain ⟨k1, k2⟩ := prepare_geo (S := S) (R := R) (S' := S') (R' := R')
      (by simpa using hr) (by rw [c2]; exact hp) h3 h3'
    exact ⟨k1, k2, rfl, rfl⟩

end

theorem stored_188 {items : List Item} (h : ∀ x ∈ items, x.input.bytes.length = 188) : ∀ p ∈ stored items, p.length = 188 := by
  intro p hp
  simp only [stored, List.mem_map, List.mem_filter] at hp
  obtain ⟨x, ⟨hx, _⟩, rfl⟩ := hp
  exact h x hx

/-- The position reached. -/
theorem reach_pos {o : Opt} {results : List Int} {r0 : RingFileSink.St}
    (hopt : Permitted o.chunkSize o.numChunks o.startPos)
    (ho : RingFileSink.openAt o.chunkSize o.numChunks o.startPos results = .ok (true, r0))
    {items : List Item} {s : St} (hr : Reach o { ring := r0 } items s) (hm : ∀ x ∈ items, x.more = true)
    (hb : ∀ x ∈ items, x.input.bytes.length = 188) :
    s.ring.ringPos = (o.startPos + 188 * (stored items).length) % (o.chunkSize * o.numChunks) :=
  (Props.C09_ring_position o.chunkSize o.numChunks o.startPos hopt results r0 s.ring ho
    (stored items) (stored_188 hb) ((inv_reach hr).accepts hm) ⟨fun _ => 0, 0, 0⟩ rfl).1

/-- Two recorders fed with the same packets, as long as both go on. -/
theorem reach_geo {o o' : Opt} (hs : o'.sid = o.sid) {results results' : List Int} {r0 r0' : RingFileSink.St}
    (hopt : Permitted o.chunkSize o.numChunks o.startPos) (hopt' : Permitted o'.chunkSize o'.numChunks o'.startPos)
    (ho : RingFileSink.openAt o.chunkSize o.numChunks o.startPos results = .ok (true, r0))
    (ho' : RingFileSink.openAt o'.chunkSize o'.numChunks o'.startPos results' = .ok (true, r0'))
    {items : List Item} {s : St} (hr : Reach o { ring := r0 } items s) :
    ∀ {items' : List Item} {s' : St}, Reach o' { ring := r0' } items' s' →
    items'.map (·.input) = items.map (·.input) → (∀ x ∈ items, x.input.bytes.length = 188) →
    Alike o.startPos (o.chunkSize * o.numChunks) o'.startPos (o'.chunkSize * o'.numChunks) s s' ∧
    Twins o.startPos (o.chunkSize * o.numChunks) o'.startPos (o'.chunkSize * o'.numChunks)
      (edges (messages (outs items))) (edges (messages (outs items'))) ∧
    stored items' = stored items := by
  induction hr with
  | nil =>
    intro items' s' hr' he hb
    cases items' with
    | cons x l => cases he
    | nil =>
      have : s' = { ring := r0' } := by
        generalize hl : ([] : List Item) = l at hr'
        cases hr' with
        | nil => rfl
        | snoc => simp at hl
      subst this
      exact ⟨⟨⟨r0', 0, rfl⟩, fun h => by cases h⟩, Twins.nil, rfl⟩
  | @snoc items s i t it hr hm hst ih =>
    intro items' s' hr' he hb
    rcases List.eq_nil_or_concat items' with rfl | ⟨a', it', rfl⟩
    · simp at he
    · rw [List.concat_eq_append] at he hr' ⊢
      rw [List.map_append, List.map_append] at he
      obtain ⟨he1, he2⟩ := List.append_inj' he rfl
      have hin : it'.input = i := by
        have : it'.input = it.input := (List.cons.inj he2).1
        exact this.trans (step_input hst)
      obtain ⟨s1', s2', k1, k2, k3, k4, _⟩ := hr'.split a' it' [] rfl
      have hu := k4.unique hr'
      subst hu
      have hb1 : ∀ x ∈ items, x.input.bytes.length = 188 := fun x hx => hb x (by simp [hx])
      obtain ⟨i1, i2, i3⟩ := ih k1 he1 hb1
      have hb1' : ∀ x ∈ a', x.input.bytes.length = 188 := by
        intro x hx
        have : x.input ∈ items.map (·.input) := by rw [← he1]; exact List.mem_map_of_mem hx
        obtain ⟨y, hy, e⟩ := List.mem_map.1 this
        rw [← e]; exact hb1 y hy
      have hp := reach_pos hopt ho hr hm hb1
      have hp' := reach_pos hopt' ho' k1 k2 hb1'
      rw [i3] at hp'
      rw [hin] at k3
      obtain ⟨j1, j2, j3, _⟩ := step_geo hs i1 ⟨_, hp, hp'⟩ hst k3
      refine ⟨j1, ?_, ?_⟩
      · rw [outs_append, outs_append, outs_one, outs_one, messages_append, messages_append, edges_append, edges_append]
        exact i2.append j2
      · rw [stored_append, stored_append, i3]
        congr 1
        unfold stored
        have hi : it'.input = it.input := by rw [hin, step_input hst]
        cases hx : it.stored <;> simp [hx, j3, hi]

/-- Where one recorder goes on, the other does not terminate abnormally. -/
theorem step_other {o o' : Opt} (hs : o'.sid = o.sid) {results' : List Int} {r0 r0' : RingFileSink.St}
    (hopt' : Permitted o'.chunkSize o'.numChunks o'.startPos)
    (ho' : RingFileSink.openAt o'.chunkSize o'.numChunks o'.startPos results' = .ok (true, r0'))
    {items items' : List Item} {s s' t : St} {i : ServiceRecorder.Input} {it : Item} {S R S' R' : Nat}
    (hr : Reach o { ring := r0 } items s) (hr' : Reach o' { ring := r0' } items' s')
    (hm' : ∀ x ∈ items', x.more = true) (hb' : ∀ x ∈ items', x.input.bytes.length = 188) (hi : i.bytes.length = 188)
    (ha : Alike S R S' R' s s') (h : step o s i = .ok (t, it)) : ∃ x, step o' s' i = .ok x := by
  obtain ⟨⟨r, bp, rfl⟩, _⟩ := ha
  unfold step at h
  obtain ⟨s1, h1, h⟩ := bind_eq_ok h
  obtain ⟨⟨sf, log⟩, h2, _⟩ := bind_eq_ok h
  obtain ⟨e1, e2⟩ := front_geo hs (r := r) (bp := bp) h1 h2
  obtain ⟨ht, _⟩ := feed_spec (inv_reach hr).told h1 h2
  exact step_ok hopt' ho' hr' hm' hb' hi e1 e2
    (show isValidPcr sf.clock.lastPcr = true from Clock.run_valid _ (c := {}) (by decide) ht.clock)

theorem goes_on {o o' : Opt} (hs : o'.sid = o.sid) {results results' : List Int} {r0 r0' : RingFileSink.St}
    (hopt : Permitted o.chunkSize o.numChunks o.startPos) (hopt' : Permitted o'.chunkSize o'.numChunks o'.startPos)
    (ho : RingFileSink.openAt o.chunkSize o.numChunks o.startPos results = .ok (true, r0))
    (ho' : RingFileSink.openAt o'.chunkSize o'.numChunks o'.startPos results' = .ok (true, r0'))
    {h g : Hist} {is : List ServiceRecorder.Input} (ha : Accepts (sink o) h is g) :
    Reach o { ring := r0 } h.items h.st → (∀ x ∈ h.items, x.more = true) → (∀ x ∈ h.items, x.input.bytes.length = 188) →
    (∀ i ∈ is, i.bytes.length = 188) → ∀ {h' : Hist}, Reach o' { ring := r0' } h'.items h'.st →
    (∀ x ∈ h'.items, x.more = true) → h'.items.map (·.input) = h.items.map (·.input) →
    ∃ cs g', Consumes (sink o') h' is cs g' := by
  induction ha with
  | nil => intros; exact ⟨[], _, .eof⟩
  | @cons h h1 g i is e _ ih =>
    intro k1 k2 k3 k4 h' l1 l2 l3
    simp only [sink] at e
    obtain ⟨⟨s, it⟩, e1, e2⟩ := bind_eq_ok e
    simp only [Except.ok.injEq, Prod.mk.injEq] at e2
    obtain ⟨e2, e3⟩ := e2
    subst e3
    have l4 : ∀ x ∈ h'.items, x.input.bytes.length = 188 := by
      intro x hx
      have : x.input ∈ h.items.map (·.input) := by rw [← l3]; exact List.mem_map_of_mem hx
      obtain ⟨y, hy, ey⟩ := List.mem_map.1 this
      rw [← ey]; exact k3 y hy
    obtain ⟨al, _, _⟩ := reach_geo hs hopt hopt' ho ho' k1 l1 l3 k3
    obtain ⟨⟨s', it'⟩, f1⟩ := step_other hs hopt' ho' k1 l1 l2 l4 (k4 i List.mem_cons_self) al e1
    have hh : (sink o').handle h' i =
        .ok (it'.more, { st := s', items := h'.items ++ [it'], trace := h'.trace ++ it'.out }) := by
      simp only [sink, f1, ok_bind]
    cases hmore : it'.more with
    | false => rw [hmore] at hh; exact ⟨_, _, .refuse hh⟩
    | true =>
      rw [hmore] at hh
      obtain ⟨cs, g', hc⟩ := ih (.snoc k1 k2 e1)
        (by
          intro x hx
          rcases List.mem_append.1 hx with hx | hx
          · exact k2 x hx
          · rw [List.mem_singleton.1 hx]; exact e2)
        (by
          intro x hx
          rcases List.mem_append.1 hx with hx | hx
          · exact k3 x hx
          · rw [List.mem_singleton.1 hx, step_input e1]; exact k4 i List.mem_cons_self)
        (fun j hj => k4 j (List.mem_cons_of_mem _ hj))
        (h' := { st := s', items := h'.items ++ [it'], trace := h'.trace ++ it'.out })
        (.snoc l1 l2 f1)
        (by
          intro x hx
          rcases List.mem_append.1 hx with hx | hx
          · exact l2 x hx
          · rw [List.mem_singleton.1 hx]; exact hmore)
        (by simp [l3, step_input e1, step_input f1])
      exact ⟨_, _, .accept hh hc⟩

theorem started_of {o : Opt} {results : List Int} {h0 h1 : Hist} (hi : init o results = .ok h0)
    (h : (sink o).start h0 = .ok (true, h1)) :
    ∃ r0, RingFileSink.openAt o.chunkSize o.numChunks o.startPos results = .ok (true, r0) ∧ h1.items = [] ∧
      h1.st = { ring := r0 } := by
  unfold init at hi
  obtain ⟨r, e1, hi⟩ := bind_eq_ok hi
  cases hi
  simp only [sink, start] at h
  have hopen : ∀ x, (if o.startPos ≠ 0 then RingFileSink.setPosition r o.startPos else .ok (true, r)) = .ok x →
      RingFileSink.openAt o.chunkSize o.numChunks o.startPos results = .ok x := by
    intro x hx
    unfold RingFileSink.openAt
    rw [e1, ok_bind]; exact hx
  by_cases hsp : o.startPos ≠ 0
  · rw [if_pos hsp] at hopen h
    obtain ⟨⟨ok, r'⟩, e2, h⟩ := bind_eq_ok h
    cases ok with
    | false => simp only [Bool.false_eq_true, if_false] at h; cases h
    | true => simp only [if_true] at h; cases h; exact ⟨r', hopen _ e2, rfl, rfl⟩
  · rw [if_neg hsp] at hopen h
    simp only [ok_bind, if_true] at h
    cases h
    exact ⟨r, hopen _ rfl, rfl, rfl⟩

theorem start_ok {o : Opt} (hopt : Permitted o.chunkSize o.numChunks o.startPos) (results : List Int) :
    ∃ h0 ok h1, init o results = .ok h0 ∧ (sink o).start h0 = .ok (ok, h1) := by
  obtain ⟨ok, r0, ho⟩ : ∃ ok r0,
      RingFileSink.openAt o.chunkSize o.numChunks o.startPos results = .ok (ok, r0) := by
    obtain ⟨g⟩ := RingFileSink.geom_of_accept ((RingFileSink.accept_iff _ _ _).2 hopt)
    rcases RingFileSink.open_spec ((RingFileSink.accept_iff _ _ _).2 hopt) results g with
      ⟨s1, e1, _⟩ | ⟨s1, e1, _⟩
    · exact ⟨_, _, e1⟩
    · exact ⟨_, _, e1⟩
  unfold RingFileSink.openAt at ho
  obtain ⟨r, e1, e2⟩ := bind_eq_ok ho
  refine ⟨{ st := { ring := r } }, ok, ?_⟩
  have e3 : (if o.startPos ≠ 0 then RingFileSink.setPosition r o.startPos else .ok (true, r)) = .ok (ok, r0) := e2
  by_cases hsp : o.startPos ≠ 0
  · rw [if_pos hsp] at e3
    cases ok with
    | false => exact ⟨_, by unfold init; rw [e1]; rfl, by simp only [sink, start]; rw [if_pos hsp, e3]; rfl⟩
    | true => exact ⟨_, by unfold init; rw [e1]; rfl, by simp only [sink, start]; rw [if_pos hsp, e3]; rfl⟩
  · rw [if_neg hsp] at e3
    cases e3
    exact ⟨_, by unfold init; rw [e1]; rfl, by simp only [sink, start]; rw [if_neg hsp]; rfl⟩

end Mirakc.Geometry
