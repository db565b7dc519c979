import Verif.Spec.RecordAborts
import Verif.Proof.ServiceRecorderTotal
import Verif.Proof.Demux
import Verif.Proof.AbortsAt
/-
Exactly which streams make record-service terminate abnormally.
-/
namespace Mirakc.ServiceRecorder
open Mirakc.Spec Mirakc.Spec.ServiceRecorder
open Mirakc.Spec.ServiceFilter (latest validPmt validTot usablePat listed Missing)
open Mirakc.ServiceFilter (latest_append latest_some latest_none latest_mem)

/-- The invariant for arbitrary tables. -/
structure Track (o : Opt) (s : St) (rs : List Table) : Prop where
  pmt : s.pmtPid = (latest (listed o.sid) rs).getD 0x1FFF
  demux : ∀ pid, pid ∈ s.demux ↔ Looked o.sid rs pid
  valid : isValidPcr s.clock.lastPcr = true

theorem track_init (o : Opt) (r0 : RingFileSink.St) : Track o { ring := r0 } [] := by
  refine ⟨rfl, fun pid => ?_, by show isValidPcr 0 = true; decide⟩
  simp [Looked, latest, pidTot, pidEit, pidPat]
  omega

theorem handle_valid {o : Opt} {l : Int} {s s' : St} {t : Table} (hv : isValidPcr s.clock.lastPcr = true)
    (h : handleTable o l s t = .ok s') : isValidPcr s'.clock.lastPcr = true := by
  unfold handleTable at h
  split at h
  · simp only [handlePat] at h
    repeat' split at h
    all_goals first | (cases h; exact hv) | cases h
  · simp only [handlePmt] at h
    repeat' split at h
    all_goals cases h; exact hv
  · simp only [handleEit] at h
    repeat' split at h
    all_goals cases h; exact hv
  · next time _ =>
    simp only [handleTot] at h
    split at h
    · cases h; exact hv
    · obtain ⟨c, h1, h2⟩ := Clock.updateTime_total (t := time) (l := l) hv
      rw [h1, ok_bind] at h
      cases h
      exact h2
  · cases h; exact hv

theorem track_table {o : Opt} {l : Int} {s s' : St} {t : Table} {rs : List Table} (hT : Track o s rs)
    (h : handleTable o l s t = .ok s') : Track o s' (rs ++ [t]) := by
  have hv := handle_valid hT.valid h
  rcases handle_demux h with ⟨pat, p, hu, hm, h1, h2⟩ | ⟨hu, h1, h2⟩
  · have hp : listed o.sid t = some p := by
      simp only [listed, hu, Option.bind_some]
      exact (pat.pmts.find?_iff o.sid p).2 hm
    refine ⟨by rw [h1, latest_some _ _ _ hp]; rfl, fun pid => ?_, hv⟩
    rw [h2, hT.pmt]
    simp only [Looked, latest_some _ _ _ hp, List.mem_append, List.mem_singleton, PidSet.add,
      List.mem_cons, Option.some.injEq]
    cases hla : latest (listed o.sid) rs with
    | none =>
      have hno : ∀ u ∈ rs, listed o.sid u = none := by
        intro u hu
        have : rs.filterMap (listed o.sid) = [] := by
          simpa [latest, List.getLast?_eq_none_iff] using hla
        rw [List.filterMap_eq_nil_iff] at this
        exact this u hu
      simp only [Option.getD_none, bne_self_eq_false, Bool.false_eq_true, if_false, hT.demux pid, Looked, hla]
      grind
    | some q =>
      obtain ⟨u, hu, hq⟩ := latest_mem hla
      by_cases hn : q = 0x1FFF
      · subst hn
        simp only [Option.getD_some, bne_self_eq_false, Bool.false_eq_true, if_false, hT.demux pid, Looked, hla]
        grind
      · have : (q != 0x1FFF) = true := by simpa using hn
        simp only [Option.getD_some, this, if_true, PidSet.remove, List.mem_filter, bne_iff_ne,
          hT.demux pid, Looked, hla]
        grind
  · have hp : listed o.sid t = none := by simp [listed, hu]
    refine ⟨by rw [h2, latest_none _ _ _ hp]; exact hT.pmt, fun pid => ?_, hv⟩
    rw [h1, hT.demux pid]
    simp only [Looked, latest_none _ _ _ hp, List.mem_append, List.mem_singleton]
    grind

/-- A handler fails exactly on a PAT without the service. -/
theorem handle_error {o : Opt} {l : Int} {s : St} {t : Table} (hv : isValidPcr s.clock.lastPcr = true) :
    (∃ f, handleTable o l s t = .error f) ↔ Missing o.sid t := by
  constructor
  · rintro ⟨f, hf⟩
    apply Classical.byContradiction
    intro hm
    obtain ⟨s', h, _⟩ := handle_total (o := o) (l := l) (s := s) (t := t) (by
      intro pat hp
      apply Classical.byContradiction
      intro hn
      exact hm ⟨pat, hp, fun pid hpid => hn ⟨pid, hpid⟩⟩) hv
    rw [hf] at h
    cases h
  · rintro ⟨pat, hp, hn⟩
    cases h : handleTable o l s t with
    | error f => exact ⟨f, rfl⟩
    | ok s' =>
      rcases handle_demux h with ⟨pat', pid, hu, hm, _⟩ | ⟨hu, _⟩
      · rw [hp] at hu
        cases hu
        exact absurd hm (hn pid)
      · rw [hp] at hu
        cases hu

/-- A packet cannot be shown to the clock exactly if its PCR, one of the service, is out of range. -/
theorem tick_error {o : Opt} {s : St} {p : Packet} {ops : List Clock.Op} {rs : List Table}
    (ht : Told o ops rs s) (hv : isValidPcr s.clock.lastPcr = true) :
    (∃ f, tick s p = .error f) ↔
      ∃ x, p.pcr = some x ∧ p.pid = pcrPid o.sid rs ∧ p.pid ≠ 0x1FFF ∧ ¬ (0 ≤ x ∧ x < 2 ^ 33 * 300) := by
  have hpid := ht.pid
  unfold tick
  by_cases hc : p.pid = pcrPid o.sid rs ∧ p.pid ≠ 0x1FFF
  · rw [if_pos (by
      simp only [Clock.hasPid, ClockBaseline.hasPid, pidNull, hpid, ← hc.1]
      simpa using hc.2)]
    cases hx : p.pcr with
    | none => exact iff_of_false (by rintro ⟨_, h⟩; cases h) (by rintro ⟨_, h, _⟩; cases h)
    | some x =>
      have hval : isValidPcr x = true ↔ 0 ≤ x ∧ x < 2 ^ 33 * 300 := by
        rw [isValidPcr_iff, Clock.two_pow]
      by_cases hi : isValidPcr x = true
      · obtain ⟨c, h1, _⟩ := Clock.updatePcr_total hi hv
        refine iff_of_false ?_ ?_
        · rintro ⟨f, hf⟩
          simp only [h1, ok_bind] at hf
          cases hf
        · rintro ⟨_, h, _, _, hn⟩
          cases h
          exact hn (hval.1 hi)
      · refine iff_of_true ⟨.assertFail, ?_⟩ ⟨x, rfl, hc.1, hc.2, fun h => hi (hval.2 h)⟩
        simp only [Bool.not_eq_true] at hi
        simp only [Clock.updatePcr, hi]
        rfl
  · rw [if_neg (by
      simp only [Clock.hasPid, ClockBaseline.hasPid, pidNull, hpid, Bool.and_eq_true, bne_iff_ne, beq_iff_eq]
      rintro ⟨h1, h2⟩
      exact hc ⟨h2.symm, by rw [← h2]; exact h1⟩)]
    exact iff_of_false (by rintro ⟨_, h⟩; cases h) (by rintro ⟨_, _, h1, h2, _⟩; exact hc ⟨h1, h2⟩)

theorem tick_track {o : Opt} {s s' : St} {p : Packet} {rs : List Table} (hT : Track o s rs)
    (h : tick s p = .ok s') : Track o s' rs := by
  simp only [tick] at h
  repeat' split at h
  · cases h; exact hT
  · next x _ =>
    obtain ⟨c, h1, h⟩ := bind_eq_ok h
    cases h
    exact ⟨hT.pmt, hT.demux, Clock.step_valid (op := .pcr x) hT.valid h1⟩
  · cases h; exact hT

theorem feed_track {o : Opt} {l : Int} {pid : Nat} (ts : List Table) {s : St} {rs : List Table}
    (hT : Track o s rs) : ∃ log, Handed (Looked o.sid) pid rs ts log ∧
      ((∃ s', feedDemux St.demux (handleTable o l) pid ts s = .ok (s', log) ∧ Track o s' (rs ++ log) ∧
          ¬ Spoilt (fun _ t => Missing o.sid t) rs log) ∨
       ((∃ f, feedDemux St.demux (handleTable o l) pid ts s = .error f) ∧
          Spoilt (fun _ t => Missing o.sid t) rs log)) :=
  feedDemux_exact (Track o) (fun _ _ h => h.demux pid) (fun _ _ _ _ h _ _ => track_table h)
    (fun _ _ _ h _ _ => handle_error h.valid) ts s rs hT

theorem spoilt_mem {P : Table → Prop} {rs log : List Table} :
    Spoilt (fun _ t => P t) rs log ↔ ∃ t ∈ log, P t := by
  constructor
  · rintro ⟨a, t, b, rfl, h⟩; exact ⟨t, by simp, h⟩
  · rintro ⟨t, ht, h⟩
    obtain ⟨a, b, e⟩ := List.append_of_mem ht
    exact ⟨a, t, b, e, h⟩

/-- One packet: the tables looked at and the invariant afterwards. -/
theorem step_track {o : Opt} {r0 : RingFileSink.St} {items : List Item} {s s' : St} {i : Input} {it : Item}
    (hr : Reach o { ring := r0 } items s) (hT : Track o s (received items)) (hs : step o s i = .ok (s', it)) :
    Track o s' (received items ++ it.handled) ∧
    Handed (Looked o.sid) i.packet.pid (received items) i.tables it.handled := by
  have inv := inv_reach hr
  unfold step at hs
  obtain ⟨s1, h1, hs⟩ := bind_eq_ok hs
  obtain ⟨⟨sf, log⟩, h2, hs⟩ := bind_eq_ok hs
  have hT1 := tick_track hT h1
  obtain ⟨log', hl, h⟩ := feed_track (l := i.totLocal) (pid := i.packet.pid) i.tables hT1
  obtain ⟨ht, hf⟩ := feed_spec inv.told h1 h2
  rcases h with ⟨sf', e, hT2, _⟩ | ⟨⟨f, e⟩, _⟩
  · rw [h2] at e
    cases e
    dsimp only at hs
    by_cases hrec : sf.recording = true
    · rw [if_pos hrec] at hs
      obtain ⟨⟨ok, s3, out⟩, h3, hs⟩ := bind_eq_ok hs
      cases hs
      refine ⟨?_, hl⟩
      obtain ⟨_, _, ⟨e0, ev0, p3, p4⟩, _⟩ := inv.record (by rw [← hf.recording]; exact hrec)
      obtain ⟨now, s2, evs, ring, ops, q1, q2, q3, q4, q5, q6⟩ :=
        record_spec (by rw [hf.eit]; exact p3) p4 h3
      subst q5
      have : s2.demux = sf.demux ∧ s2.pmtPid = sf.pmtPid ∧ s2.clock = sf.clock := by
        cases q2 <;> exact ⟨rfl, rfl, rfl⟩
      exact ⟨by simpa [this.2.1] using hT2.pmt, by simpa [this.1] using hT2.demux,
        by simpa [this.2.2] using hT2.valid⟩
    · rw [if_neg hrec] at hs
      obtain ⟨⟨s3, out⟩, h3, hs⟩ := bind_eq_ok hs
      cases hs
      refine ⟨?_, hl⟩
      rcases prepare_spec h3 with ⟨_, q2, _⟩ | ⟨_, e, ev, now, _, _, _, _, _, q7⟩
      · rw [q2]; exact hT2
      · rcases q7 with ⟨_, q7, _⟩ | ⟨_, q7, _⟩
        all_goals
          rw [q7]; exact ⟨hT2.pmt, hT2.demux, hT2.valid⟩
  · rw [h2] at e
    cases e

theorem reach_track {o : Opt} {r0 : RingFileSink.St} {items : List Item} {s : St}
    (h : Reach o { ring := r0 } items s) :
    Track o s (received items) ∧ ∀ a it b, items = a ++ it :: b →
      Handed (Looked o.sid) it.input.packet.pid (received a) it.input.tables it.handled := by
  induction h with
  | nil => exact ⟨track_init o r0, fun a it b h => by simp at h⟩
  | @snoc items s i s' it hr hm hs ih =>
    obtain ⟨h1, h2⟩ := ih
    have hin : it.input = i := step_input hs
    obtain ⟨k1, k2⟩ := step_track hr h1 hs
    refine ⟨by rw [received_append]; simpa [received] using k1, ?_⟩
    intro a jt b e
    rcases split_append e with ⟨b', e1, _⟩ | ⟨pre2, rfl, e2⟩
    · exact h2 a jt b' e1
    · match pre2, e2 with
      | [], e2 =>
        simp only [List.nil_append, List.cons.injEq] at e2
        obtain ⟨rfl, _⟩ := e2
        rw [List.append_nil, hin]; exact k2
      | [x], e2 => simp at e2
      | x :: y :: l, e2 => simp at e2

/-- One packet goes wrong exactly if it is `Unrecordable`. -/
theorem step_error {o : Opt} {results : List Int} {r0 : RingFileSink.St}
    (hopt : Permitted o.chunkSize o.numChunks o.startPos)
    (ho : RingFileSink.openAt o.chunkSize o.numChunks o.startPos results = .ok (true, r0))
    {items : List Item} {s : St} (hr : Reach o { ring := r0 } items s)
    (hm : ∀ x ∈ items, x.more = true) (hg : ∀ x ∈ items, x.input.bytes.length = 188)
    {i : Input} (hi : i.bytes.length = 188) :
    (∃ f, step o s i = .error f) ↔ Unrecordable o.sid items i := by
  have inv := inv_reach hr
  have hT := (reach_track hr).1
  have hte := tick_error (p := i.packet) inv.told hT.valid
  unfold Unrecordable
  rw [← hte]
  cases h1 : tick s i.packet with
  | error f =>
    refine iff_of_true ⟨f, ?_⟩ (.inl ⟨f, rfl⟩)
    simp only [step, h1]
    rfl
  | ok s1 =>
    have hT1 := tick_track hT h1
    obtain ⟨log, hl, h⟩ := feed_track (l := i.totLocal) (pid := i.packet.pid) i.tables hT1
    rw [spoilt_mem] at h
    rcases h with ⟨sf, h2, hT2, hns⟩ | ⟨⟨f, h2⟩, hsp⟩
    · obtain ⟨r, hr⟩ := step_ok hopt ho hr hm hg hi h1 h2 hT2.valid
      refine iff_of_false ?_ ?_
      · rintro ⟨f, hf⟩; rw [hr] at hf; cases hf
      · rintro (⟨f, hf⟩ | ⟨log', hl', h'⟩)
        · cases hf
        · rw [hl.unique hl'] at hns
          exact hns h'
    · refine iff_of_true ⟨f, ?_⟩ (.inr ⟨log, hl, hsp⟩)
      simp only [step, h1, ok_bind, h2]
      rfl

/-- With permitted options the recorder can be made and started. -/
theorem record_start {o : Opt} (results : List Int) (hopt : Permitted o.chunkSize o.numChunks o.startPos) :
    ∃ ok r r0 tr, RingFileSink.openAt o.chunkSize o.numChunks o.startPos results = .ok (ok, r0) ∧
      init o results = .ok { st := { ring := r } } ∧
      (sink o).start { st := { ring := r } } = .ok (ok, { st := { ring := r0 }, items := [], trace := tr }) := by
  obtain ⟨ok, r0, ho⟩ : ∃ ok r0,
      RingFileSink.openAt o.chunkSize o.numChunks o.startPos results = .ok (ok, r0) := by
    obtain ⟨g⟩ := RingFileSink.geom_of_accept ((RingFileSink.accept_iff _ _ _).2 hopt)
    rcases RingFileSink.open_spec ((RingFileSink.accept_iff _ _ _).2 hopt) results g with
      ⟨s1, e1, _⟩ | ⟨s1, e1, _⟩
    · exact ⟨_, _, e1⟩
    · exact ⟨_, _, e1⟩
  have ho' := ho
  unfold RingFileSink.openAt at ho'
  obtain ⟨r, h1, h2⟩ := bind_eq_ok ho'
  have hinit : init o results = .ok { st := { ring := r } } := by unfold init; rw [h1]; rfl
  obtain ⟨tr, hstart⟩ : ∃ tr, (sink o).start { st := { ring := r } } =
      .ok (ok, { st := { ring := r0 }, items := [], trace := tr }) := by
    show ∃ tr, start o { st := { ring := r } } = _
    unfold start
    dsimp only
    have h3 : (if o.startPos ≠ 0 then RingFileSink.setPosition r o.startPos else .ok (true, r)) =
        .ok (ok, r0) := h2
    by_cases hsp : o.startPos ≠ 0
    · rw [if_pos hsp] at h3 ⊢
      rw [h3]
      cases ok <;> exact ⟨_, rfl⟩
    · rw [if_neg hsp] at h3 ⊢
      cases h3
      exact ⟨_, rfl⟩
  exact ⟨ok, r, r0, tr, ho, hinit, hstart⟩

/-- The packets accepted are in the history. -/
theorem accepts_reach {o : Opt} {r0 : RingFileSink.St} {tr : List Tr} {pre : List Input} {s' : Hist}
    (hacc : Accepts (sink o) { st := { ring := r0 }, items := [], trace := tr } pre s') :
    Reach o { ring := r0 } s'.items s'.st ∧ s'.items.map (·.input) = pre ∧ ∀ x ∈ s'.items, x.more = true := by
  have loop : ∀ (pre : List Input) (a b : Hist), Accepts (sink o) a pre b →
      Reach o { ring := r0 } a.items a.st → (∀ x ∈ a.items, x.more = true) →
      Reach o { ring := r0 } b.items b.st ∧ b.items.map (·.input) = a.items.map (·.input) ++ pre ∧
        ∀ x ∈ b.items, x.more = true := by
    intro pre a b hacc
    induction hacc with
    | nil => exact fun h1 h2 => ⟨h1, by simp, h2⟩
    | @cons a a1 b i pre e _ ih =>
      intro k1 k2
      simp only [sink] at e
      obtain ⟨⟨s, it⟩, e1, e2⟩ := bind_eq_ok e
      simp only [Except.ok.injEq, Prod.mk.injEq] at e2
      obtain ⟨e2, rfl⟩ := e2
      obtain ⟨j1, j2, j3⟩ := ih (.snoc k1 k2 e1) (by
        intro x hx
        rcases List.mem_append.1 hx with hx | hx
        · exact k2 x hx
        · rw [List.mem_singleton] at hx; rw [hx]; exact e2)
      exact ⟨j1, by rw [j2]; simp [step_input e1], j3⟩
  simpa using loop pre _ _ hacc .nil (by simp)

/-- After packets it accepted, the recorder goes wrong exactly at `Unrecordable` packets. -/
theorem record_refuses {o : Opt} {results : List Int} {r0 : RingFileSink.St} {tr : List Tr} {pre : List Input}
    {s' : Hist} {i : Input} (hopt : Permitted o.chunkSize o.numChunks o.startPos)
    (ho : RingFileSink.openAt o.chunkSize o.numChunks o.startPos results = .ok (true, r0))
    (hacc : Accepts (sink o) { st := { ring := r0 }, items := [], trace := tr } pre s')
    (hb : ∀ j ∈ pre, j.bytes.length = 188) (hi : i.bytes.length = 188) :
    (∃ f, (sink o).handle s' i = .error f) ↔ Unrecordable o.sid s'.items i := by
  obtain ⟨k1, k2, k3⟩ := accepts_reach hacc
  rw [← step_error hopt ho k1 k3 (by
    intro x hx
    have : x.input ∈ pre := by rw [← k2]; exact List.mem_map.2 ⟨x, hx, rfl⟩
    exact hb _ this) hi]
  simp only [sink]
  cases step o s'.st i with
  | error f => exact iff_of_true ⟨f, rfl⟩ ⟨f, rfl⟩
  | ok r => exact iff_of_false (by rintro ⟨_, h⟩; cases h) (by rintro ⟨_, h⟩; cases h)

/-- The recordings that go on are those of the packets accepted. -/
theorem record_accepts {o : Opt} {results : List Int} {r r0 : RingFileSink.St} {tr : List Tr}
    (ho : RingFileSink.openAt o.chunkSize o.numChunks o.startPos results = .ok (true, r0))
    (hinit : init o results = .ok { st := { ring := r } })
    (hstart : (sink o).start { st := { ring := r } } = .ok (true, { st := { ring := r0 }, items := [], trace := tr }))
    (pre : List Input) (P : List Item → Prop) :
    (∃ code h, Recorded o results pre code h ∧ GoesOn h ∧ P h.items) ↔
      ∃ s', Accepts (sink o) { st := { ring := r0 }, items := [], trace := tr } pre s' ∧ P s'.items := by
  constructor
  · rintro ⟨code, h, ⟨τ, src, t, fuel, h0, hy, hf, hi, hrun⟩, ⟨hgo, hmore⟩, hP⟩
    rw [hinit] at hi
    cases hi
    obtain ⟨ok', r1, ho1, ⟨_, _, hn, _⟩ | ⟨hok, hreach, _, _, hpre, hin⟩⟩ := session hy hf hinit hrun
    · rw [hn] at hgo
      simp at hgo
    · subst hok
      rw [ho] at ho1
      cases ho1
      have hinp : h.items.map (·.input) = pre := by
        rcases hin with ⟨e, _⟩ | ⟨x, hx, hm⟩
        · exact e
        · rw [hmore x (List.mem_of_getLast? hx)] at hm; cases hm
      have loop : ∀ (items : List Item) (s : St), Reach o { ring := r0 } items s → (∀ x ∈ items, x.more = true) →
          ∃ tr', Accepts (sink o) { st := { ring := r0 }, items := [], trace := tr } (items.map (·.input))
            { st := s, items := items, trace := tr' } := by
        intro items s hr
        induction hr with
        | nil => exact fun _ => ⟨tr, .nil⟩
        | @snoc items s i s' it h1 h2 h3 ih =>
          intro hm
          obtain ⟨tr', hacc⟩ := ih h2
          refine ⟨tr' ++ it.out, ?_⟩
          rw [List.map_append]
          simp only [List.map_cons, List.map_nil, step_input h3]
          refine accepts_snoc hacc ?_
          have hm1 : it.more = true := hm it (by simp)
          simp only [sink, h3, ok_bind, hm1]
      obtain ⟨tr', hacc⟩ := loop h.items h.st hreach hmore
      rw [hinp] at hacc
      exact ⟨_, hacc, hP⟩
  · rintro ⟨s', hacc, hP⟩
    obtain ⟨k1, k2, k3⟩ := accepts_reach hacc
    have hfeed : feedPackets listSource (sink o) (pre.length + 1) pre { st := { ring := r } } =
        .ok ((sink o).exitCode s', { s' with trace := s'.trace ++ [.msg (.stop s'.st.ring.broken)] }) := by
      unfold feedPackets
      rw [hstart]
      simp only [ok_bind, if_true]
      rw [feedLoop_accepts hacc _ (by omega)]
      rfl
    refine ⟨_, _, ⟨_, listSource, pre, _, _, listSource_yields pre, Nat.lt_succ_self _, hinit, hfeed⟩, ⟨?_, k3⟩, hP⟩
    obtain ⟨ok, r1, h3, ⟨h4, _⟩ | ⟨_, _, h, _⟩⟩ := session (listSource_yields pre) (Nat.lt_succ_self _) hinit hfeed
    · rw [ho] at h3; cases h3; cases h4
    · rw [h]; simp

/-- A recorder that is not started does not go on. -/
theorem record_idle {o : Opt} {results : List Int} {r r0 : RingFileSink.St}
    (ho : RingFileSink.openAt o.chunkSize o.numChunks o.startPos results = .ok (false, r0))
    (hinit : init o results = .ok { st := { ring := r } }) {is : List Input} {code : Nat} {h : Hist}
    (hr : Recorded o results is code h) (hg : GoesOn h) : False := by
  obtain ⟨τ, src, t, fuel, h0, hy, hf, hi, hrun⟩ := hr
  rw [hinit] at hi
  cases hi
  obtain ⟨ok', r1, ho1, ⟨_, _, hn, _⟩ | ⟨hok, _⟩⟩ := session hy hf hinit hrun
  · have := hg.1
    rw [hn] at this
    simp at this
  · subst hok
    rw [ho] at ho1
    cases ho1

end Mirakc.ServiceRecorder
