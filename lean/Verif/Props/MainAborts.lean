import Verif.Props.MainAbort
import Verif.Props.PesAborts
import Verif.Props.PcrSyncAborts
import Verif.Props.EitAborts
import Verif.Proof.ChainAborts
/-
Properties of the whole program: exactly when it terminates abnormally.
-/
namespace Mirakc.Props
open Mirakc.Pipeline (via input Fails fails_via aborts_fails)
open Mirakc.Main Mirakc.Spec Mirakc.Spec.Main Mirakc.Spec.Pipeline
open Mirakc.Options (toUint16)

private theorem feed_fault {σ : Type} {w : World} {ps : List (List UInt8)} (hr : Reads w ps)
    {snk : Sink (List UInt8) σ} {s0 : σ} {k : Nat × σ → Ended} :
    (∃ f, (feed w snk s0 >>= fun r => .ok (k r)) = (.error (.fault f) : Except Stop Ended)) ↔ Aborts snk s0 ps := by
  rw [feed_eq hr, aborts_list]
  cases feedPackets listSource snk (ps.length + 1) ps s0 with
  | error f => exact iff_of_true ⟨f, rfl⟩ ⟨f, rfl⟩
  | ok r => exact iff_of_false (by rintro ⟨_, h⟩; cases h) (by rintro ⟨_, h⟩; cases h)

private theorem ran_via {P Q σ : Type} {f : Nat → Q → P} {snk : Sink P σ} {s0 : σ} {qs : List Q} :
    Aborts (via f snk) (0, s0) qs ↔ Aborts snk s0 (seen f 0 qs) := by
  rw [aborts_list, aborts_list, Mirakc.Pipeline.seen_length]
  have hy := listSource_yields (seen f 0 qs)
  have hl : (seen f 0 qs).length < qs.length + 1 := by rw [Mirakc.Pipeline.seen_length]; omega
  cases hA : feedPackets listSource snk (qs.length + 1) (seen f 0 qs) s0 with
  | ok r =>
    obtain ⟨code, s⟩ := r
    refine iff_of_false ?_ (by rintro ⟨_, h⟩; cases h)
    rintro ⟨e, he⟩
    rcases Mirakc.Pipeline.feedPackets_cases hy hl hA with ⟨h1, h2⟩ | ⟨s1, s2, cs, h1, h2, h3, h4⟩
    · simp only [feedPackets, via, h1, ok_bind, Bool.false_eq_true, if_false] at he
      cases he
    · obtain ⟨ys, _, hc⟩ := Mirakc.Pipeline.consumes_via h2
      have := Mirakc.Pipeline.feedPackets_of (listSource_yields qs) (Nat.lt_succ_self _)
        (snk := via f snk) (s := (0, s0)) (by simp only [via, h1, ok_bind]) hc
        (s' := (0 + ys.length, s)) (by simp only [via, h3, ok_bind])
      rw [this] at he
      cases he
  | error e =>
    refine iff_of_true ?_ ⟨e, rfl⟩
    cases hB : feedPackets listSource (via f snk) (qs.length + 1) qs (0, s0) with
    | error e => exact ⟨e, rfl⟩
    | ok r =>
      obtain ⟨code, n, s⟩ := r
      rcases Mirakc.Pipeline.feedPackets_cases (listSource_yields qs) (Nat.lt_succ_self _) hB with
        ⟨h1, h2⟩ | ⟨⟨m1, s1⟩, ⟨m2, s2⟩, cs, h1, h2, h3, h4⟩
      · simp only [via] at h1
        obtain ⟨⟨ok, d⟩, g, h1⟩ := bind_eq_ok h1
        cases h1
        simp only [feedPackets, g, ok_bind, Bool.false_eq_true, if_false] at hA
        cases hA
      · simp only [via] at h1 h3
        obtain ⟨⟨ok, d⟩, g, h1⟩ := bind_eq_ok h1
        cases h1
        obtain ⟨d, g3, h3⟩ := bind_eq_ok h3
        cases h3
        have := Mirakc.Pipeline.feedPackets_of hy hl g (Mirakc.Pipeline.via_consumes h2).1 g3
        rw [this] at hA
        cases hA

private theorem never {P σ : Type} {w : World} {ps : List (List UInt8)} (hr : Reads w ps) {f : Nat → List UInt8 → P}
    {snk : Sink P σ} {s0 : σ} {k : Nat × Nat × σ → Ended} {r : Nat × σ}
    (h : feedPackets listSource snk (ps.length + 1) (seen f 0 ps) s0 = .ok r) :
    (∃ e, (feed w (via f snk) (0, s0) >>= fun r => .ok (k r)) = (.error (.fault e) : Except Stop Ended)) ↔ False := by
  rw [feed_fault hr, ran_via, aborts_list, Mirakc.Pipeline.seen_length]
  exact iff_of_false (by rintro ⟨e, he⟩; rw [h] at he; cases he) id

private theorem bind_fault {α : Type} {x : Except Stop α} (hx : ∀ s, x = .error s → ∃ r, s = .refused r)
    {k : α → Except Stop Ended} :
    (∃ f, (x >>= k) = .error (.fault f)) ↔ ∃ a, x = .ok a ∧ ∃ f, k a = .error (.fault f) := by
  cases x with
  | error s =>
    obtain ⟨r, rfl⟩ := hx s rfl
    exact iff_of_false (by rintro ⟨_, h⟩; cases h) (by rintro ⟨_, h, _⟩; cases h)
  | ok a => exact ⟨fun h => ⟨a, rfl, h⟩, by rintro ⟨_, h, h'⟩; cases h; exact h'⟩

private theorem load_fault {α : Type} {x : Except Options.Refusal α} {k : α → Except Stop Ended} :
    (∃ f, (x.mapError .refused >>= k) = .error (.fault f)) ↔ ∃ a, x = .ok a ∧ ∃ f, k a = .error (.fault f) := by
  rw [bind_fault (by
    intro s h
    cases x with
    | error r => cases h; exact ⟨r, rfl⟩
    | ok a => cases h)]
  simp only [mapError_ok_iff]

private theorem sids_refuse (x : Option (List (List Char))) : ∀ s, sidSet x = .error s → ∃ r, s = .refused r := by
  intro s h
  unfold sidSet at h
  cases hx : Options.loadSidSet x with
  | error r => rw [hx] at h; cases h; exact ⟨r, rfl⟩
  | ok a => rw [hx] at h; cases h

private theorem bind_refuse {α β : Type} {x : Except Stop α} {k : α → Except Stop β}
    (hx : ∀ s, x = .error s → ∃ r, s = .refused r) (hk : ∀ a s, k a = .error s → ∃ r, s = .refused r) :
    ∀ s, (x >>= k) = .error s → ∃ r, s = .refused r := by
  intro s h
  cases x with
  | error r => cases h; exact hx s rfl
  | ok a => exact hk a s h

/-- filter-service. -/
private theorem service {w : World} (hc : Faithful w.codec) {ps : List (List UInt8)} (hr : Reads w ps) (sid : Nat) :
    (∃ f, Main.filterService w { sid := sid } = .error (.fault f)) ↔
      Chain w sid ps (fun xs => Taken w (xs.map (Pipeline.outBytes w.codec))) (fun _ _ => False) := by
  have h188 := Mirakc.Pipeline.packets_188 hr.2
  unfold Main.filterService
  rw [feed_fault hr]
  unfold Pipeline.filterService
  rw [ran_via, aborts_fails _ (s1 := (ServiceFilter.init { sid := sid }, 0, StdoutSink.init w.write)) rfl
    (fun _ _ _ => ⟨_, rfl⟩)]
  have := chain_fails (H := Unit) (w := w) (sid := sid) (ps := ps)
    (snk := via (fun _ => Pipeline.outBytes w.codec) StdoutSink.sink) (d1 := (0, StdoutSink.init w.write))
    (Fine := fun _ xs => Taken w (xs.map (Pipeline.outBytes w.codec))) (Bad := fun _ _ _ => False) ?_ ?_
  · rw [show (arrival w) = input w.codec w.tables from rfl] at this
    rw [this]
    exact ⟨fun ⟨_, h⟩ => h, fun h => ⟨(), h⟩⟩
  · intro pre items _ _
    constructor
    · rintro ⟨_, d, h⟩
      exact ⟨(_, d), Mirakc.Pipeline.via_accepts.2 ⟨by rw [Mirakc.Pipeline.seen_const]; exact h, rfl⟩⟩
    · rintro ⟨⟨n, d⟩, h⟩
      have := (Mirakc.Pipeline.via_accepts.1 h).1
      rw [Mirakc.Pipeline.seen_const] at this
      exact ⟨(), d, this⟩
  · rintro pre items ⟨rest, rfl⟩ ⟨s, h, _⟩ xs x ⟨n, d⟩ e ha
    refine iff_of_false (by rintro ⟨_, _, h⟩; exact h) ?_
    rintro ⟨f, hf⟩
    have hl := Mirakc.Pipeline.sf_188 hc (fun p hp => h188 p (List.mem_append_left _ hp)) h
    rw [e] at hl
    have rob := (Mirakc.Pipeline.stdout_robust).via (Pipeline.outBytes w.codec)
    have hI := rob.accepts ha (by simp [StdoutSink.init]) (fun p hp => hl p (by simp [hp]))
    obtain ⟨ok, s2, h1, _⟩ := rob.handle (n, d) x hI (hl x (by simp))
    rw [h1] at hf
    cases hf

/-- filter-program. -/
private theorem program {w : World} (hc : Faithful w.codec) {ps : List (List UInt8)} (hr : Reads w ps) (o : ProgramFilter.Opt) :
    (∃ f, Main.filterProgram w o = .error (.fault f)) ↔
      ∃ items, Chain w o.sid ps (fun xs => Filtered w o xs items)
        (fun xs x => Spec.ProgramFilter.FailsAtOnce o items (Pipeline.between w.codec w.tables2 xs.length x) ∨
          ∃ pats, Spec.ProgramFilter.FailsAtStart o items (Pipeline.between w.codec w.tables2 xs.length x) pats ∧
            Taken w ((Spec.ProgramFilter.sent items ++ pats).map (Pipeline.programBytes w.codec))) := by
  have h188 := Mirakc.Pipeline.packets_188 hr.2
  unfold Main.filterProgram
  rw [feed_fault hr]
  unfold Pipeline.filterProgram
  rw [ran_via, aborts_fails _ (s1 := (ServiceFilter.init { sid := o.sid }, 0, ProgramFilter.init o, 0, StdoutSink.init w.write)) rfl
    (fun _ _ _ => ⟨_, rfl⟩)]
  rw [show input w.codec w.tables = arrival w from rfl]
  refine chain_fails (H := List ProgramFilter.Item) (Fine := fun items xs => Filtered w o xs items)
    (Bad := fun items xs x => Spec.ProgramFilter.FailsAtOnce o items (Pipeline.between w.codec w.tables2 xs.length x) ∨
      ∃ pats, Spec.ProgramFilter.FailsAtStart o items (Pipeline.between w.codec w.tables2 xs.length x) pats ∧
        Taken w ((Spec.ProgramFilter.sent items ++ pats).map (Pipeline.programBytes w.codec))) ?_ ?_
  · intro pre items _ _
    constructor
    · rintro ⟨items2, ⟨s, h1⟩, h2, d, h3⟩
      exact ⟨(_, s, _, d), Mirakc.Pipeline.via_accepts.2 ⟨Mirakc.Pipeline.pf_accepts.2 ⟨items2, h1, h2,
        Mirakc.Pipeline.via_accepts.2 ⟨by rw [Mirakc.Pipeline.seen_const]; exact h3, rfl⟩⟩, rfl⟩⟩
    · rintro ⟨⟨n, s, m, d⟩, h⟩
      obtain ⟨items2, h1, h2, h3⟩ := Mirakc.Pipeline.pf_accepts.1 (Mirakc.Pipeline.via_accepts.1 h).1
      have h3 := (Mirakc.Pipeline.via_accepts.1 h3).1
      rw [Mirakc.Pipeline.seen_const] at h3
      exact ⟨items2, ⟨s, h1⟩, h2, d, h3⟩
  · rintro pre items ⟨rest, rfl⟩ ⟨s0, hrun, _⟩ xs x ⟨n, s, m, d⟩ e ha0
    obtain ⟨ha, rfl⟩ := Mirakc.Pipeline.via_accepts.1 ha0
    rw [Mirakc.Pipeline.via_error]
    obtain ⟨items2, h1, h2, h3⟩ := Mirakc.Pipeline.pf_accepts.1 ha
    -- all packets have 188 bytes, and those of PID 0 no PCR
    have hl := Mirakc.Pipeline.sf_188 hc (fun p hp => h188 p (List.mem_append_left _ hp)) hrun
    have hsame := Mirakc.Pipeline.sf_same hc hrun
    have hno := Mirakc.Pipeline.sf_noPcr hc hrun (tabs' := w.tables2) 0
    rw [e] at hl hsame hno
    rw [Mirakc.Pipeline.seen_append] at hno
    simp only [seen] at hno
    have hpf := pf_error (extra := w.extra) (o := o) (i := Pipeline.between w.codec w.tables2 (0 + xs.length) x) hno h1 h2
    have hF : ∀ items', Filtered w o xs items' → items' = items2 := by
      rintro items' ⟨⟨s', h'⟩, _⟩
      have h' := h1.symm.trans h'
      cases h'
      rfl
    have hF2 : Filtered w o xs items2 := by
      have h3 := (Mirakc.Pipeline.via_accepts.1 h3).1
      rw [Mirakc.Pipeline.seen_const] at h3
      exact ⟨⟨s, h1⟩, h2, d, h3⟩
    have rob := (Mirakc.Pipeline.stdout_robust).via (Pipeline.programBytes w.codec)
    have hall : ∀ i ∈ seen (Pipeline.between w.codec w.tables2) 0 xs ++
        [Pipeline.between w.codec w.tables2 (0 + xs.length) x], (w.codec.bytes i.packet).length = 188 := by
      intro i hi
      have : i ∈ seen (Pipeline.between w.codec w.tables2) 0 (xs ++ [x]) := by
        rw [Mirakc.Pipeline.seen_append]; exact hi
      obtain ⟨k, y, hy, rfl⟩ := Mirakc.Pipeline.mem_seen this
      show (w.codec.bytes (Pipeline.outPacket w.codec y)).length = 188
      rw [hsame y hy]
      exact hl y hy
    have hI : (fun s : Nat × StdoutSink.St => s.2.buf.length ≤ 16384) (m, d) := by
      refine rob.accepts h3 (by simp [StdoutSink.init]) (fun q hq => ?_)
      cases q with
      | orig p =>
        exact Mirakc.Pipeline.pf_sent (Q := fun q => (w.codec.bytes q).length = 188)
          (by intro q hq; cases hq) (fun i hi => hall i (List.mem_append_left _ hi)) h1 p hq
      | pmt pid t i n => exact hc.pmt pid t i n
    have hstep : (∃ f, (ProgramFilter.sink w.extra o (via (fun _ => Pipeline.programBytes w.codec) StdoutSink.sink)).handle (s, m, d)
        (Pipeline.between w.codec w.tables2 (0 + xs.length) x) = .error f) ↔
        (∃ f, ProgramFilter.step w.extra o s (Pipeline.between w.codec w.tables2 (0 + xs.length) x) = .error f) ∧
        ∃ d', ProgramFilter.sendAll (via (fun _ => Pipeline.programBytes w.codec) StdoutSink.sink)
          (ProgramFilter.announced o s (Pipeline.between w.codec w.tables2 (0 + xs.length) x)) (m, d) = .ok (true, d') := by
      simp only [ProgramFilter.sink]
      cases hs : ProgramFilter.step w.extra o s (Pipeline.between w.codec w.tables2 (0 + xs.length) x) with
      | error f =>
        obtain ⟨ok, d', h4, _⟩ := Mirakc.Pipeline.sendAll_robust rob
          (ProgramFilter.announced o s (Pipeline.between w.codec w.tables2 (0 + xs.length) x)) (m, d) hI (fun q hq => by
            obtain ⟨j, hj, rfl⟩ := ProgramFilter.announced_received h1 h2 _ hq
            exact hall j hj)
        simp only [ok_bind, h4]
        cases ok with
        | true => exact iff_of_true ⟨f, rfl⟩ ⟨⟨f, rfl⟩, d', rfl⟩
        | false => exact iff_of_false (by rintro ⟨_, h⟩; cases h) (by rintro ⟨_, _, h⟩; cases h)
      | ok r =>
        refine iff_of_false ?_ (by rintro ⟨⟨_, h⟩, _⟩; cases h)
        obtain ⟨s1, log, outs, more⟩ := r
        obtain ⟨ok, d', h4, _⟩ := Mirakc.Pipeline.sendAll_robust rob outs (m, d) hI (fun q hq => by
          have hr2 := Mirakc.Pipeline.pf_run_snoc (i := Pipeline.between w.codec w.tables2 (0 + xs.length) x) h1 h2
          rw [hs] at hr2
          cases q with
          | orig p =>
            exact Mirakc.Pipeline.pf_sent (Q := fun q => (w.codec.bytes q).length = 188)
              (by intro q hq; cases hq) hall hr2 p (by
                simp only [Spec.ProgramFilter.sent, List.flatMap_append, List.mem_append]
                exact .inr (by simpa using hq))
          | pmt pid t i n => exact hc.pmt pid t i n)
        simp only [ok_bind, h4]
        rintro ⟨_, h⟩
        cases h
    have htaken : ∀ l, (∃ d', ProgramFilter.sendAll (via (fun _ => Pipeline.programBytes w.codec) StdoutSink.sink) l (m, d) =
        .ok (true, d')) ↔ Taken w ((Spec.ProgramFilter.sent items2 ++ l).map (Pipeline.programBytes w.codec)) := by
      intro l
      constructor
      · rintro ⟨⟨n', d'⟩, hs⟩
        have := Mirakc.Pipeline.accepts_append h3 (Mirakc.Pipeline.accepts_of_sendAll hs)
        have := (Mirakc.Pipeline.via_accepts.1 this).1
        rw [Mirakc.Pipeline.seen_const] at this
        exact ⟨d', this⟩
      · rintro ⟨d', ht⟩
        have := Mirakc.Pipeline.via_accepts (f := fun _ => Pipeline.programBytes w.codec) (n := 0)
          (m := 0 + (Spec.ProgramFilter.sent items2 ++ l).length)
          |>.2 ⟨by rw [Mirakc.Pipeline.seen_const]; exact ht, rfl⟩
        obtain ⟨d1, a1, a2⟩ := Mirakc.Pipeline.accepts_split this
        rw [Mirakc.Pipeline.accepts_unique a1 h3] at a2
        exact ⟨_, Mirakc.Pipeline.sendAll_accepts a2⟩
    have hann := pf_announced (extra := w.extra) (o := o) (i := Pipeline.between w.codec w.tables2 (0 + xs.length) x) hno h1 h2
    rw [hstep, hpf, htaken]
    rw [Nat.zero_add] at hann ⊢
    constructor
    · rintro ⟨items', h, hu⟩
      rw [hF items' h] at hu
      by_cases ho : Spec.ProgramFilter.FailsAtOnce o items2 (Pipeline.between w.codec w.tables2 xs.length x)
      · exact ⟨.inl ho, by rw [hann.1 ho, List.append_nil]; exact hF2.2.2⟩
      · rcases hu with hu | ⟨pats, h1, h2⟩
        · exact absurd hu ho
        · exact ⟨.inr ⟨pats, h1⟩, by rw [hann.2 ho pats h1]; exact h2⟩
    · rintro ⟨hu, ht⟩
      refine ⟨items2, hF2, ?_⟩
      by_cases ho : Spec.ProgramFilter.FailsAtOnce o items2 (Pipeline.between w.codec w.tables2 xs.length x)
      · exact .inl ho
      · rcases hu with hu | ⟨pats, hu⟩
        · exact .inl hu
        · exact .inr ⟨pats, hu, by rw [hann.2 ho pats hu] at ht; exact ht⟩

/-- record-service. -/
private theorem record {w : World} (hc : Faithful w.codec) {ps : List (List UInt8)} (hr : Reads w ps) (o : ServiceRecorder.Opt)
    (hopt : Permitted o.chunkSize o.numChunks o.startPos) :
    (∃ f, Main.recordService w o = .error (.fault f)) ↔
      ∃ h, Chain w o.sid ps (fun xs => Recording w o xs h)
        (fun xs x => Spec.ServiceRecorder.Unrecordable o.sid h.items (Pipeline.betweenRec w.codec w.tables2 w.times xs.length x)) := by
  have h188 := Mirakc.Pipeline.packets_188 hr.2
  obtain ⟨ok, r, r0, tr, ho, hinit, hstart⟩ := ServiceRecorder.record_start w.file hopt
  unfold Main.recordService
  rw [hinit]
  show (∃ f, (feed w _ _ >>= fun x => _) = _) ↔ _
  rw [feed_fault hr]
  unfold Pipeline.recordService
  rw [ran_via]
  cases ok with
  | false =>
    refine iff_of_false ?_ ?_
    · rw [aborts_list]
      rintro ⟨f, hf⟩
      simp only [feedPackets, ServiceFilter.sink, via, hstart, ok_bind] at hf
      cases hf
    · rintro ⟨h, pre, b, post, items, _, _, ⟨code, h1, h2⟩, _⟩
      exact ServiceRecorder.record_idle ho hinit h1 h2
  | true =>
    rw [aborts_fails _ (s1 := (ServiceFilter.init { sid := o.sid }, 0, { st := { ring := r0 }, items := [], trace := tr }))
      (by simp only [ServiceFilter.sink, via, hstart, ok_bind]) (fun _ _ _ => ⟨_, rfl⟩)]
    rw [show input w.codec w.tables = arrival w from rfl]
    refine chain_fails (H := ServiceRecorder.Hist) (Fine := fun h xs => Recording w o xs h)
      (Bad := fun h xs x => Spec.ServiceRecorder.Unrecordable o.sid h.items (Pipeline.betweenRec w.codec w.tables2 w.times xs.length x)) ?_ ?_
    · intro pre items _ _
      have := ServiceRecorder.record_accepts ho hinit hstart
        (seen (Pipeline.betweenRec w.codec w.tables2 w.times) 0 (Spec.ServiceFilter.sent items)) (fun _ => True)
      constructor
      · rintro ⟨h, code, h1, h2⟩
        obtain ⟨s', ha, _⟩ := this.1 ⟨code, h, h1, h2, trivial⟩
        exact ⟨(_, s'), Mirakc.Pipeline.via_accepts.2 ⟨ha, rfl⟩⟩
      · rintro ⟨⟨n, s'⟩, ha⟩
        obtain ⟨code, h, h1, h2, _⟩ := this.2 ⟨s', (Mirakc.Pipeline.via_accepts.1 ha).1, trivial⟩
        exact ⟨h, code, h1, h2⟩
    · rintro pre items ⟨rest, rfl⟩ ⟨s0, hrun, _⟩ xs x ⟨n, s'⟩ e ha0
      obtain ⟨ha, rfl⟩ := Mirakc.Pipeline.via_accepts.1 ha0
      rw [Mirakc.Pipeline.via_error]
      have hl := Mirakc.Pipeline.sf_188 hc (fun p hp => h188 p (List.mem_append_left _ hp)) hrun
      rw [e] at hl
      have hb : ∀ j ∈ seen (Pipeline.betweenRec w.codec w.tables2 w.times) 0 xs, j.bytes.length = 188 := by
        intro j hj
        obtain ⟨k, y, hy, rfl⟩ := Mirakc.Pipeline.mem_seen hj
        exact hl y (by simp [hy])
      rw [ServiceRecorder.record_refuses hopt ho ha hb (i := Pipeline.betweenRec w.codec w.tables2 w.times (0 + xs.length) x)
        (hl x (by simp)), Nat.zero_add]
      have := ServiceRecorder.record_accepts ho hinit hstart
        (seen (Pipeline.betweenRec w.codec w.tables2 w.times) 0 xs)
        (fun items => Spec.ServiceRecorder.Unrecordable o.sid items (Pipeline.betweenRec w.codec w.tables2 w.times xs.length x))
      constructor
      · rintro ⟨h, ⟨code, h1, h2⟩, hu⟩
        obtain ⟨s2, ha2, hu⟩ := this.1 ⟨code, h, h1, h2, hu⟩
        rw [Mirakc.Pipeline.accepts_unique ha ha2]
        exact hu
      · intro hu
        obtain ⟨code, h, h1, h2, hu⟩ := this.2 ⟨s', ha, hu⟩
        exact ⟨h, ⟨code, h1, h2⟩, hu⟩

/-- seek-start. -/
private theorem seek {w : World} (hc : Faithful w.codec) {ps : List (List UInt8)} (hr : Reads w ps) (o : StartSeeker.Opt) :
    (∃ f, Main.seekStart w o = .error (.fault f)) ↔
      ∃ pre b post s items d, ps = pre ++ b :: post ∧
        StartSeeker.run o StartSeeker.init (seen (packet w) 0 pre) = .ok (s, items) ∧
        Accepts (Mirakc.Pipeline.seekStart w.codec w.tables o) (0, StartSeeker.init, 0, StdoutSink.init w.write) pre d ∧
        Spec.StartSeeker.Unseekable o items (packet w pre.length b) := by
  have h188 := Mirakc.Pipeline.packets_188 hr.2
  have rob := (Mirakc.Pipeline.stdout_robust).via w.codec.bytes
  have hin : ∀ i ∈ seen (packet w) 0 ps, (w.codec.bytes i.packet).length = 188 := by
    intro i hi
    obtain ⟨n, b, hb, rfl⟩ := Mirakc.Pipeline.mem_seen hi
    show (w.codec.bytes (w.codec.packet b)).length = 188
    rw [hc.keep b (h188 b hb)]
    exact h188 b hb
  have hbuf : (StdoutSink.init w.write).buf.length ≤ 16384 := by simp [StdoutSink.init]
  unfold Main.seekStart
  rw [feed_fault hr]
  have hun : Pipeline.seekStart w.codec w.tables o =
      via (packet w) (StartSeeker.sink o (via (fun _ => w.codec.bytes) StdoutSink.sink)) := rfl
  rw [hun, ran_via, aborts_fails _ (s1 := (StartSeeker.init, 0, StdoutSink.init w.write)) rfl (by
    rintro cs ⟨s', d'⟩ hcs
    obtain ⟨k1, k2⟩ := Mirakc.Pipeline.seek_keeps rob hcs hbuf (by intro q hq; cases hq) hin
    obtain ⟨ok, d2, h1, h2⟩ := Mirakc.Pipeline.seek_sendAll_robust rob s'.packets d' k1 k2
    obtain ⟨d3, h3⟩ := rob.finish d2 h2
    exact ⟨({ s' with packets := [] }, d3), by simp only [StartSeeker.sink]; rw [h1]; simp only [ok_bind]; rw [h3]; rfl⟩)]
  have hstep : ∀ (pre : List (List UInt8)) b s items d, pre ++ [b] <+: ps →
      StartSeeker.run o StartSeeker.init (seen (packet w) 0 pre) = .ok (s, items) →
      Accepts (StartSeeker.sink o (via (fun _ => w.codec.bytes) StdoutSink.sink)) (StartSeeker.init, 0, StdoutSink.init w.write)
        (seen (packet w) 0 pre) (s, d) →
      ((∃ f, (StartSeeker.sink o (via (fun _ => w.codec.bytes) StdoutSink.sink)).handle (s, d) (packet w pre.length b) = .error f) ↔
        Spec.StartSeeker.Unseekable o items (packet w pre.length b)) := by
    rintro pre b s items d ⟨rest, rfl⟩ hrun ha
    have hseen : seen (packet w) 0 (pre ++ [b]) = seen (packet w) 0 pre ++ [packet w pre.length b] := by
      rw [Mirakc.Pipeline.seen_append, Nat.zero_add]; rfl
    have hmem : ∀ j ∈ seen (packet w) 0 pre ++ [packet w pre.length b], j ∈ seen (packet w) 0 (pre ++ [b] ++ rest) := by
      intro j hj
      rw [← hseen] at hj
      rw [Mirakc.Pipeline.seen_append]
      exact List.mem_append_left _ hj
    rw [← seek_error hrun]
    simp only [StartSeeker.sink]
    cases hs : StartSeeker.step o s (packet w pre.length b) with
    | error f => exact iff_of_true ⟨f, rfl⟩ ⟨f, rfl⟩
    | ok r =>
      refine iff_of_false ?_ (by rintro ⟨_, h⟩; cases h)
      obtain ⟨s1, log, act⟩ := r
      have hr2 := Mirakc.Pipeline.seek_run_snoc (i := packet w pre.length b) hrun
      rw [hs] at hr2
      obtain ⟨k1, _⟩ := Mirakc.Pipeline.seek_sent (Q := fun q => (w.codec.bytes q).length = 188)
        (by intro q hq; cases hq) (fun j hj => hin j (hmem j hj)) hr2
      obtain ⟨j1, _⟩ := Mirakc.Pipeline.seek_keeps rob ha.consumes hbuf (by intro q hq; cases hq)
        (fun j hj => hin j (hmem j (List.mem_append_left _ hj)))
      obtain ⟨ok, d1, g1, g2⟩ := Mirakc.Pipeline.perform_robust rob act d j1 (fun q hq => k1 q (by
        simp only [Spec.StartSeeker.sent, List.flatMap_append, List.mem_append]
        exact .inr (by simpa using hq)))
      simp only [ok_bind, g1]
      rintro ⟨_, h⟩
      cases h
  constructor
  · rintro ⟨pre', i, post', ⟨s, d⟩, e, ha, hf⟩
    obtain ⟨pre, ys, rfl, rfl, e'⟩ := Mirakc.Pipeline.seen_split e
    cases ys with
    | nil => cases e'
    | cons b post =>
      simp only [seen, List.cons.injEq, Nat.zero_add] at e'
      obtain ⟨rfl, rfl⟩ := e'
      obtain ⟨items, hrun⟩ := Mirakc.Pipeline.seek_accepts_run ha
      exact ⟨pre, b, post, s, items, (_, s, d), rfl, hrun, Mirakc.Pipeline.via_accepts.2 ⟨ha, rfl⟩,
        (hstep pre b s items d ⟨post, by simp⟩ hrun ha).1 hf⟩
  · rintro ⟨pre, b, post, s, items, ⟨n, s', d⟩, rfl, hrun, ha, hu⟩
    have ha := (Mirakc.Pipeline.via_accepts.1 ha).1
    obtain ⟨items', hrun'⟩ := Mirakc.Pipeline.seek_accepts_run ha
    rw [hrun] at hrun'
    cases hrun'
    exact ⟨_, packet w pre.length b, _, (s', d), by rw [Mirakc.Pipeline.seen_append, Nat.zero_add]; rfl, ha,
      (hstep pre b s' items d ⟨post, by simp⟩ hrun ha).2 hu⟩

/-- **C113.**  The process terminates abnormally exactly as `Abnormal` says; otherwise it ends
normally or refuses its arguments.  Reads and writes may fail. -/
theorem C113_abnormal (w : World) (cmd : Cmd) (ps : List (List UInt8)) (hc : Faithful w.codec) (hr : Reads w ps)
    (hq : Representable cmd) :
    ((∃ f, main w cmd = .error (.fault f)) ↔ Abnormal w ps cmd) ∧
    ((∃ e, main w cmd = .ok e) ∨ (∃ r, main w cmd = .error (.refused r)) ↔ ¬ Abnormal w ps cmd) := by
  have key : (∃ f, main w cmd = .error (.fault f)) ↔ Abnormal w ps cmd := by
    have hlen : ∀ {P : Type} (f : Nat → List UInt8 → P), (seen f 0 ps).length = ps.length :=
      fun f => Mirakc.Pipeline.seen_length f ps 0
    have hls : ∀ {P : Type} (f : Nat → List UInt8 → P), Yields listSource (seen f 0 ps) (seen f 0 ps) :=
      fun f => listSource_yields _
    cases cmd with
    | scanServices a b =>
      refine (bind_fault (x := sidSet a) (k := fun x => sidSet b >>= fun y => Main.scanServices w { sids := x, xsids := y })
        (sids_refuse a)).trans (iff_of_false ?_ id)
      rintro ⟨x, _, h⟩
      obtain ⟨y, _, h⟩ := (bind_fault (sids_refuse b)).1 h
      obtain ⟨r, g⟩ := (C57_finish_partial { sids := x, xsids := y } (seen (packet w) 0 ps)).1 _ listSource _
        (ps.length + 1) (hls _) (by rw [hlen]; omega)
      exact (never hr g).1 h
    | syncClocks a b =>
      refine (bind_fault (x := sidSet a) (k := fun x => sidSet b >>= fun y => Main.syncClocks w { sids := x, xsids := y })
        (sids_refuse a)).trans ?_
      have hone : ∀ x y, (∃ f, Main.syncClocks w { sids := x, xsids := y } = .error (.fault f)) ↔ Aborts (PcrSynchronizer.sink { sids := x, xsids := y }) { st := {} } (seen (packet w) 0 ps) := fun x y => by
        unfold Main.syncClocks
        rw [feed_fault hr, ran_via]
      constructor
      · rintro ⟨x, hx, h⟩
        obtain ⟨y, hy, h⟩ := (bind_fault (sids_refuse b)).1 h
        exact ⟨x, y, hx, hy, (C107_sync_clocks _ _).1.1 ((hone x y).1 h)⟩
      · rintro ⟨x, y, hx, hy, h⟩
        exact ⟨x, hx, (bind_fault (sids_refuse b)).2 ⟨y, hy, (hone x y).2 ((C107_sync_clocks _ _).1.2 h)⟩⟩
    | collectEits a b tl st oa oo =>
      refine (bind_fault (x := loadEits a b tl st oa oo) (k := Main.collectEits w)
        (bind_refuse (sids_refuse a) fun _ => bind_refuse (sids_refuse b) fun _ _ h => by cases h)).trans ?_
      have hflags : ∀ o, loadEits a b tl st oa oo = .ok o → o.collectActual = !oo ∧ o.collectOthers = !oa := by
        intro o ho
        rw [loadEits, bind_ok_iff] at ho
        obtain ⟨x, _, ho⟩ := ho
        rw [bind_ok_iff] at ho
        obtain ⟨y, _, ho⟩ := ho
        cases ho
        exact ⟨rfl, rfl⟩
      refine exists_congr fun o => and_congr_right fun ho => ?_
      obtain ⟨h1, h2⟩ := hflags o ho
      obtain ⟨k1, k2⟩ := C108_collect_eits o (seen (sections w) 0 ps)
      by_cases hf : oa = true ∧ oo = true
      · obtain ⟨f, hf'⟩ := k1 ⟨by rw [h1, hf.2]; rfl, by rw [h2, hf.1]; rfl⟩
        refine iff_of_true ⟨f, ?_⟩ (.inl hf)
        rw [Main.collectEits, hf']
        rfl
      · obtain ⟨j1, j2, _⟩ := k2 (by
          rw [h1, h2]
          cases oa <;> cases oo <;> simp_all)
        rw [Main.collectEits, j1]
        show (∃ f, (feed w _ _ >>= fun x => _) = _) ↔ _
        rw [feed_fault hr, ran_via, j2]
        exact ⟨.inr, fun h => h.resolve_left hf⟩
    | collectEitpf a st pr fo =>
      refine (bind_fault (x := loadEitpf a st pr fo) (k := Main.collectEitpf w)
        (bind_refuse (sids_refuse a) fun _ _ h => by cases h)).trans ?_
      refine exists_congr fun o => and_congr_right fun _ => ?_
      rw [Main.collectEitpf, feed_fault hr, ran_via]
      exact (C109_collect_eitpf o (seen (sections w) 0 ps)).1
    | collectLogos =>
      obtain ⟨_, _, _, _, hl⟩ := C64_logos
      obtain ⟨r, g⟩ := (hl w.base64 (seen (fun n _ => w.logos n) 0 ps)).1 _ listSource _ (ps.length + 1) (hls _)
        (by rw [hlen]; omega)
      exact never hr g
    | filterService sid =>
      have e : Options.loadServiceFilter sid = { sid := idOf (sid.getD 0) } := by cases sid <;> rfl
      rw [main, e]
      exact service hc hr _
    | filterProgram a =>
      rw [main]
      refine load_fault.trans (exists_congr fun o => and_congr_right fun ho => ?_)
      have e : o.sid = idOf a.sid := by
        simp only [Options.loadProgramFilter] at ho
        obtain ⟨_, _, ho⟩ := bind_ok_iff.1 ho
        obtain ⟨au, _, ho⟩ := bind_ok_iff.1 ho
        obtain ⟨vi, _, ho⟩ := bind_ok_iff.1 ho
        obtain ⟨_, _, ho⟩ := bind_ok_iff.1 ho
        cases ho
        rfl
      rw [← e]
      exact program hc hr o
    | filterProgramMetadata sid =>
      obtain ⟨r, g⟩ := (C59_metadata (loadMetadata sid) (seen (packet w) 0 ps)).1 _ listSource _
        (ps.length + 1) (hls _) (by rw [hlen]; omega)
      exact never hr g
    | recordService sid chunk num start =>
      rw [main]
      refine load_fault.trans (exists_congr fun o => and_congr_right fun ho => ?_)
      obtain ⟨k1, k2⟩ := C83_recorder_options sid chunk num start hq.1 hq.2
      have hp : 0 ≤ chunk ∧ 0 ≤ num ∧ Permitted chunk.toNat num.toNat (start.getD 0) := by
        by_cases hp : 0 ≤ chunk ∧ 0 ≤ num ∧ Permitted chunk.toNat num.toNat (start.getD 0)
        · exact hp
        · rw [k2 hp] at ho; cases ho
      obtain ⟨o', o1, o2, o3, o4, _⟩ := k1 hp
      rw [ho] at o1
      cases o1
      have e : o.sid = idOf sid := loadRecorder_sid ho
      rw [← e]
      exact record hc hr o (by
        rw [show o.chunkSize = chunk.toNat by omega, show o.numChunks = num.toNat by omega, o4]; exact hp.2.2)
    | trackAirtime sid eid =>
      obtain ⟨r, g⟩ := (C58_airtime (loadAirtime sid eid) (seen (packet w) 0 ps)).1 _ listSource _
        (ps.length + 1) (hls _) (by rw [hlen]; omega)
      exact never hr g
    | seekStart sid dur pkts =>
      rw [main]
      refine load_fault.trans (exists_congr fun o => and_congr_right fun ho => ?_)
      exact seek hc hr o
    | printPes =>
      rw [main, Main.printPes, feed_fault hr, ran_via]
      exact (C106_print_pes (seen (packet w) 0 ps)).1
  refine ⟨key, ?_⟩
  rw [← key]
  cases main w cmd with
  | ok e => exact iff_of_true (.inl ⟨e, rfl⟩) (by rintro ⟨_, h⟩; cases h)
  | error s =>
    cases s with
    | refused r => exact iff_of_true (.inr ⟨r, rfl⟩) (by rintro ⟨_, h⟩; cases h)
    | fault f => exact iff_of_false (by rintro (⟨_, h⟩ | ⟨_, h⟩) <;> cases h) (fun h => h ⟨f, rfl⟩)

namespace C113ex

/-- A packet with the largest PCR base and an extension above 299: as a PCR it is out of range. -/
def late : List UInt8 :=
  [0x47, 0x01, 0xff, 0x20, 183, 0x10, 0xff, 0xff, 0xff, 0xff, 0x81, 0xff] ++ List.replicate 176 0xff
/-- The beginning of the stream of C68, and this packet. -/
def ps : List (List UInt8) := C68ex.ps.take 6 ++ [late]
def world : World := { C95ex.world with read := [some (ps.flatten.take 700), some (ps.flatten.drop 700)] }
theorem reads : Reads world ps := by
  refine ⟨fun r hr => ?_, ?_⟩
  · have : ∀ r ∈ world.read, (r.getD []).length ≤ 16384 := by decide +kernel
    exact this _ hr
  · have : contents world = ps.flatten := by decide +kernel
    rw [this]
    exact Mirakc.Pipeline.packets_flatten (by decide +kernel)
/-- A packet of a CAT with EMMs on the null PID, and a null packet. -/
def ps1 : List (List UInt8) := [C68ex.raw 1 0 0, C68ex.raw 0x1fff 0 0]
def world1 : World :=
  { C95ex.world with
    read := [some ps1.flatten]
    tables := fun n => if n = 0 then [{ sourcePid := 1, body := .cat { descs := [{ tag := 9, caPid := 0x1FFF }] } }] else [] }
theorem reads1 : Reads world1 ps1 := by
  refine ⟨fun r hr => ?_, ?_⟩
  · have : ∀ r ∈ world1.read, (r.getD []).length ≤ 16384 := by decide +kernel
    exact this _ hr
  · have : contents world1 = ps1.flatten := by decide +kernel
    rw [this]
    exact Mirakc.Pipeline.packets_flatten (by decide +kernel)
private theorem fault_of {x : Except Stop Ended} (h : (match x with | .error (.fault _) => true | _ => false) = true) :
    ∃ f, x = .error (.fault f) := by
  cases x with
  | ok e => cases h
  | error s =>
    cases s with
    | refused r => cases h
    | fault f => exact ⟨f, rfl⟩

end C113ex

/-- Non-trivial cases for C113: the stream with the PCR out of range, for the commands that look at
it, and not for filter-service and sync-clocks; and filter-service on the null packet. -/
example : Abnormal C113ex.world C113ex.ps (.filterProgram C95ex.args) ∧
    Abnormal C113ex.world C113ex.ps (.recordService 1 8192 2 none) ∧
    Abnormal C113ex.world C113ex.ps (.seekStart 1 (some 100000) (some 40)) ∧
    Abnormal C113ex.world C113ex.ps .printPes ∧
    ¬ Abnormal C113ex.world C113ex.ps (.filterService (some 1)) ∧
    ¬ Abnormal C113ex.world C113ex.ps (.syncClocks none none) ∧
    Abnormal C113ex.world1 C113ex.ps1 (.filterService (some 1)) := by
  have a := fun cmd hq => C113_abnormal C113ex.world cmd C113ex.ps C68ex.faithful C113ex.reads hq
  refine ⟨?_, ?_, ?_, ?_, ?_, ?_, ?_⟩
  · exact (a (.filterProgram C95ex.args) trivial).1.1 (C113ex.fault_of (by decide +kernel))
  · exact (a (.recordService 1 8192 2 none) ⟨by decide, by decide⟩).1.1 (C113ex.fault_of (by decide +kernel))
  · exact (a (.seekStart 1 (some 100000) (some 40)) trivial).1.1 (C113ex.fault_of (by decide +kernel))
  · exact (a .printPes trivial).1.1 (C113ex.fault_of (by decide +kernel))
  · obtain ⟨e, he, _⟩ := C95ex.check (r := main C113ex.world (.filterService (some 1))) (P := fun _ => true) (by decide +kernel)
    exact (a (.filterService (some 1)) trivial).2.1 (.inl ⟨e, he⟩)
  · obtain ⟨e, he, _⟩ := C95ex.check (r := main C113ex.world (.syncClocks none none)) (P := fun _ => true) (by decide +kernel)
    exact (a (.syncClocks none none) trivial).2.1 (.inl ⟨e, he⟩)
  · exact (C113_abnormal C113ex.world1 (.filterService (some 1)) C113ex.ps1 C68ex.faithful C113ex.reads1 trivial).1.1
      (C113ex.fault_of (by decide +kernel))

end Mirakc.Props
