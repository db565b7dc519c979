import Verif.Proof.Geometry
import Verif.Props.MainFilters
/-
Property C137: the size of the ring file does not matter for the recording.
-/
set_option linter.unusedSimpArgs false

namespace Mirakc.Props
open Mirakc.Main Mirakc.Spec Mirakc.Spec.Main Mirakc.Spec.Pipeline Mirakc.Spec.Geometry
open Mirakc.Spec.ServiceFilter (sent received Missing)
open Mirakc.Spec.ServiceRecorder (Recorded edges fileOps)
open Mirakc.Pipeline (exec via betweenRec)

/-- **C137**, the recorder.  If the same packets are recorded with different chunk sizes, numbers of chunks or start
positions, and no file operation fails in either case, the event-start and event-end messages are the same but for
their positions, which are those reached with the same number of bytes; the same bytes are written, and the exit codes
are equal. -/
theorem C137_recorder (o o' : ServiceRecorder.Opt) (hs : o'.sid = o.sid)
    (hopt : Permitted o.chunkSize o.numChunks o.startPos) (hopt' : Permitted o'.chunkSize o'.numChunks o'.startPos)
    (results results' : List Int) (is : List ServiceRecorder.Input) (hb : ∀ i ∈ is, i.bytes.length = 188)
    (code code' : Nat) (h h' : ServiceRecorder.Hist) (hr : Recorded o results is code h)
    (hr' : Recorded o' results' is code' h') (hf : .failed ∉ fileOps h.trace) (hf' : .failed ∉ fileOps h'.trace) :
    (∃ ks : List ServiceRecorder.Msg, edges (Spec.ServiceRecorder.messages h.trace) = ks.map (place o.startPos (o.chunkSize * o.numChunks)) ∧
      edges (Spec.ServiceRecorder.messages h'.trace) = ks.map (place o'.startPos (o'.chunkSize * o'.numChunks))) ∧
    written (fileOps h'.trace) = written (fileOps h.trace) ∧ code' = code := by
  have hstart : ∀ {o : ServiceRecorder.Opt} {results : List Int} {code : Nat} {h : ServiceRecorder.Hist},
      Permitted o.chunkSize o.numChunks o.startPos → Recorded o results is code h → .failed ∉ fileOps h.trace →
      code = 0 ∧ .start ∈ Spec.ServiceRecorder.messages h.trace := by
    intro o results code h hopt hr hf
    rcases C41_reset o results is code h hopt hb hr with ⟨_, k, _⟩ | ⟨_, _, k, _⟩ | ⟨k1, _, _, k2⟩
    · exact absurd k hf
    · exact absurd k hf
    · refine ⟨k2, ?_⟩
      rcases C37_message_order o results is code h hr with ⟨e, _⟩ | ⟨_, ms, r, e, _⟩
      · rw [e] at k1; cases k1
      · rw [e]; simp
  obtain ⟨c1, c2⟩ := hstart hopt hr hf
  obtain ⟨c1', c2'⟩ := hstart hopt' hr' hf'
  obtain ⟨_, _, d3, d4⟩ := C40_recorded o results is code h hopt hb hr
  obtain ⟨_, _, d3', d4'⟩ := C40_recorded o' results' is code' h' hopt' hb hr'
  obtain ⟨a1, a2⟩ := d4 c2 hf
  obtain ⟨a1', a2'⟩ := d4' c2' hf'
  rcases cases_of_recorded hr with ⟨_, e, _⟩ | ⟨r0, S⟩
  · rw [e] at c2; cases c2
  rcases cases_of_recorded hr' with ⟨_, e, _⟩ | ⟨r0', S'⟩
  · rw [e] at c2'; cases c2'
  obtain ⟨_, ⟨ks, k1, k2⟩, k3⟩ := Mirakc.Geometry.reach_geo hs hopt hopt' S.opened S'.opened S.reach S'.reach
    (by rw [a1, a1']) (by
      intro x hx
      refine hb _ ?_
      rw [← a1]
      exact List.mem_map_of_mem hx)
  have hed : ∀ (l : List ServiceRecorder.Msg) (b : Bool), edges (.start :: (l ++ [.stop b])) = edges l := by
    intro l b; simp [edges]
  refine ⟨⟨ks, ?_, ?_⟩, ?_, by rw [c1, c1']⟩
  · rw [S.messages, hed]; exact k1
  · rw [S'.messages, hed]; exact k2
  · rw [k3] at d3' a2'
    exact (List.prefix_iff_eq_take.1 d3').trans (by rw [a2', ← a2]; exact (List.prefix_iff_eq_take.1 d3).symm)

/-- A recording with three events, into rings of two chunks of 8192 bytes and of three chunks of 16384 bytes. -/
example : ∃ c h c' h', Permitted C37ex.opt.chunkSize C37ex.opt.numChunks C37ex.opt.startPos ∧ Permitted 16384 3 0 ∧
    (∀ i ∈ C37ex.stream, i.bytes.length = 188) ∧
    Recorded C37ex.opt (List.replicate 9 300000) C37ex.stream c h ∧
    Recorded { sid := 1, chunkSize := 16384, numChunks := 3 } [] C37ex.stream c' h' ∧
    .failed ∉ fileOps h.trace ∧ .failed ∉ fileOps h'.trace ∧
    (edges (Spec.ServiceRecorder.messages h.trace)).length = 5 ∧
    edges (Spec.ServiceRecorder.messages h'.trace) =
      [.eventStart (C37ex.eit C37ex.ev1) C37ex.ev1 5000 0, .eventEnd (C37ex.eit C37ex.ev1) C37ex.ev1 5000 8272,
        .eventStart (C37ex.eit C37ex.ev2) C37ex.ev2 5000 8272, .eventEnd (C37ex.eit C37ex.ev2) C37ex.ev2 5200 8648,
        .eventStart (C37ex.eit C37ex.ev3) C37ex.ev3 5200 8648] := by
  obtain ⟨c, h, h1, h2⟩ := C37ex.recorded_of_check (o := C37ex.opt) (results := List.replicate 9 300000) (is := C37ex.stream)
    (P := fun _ h => decide (.failed ∉ fileOps h.trace ∧ (edges (Spec.ServiceRecorder.messages h.trace)).length = 5))
    (by decide +kernel)
  obtain ⟨c', h', h1', h2'⟩ := C37ex.recorded_of_check (o := { sid := 1, chunkSize := 16384, numChunks := 3 })
    (results := []) (is := C37ex.stream)
    (P := fun _ h => decide (.failed ∉ fileOps h.trace ∧ edges (Spec.ServiceRecorder.messages h.trace) =
      [.eventStart (C37ex.eit C37ex.ev1) C37ex.ev1 5000 0, .eventEnd (C37ex.eit C37ex.ev1) C37ex.ev1 5000 8272,
        .eventStart (C37ex.eit C37ex.ev2) C37ex.ev2 5000 8272, .eventEnd (C37ex.eit C37ex.ev2) C37ex.ev2 5200 8648,
        .eventStart (C37ex.eit C37ex.ev3) C37ex.ev3 5200 8648]))
    (by decide +kernel)
  have k := of_decide_eq_true h2
  have k' := of_decide_eq_true h2'
  exact ⟨c, h, c', h', C37ex.permitted, by refine ⟨?_, ?_, ?_, ?_, ?_, ?_, ?_⟩ <;> decide, C37ex.bytes_ok, h1, h1',
    k.1, k'.1, k.2, k'.2⟩

/-- The recorder with another ring file: no abnormal termination if there was none before. -/
theorem goes_on_recorder (o o' : ServiceRecorder.Opt) (hs : o'.sid = o.sid)
    (hopt : Permitted o.chunkSize o.numChunks o.startPos) (hopt' : Permitted o'.chunkSize o'.numChunks o'.startPos)
    (results results' : List Int) (is : List ServiceRecorder.Input) (hb : ∀ i ∈ is, i.bytes.length = 188)
    (code : Nat) (h : ServiceRecorder.Hist) (hr : Recorded o results is code h) (hf : .failed ∉ fileOps h.trace) :
    ∃ code' h', Recorded o' results' is code' h' := by
  have hr0 := hr
  obtain ⟨τ, src, t, fuel, h0, y1, y2, y3, y4⟩ := hr
  -- the first recorder accepts all packets
  have hacc : ∃ h1 h2, (ServiceRecorder.sink o).start h0 = .ok (true, h1) ∧ Accepts (ServiceRecorder.sink o) h1 is h2 := by
    rcases Pipeline.feedPackets_cases y1 y2 y4 with ⟨k1, k2⟩ | ⟨h1, h2, cs, k1, k2, k3, k4⟩
    · rcases C41_reset o results is code h hopt hb hr0 with ⟨_, k, _⟩ | ⟨_, _, k, _⟩ | ⟨_, _, _, k⟩
      · exact absurd k hf
      · exact absurd k hf
      · rw [k2] at k; cases k
    · rcases Pipeline.consumes_iff.1 k2 with ⟨_, k⟩ | ⟨rest, e, k⟩
      · exact ⟨h1, h2, k1, k⟩
      · exfalso
        -- the same history would arise with another packet at the end
        have mk : ∀ is', (∃ rest, is' = cs ++ rest) →
            Recorded o results is' ((ServiceRecorder.sink o).exitCode h) h := by
          rintro is' ⟨rest, rfl⟩
          exact ⟨_, listSource, _, (cs ++ rest).length + 1, h0, listSource_yields _, by omega, y3,
            Pipeline.feedPackets_of (listSource_yields _) (by omega) k1
              (Pipeline.consumes_iff.2 (.inr ⟨_, rfl, k⟩)) k3⟩
        have hne : cs ≠ [] := by obtain ⟨pre, p, _, rfl, _⟩ := k; simp
        obtain ⟨i, hi⟩ := List.exists_mem_of_ne_nil cs hne
        have hbc : ∀ j ∈ cs, j.bytes.length = 188 := fun j hj => hb j (by rw [e]; simp [hj])
        have hb2 : ∀ j ∈ cs ++ [i], j.bytes.length = 188 := by
          intro j hj
          rcases List.mem_append.1 hj with hj | hj
          · exact hbc j hj
          · rw [List.mem_singleton.1 hj]; exact hbc i hi
        have hst : .start ∈ Spec.ServiceRecorder.messages h.trace := by
          rcases C41_reset o results is code h hopt hb hr0 with ⟨_, k, _⟩ | ⟨_, _, k, _⟩ | ⟨k, _⟩
          · exact absurd k hf
          · exact absurd k hf
          · rcases C37_message_order o results is code h hr0 with ⟨e, _⟩ | ⟨_, ms, r, e, _⟩
            · rw [e] at k; cases k
            · rw [e]; simp
        have e1 := ((C40_recorded o results _ _ h hopt hb2 (mk _ ⟨_, rfl⟩)).2.2.2 hst hf).1
        have e2 := ((C40_recorded o results _ _ h hopt hbc (mk cs ⟨[], by simp⟩)).2.2.2 hst hf).1
        rw [e2] at e1
        have := congrArg List.length e1
        simp at this
  obtain ⟨h1, h2, k1, k2⟩ := hacc
  obtain ⟨r0, ho, e1, e2⟩ := Mirakc.Geometry.started_of y3 k1
  obtain ⟨h0', ok', h1', l1, l2⟩ := Mirakc.Geometry.start_ok hopt' results'
  cases ok' with
  | false =>
    exact ⟨1, h1', _, listSource, is, is.length + 1, h0', listSource_yields _, by omega, l1, by
      simp only [feedPackets, l2, ok_bind, Bool.false_eq_true, if_false]; rfl⟩
  | true =>
    obtain ⟨r0', ho', e1', e2'⟩ := Mirakc.Geometry.started_of l1 l2
    obtain ⟨cs, g', hc⟩ := Mirakc.Geometry.goes_on hs hopt hopt' ho ho' k2 (by rw [e1, e2]; exact .nil)
      (by rw [e1]; simp) (by rw [e1]; simp) hb (h' := h1') (by rw [e1', e2']; exact .nil) (by rw [e1']; simp)
      (by rw [e1, e1'])
    exact ⟨_, _, _, listSource, is, is.length + 1, h0', listSource_yields _, by omega, l1,
      Pipeline.feedPackets_of (listSource_yields _) (by omega) l2 hc rfl⟩

/-- **C137**, record-service.  If a recording ends normally without a failed file operation, it ends normally on the
same stream with every other permitted chunk size, number of chunks and start position; and if no file operation fails
then either, the exit code is the same, the same bytes are written, and the event-start and event-end messages printed
are the same but for their positions, which are those reached with the same number of bytes. -/
theorem C137_record_service (w : World) (hc : Faithful w.codec) (ps : List (List UInt8)) (hr : Reads w ps)
    (sid : Nat) (hs : sid < 65536) (chunk num chunk' num' : Int) (start start' : Option Nat)
    (hk : -2 ^ 63 ≤ chunk ∧ chunk < 2 ^ 63) (hn : -2 ^ 63 ≤ num ∧ num < 2 ^ 63)
    (hp : 0 ≤ chunk' ∧ 0 ≤ num' ∧ Permitted chunk'.toNat num'.toNat (start'.getD 0))
    (e : Ended) (h : main w (.recordService sid chunk num start) = .ok e) (hf : .failed ∉ e.ops) :
    ∃ e', main w (.recordService sid chunk' num' start') = .ok e' ∧
      (.failed ∉ e'.ops → e'.code = e.code ∧ written e'.ops = written e.ops ∧
        ∃ ks : List ServiceRecorder.Msg,
          edges (printed e.docs) = ks.map (place (start.getD 0) (chunk.toNat * num.toNat)) ∧
          edges (printed e'.docs) = ks.map (place (start'.getD 0) (chunk'.toNat * num'.toNat))) := by
  have hpr : ∀ l : List ServiceRecorder.Msg, printed (l.map .message) = l := by
    intro l
    simp only [printed, List.filterMap_map]
    exact List.filterMap_some
  have hk' : -2 ^ 63 ≤ chunk' ∧ chunk' < 2 ^ 63 := by have := hp.2.2.chunkMax; omega
  have hn' : -2 ^ 63 ≤ num' ∧ num' < 2 ^ 63 := by have := hp.2.2.numMax; omega
  obtain ⟨c1, c2⟩ := C95_record_service w hc ps hr sid hs chunk num start hk hn
  have hp0 : 0 ≤ chunk ∧ 0 ≤ num ∧ Permitted chunk.toNat num.toNat (start.getD 0) := by
    by_cases hp : 0 ≤ chunk ∧ 0 ≤ num ∧ Permitted chunk.toNat num.toNat (start.getD 0)
    · exact hp
    · rw [c1 hp] at h; cases h
  obtain ⟨o, ⟨o1, o2, o3, o4⟩, cs, f, items, rcode, hist, k1, k2, k3, k4, k5, k6, k7, k8, k9, k10⟩ := c2 e h
  have hfull : ServiceFilter.run { sid := sid } (ServiceFilter.init { sid := sid })
      (seen (arrived w.codec w.tables) 0 ps) = .ok (f, items) := by
    rcases k7 with k7 | k7
    · exact k7
    · exact absurd k7 hf
  have h188 := Pipeline.packets_188 (reading hr).packets
  have hb : ∀ i ∈ seen (stored w.codec w.tables2 w.times) 0 (sent items), i.bytes.length = 188 := by
    intro i hi
    obtain ⟨_, y, hy, rfl⟩ := Pipeline.mem_seen hi
    exact Pipeline.sf_188 hc h188 hfull y hy
  have hopt : Permitted o.chunkSize o.numChunks o.startPos := by
    rw [show o.chunkSize = chunk.toNat by omega, show o.numChunks = num.toNat by omega, o4]; exact hp0.2.2
  -- the options
  obtain ⟨q1, _⟩ := C83_recorder_options sid chunk' num' start' hk' hn'
  obtain ⟨o', p1, p2, p3, p4, _⟩ := q1 hp
  have p5 := (C84_ids_partial sid (by omega)).2.2.1 chunk' num' start' o' p1
  have p5 : o'.sid = sid := by omega
  have hopt' : Permitted o'.chunkSize o'.numChunks o'.startPos := by
    rw [show o'.chunkSize = chunk'.toNat by omega, show o'.numChunks = num'.toNat by omega, p4]; exact hp.2.2
  obtain ⟨rcode', hist', r'⟩ := goes_on_recorder o o' (by omega) hopt hopt' w.file w.file _ hb rcode hist k4
    (by rw [← k6]; exact hf)
  -- the command ends
  obtain ⟨e', he'⟩ : ∃ e', main w (.recordService sid chunk' num' start') = .ok e' := by
    obtain ⟨τ, src, t, fuel, h0, y1, y2, y3, y4⟩ := r'
    have hx : ∃ x, exec (Pipeline.recordService w.codec w.tables w.tables2 w.times o')
        ((readResults w).flatten.length + 1) (readResults w)
        (0, ServiceFilter.init { sid := o'.sid }, 0, h0) = .ok x := by
      rw [← p5] at hfull
      rcases Pipeline.feedPackets_cases y1 y2 y4 with ⟨g, _⟩ | ⟨d1, d2, cs, g1, g2, g3, _⟩
      · exact ⟨_, by
          simp only [exec, feedPackets, Pipeline.recordService, via, ServiceFilter.sink, g, ok_bind,
            Bool.false_eq_true, if_false]
          rfl⟩
      · obtain ⟨ys, _, hy⟩ := Pipeline.consumes_via g2
        exact Pipeline.behind_total (reading hr) (snk := via (betweenRec w.codec w.tables2 w.times) (ServiceRecorder.sink o'))
          (d0 := (0, h0)) (d1 := (0, d1)) (d := (0 + ys.length, hist')) hfull
          (by simp only [via, g1, ok_bind]) hy (by simp only [via, g3, ok_bind])
    obtain ⟨⟨code, n, f, m, x⟩, hx⟩ := hx
    have hfeed := feed_exec.2 hx
    refine ⟨{ code := code, docs := messages x.trace, ops := operations x.trace }, ?_⟩
    rw [main, p1]
    show Main.recordService w o' = _
    rw [Main.recordService, bind_ok_iff]
    refine ⟨h0, mapError_ok_iff.2 y3, ?_⟩
    rw [bind_ok_iff]
    exact ⟨_, hfeed, rfl⟩
  refine ⟨e', he', fun hf' => ?_⟩
  obtain ⟨_, c2'⟩ := C95_record_service w hc ps hr sid hs chunk' num' start' hk' hn'
  obtain ⟨u, ⟨u1, u2, u3, u4⟩, cs', f', items', rc', hs', l1, l2, l3, l4, l5, l6, l7, l8, l9, l10⟩ := c2' e' he'
  have hfull' : items' = items ∧ f' = f := by
    rcases l7 with l7 | l7
    · rw [hfull] at l7; cases l7; exact ⟨rfl, rfl⟩
    · exact absurd l7 hf'
  obtain ⟨rfl, rfl⟩ := hfull'
  have hoptu : Permitted u.chunkSize u.numChunks u.startPos := by
    rw [show u.chunkSize = chunk'.toNat by omega, show u.numChunks = num'.toNat by omega, u4]; exact hp.2.2
  obtain ⟨⟨ks, m1, m2⟩, m3, _⟩ := C137_recorder o u (by omega) hopt hoptu w.file w.file _ hb rcode rc' hist hs' k4 l4
    (by rw [← k6]; exact hf) (by rw [← l6]; exact hf')
  refine ⟨?_, by rw [k6, l6]; exact m3, ks, ?_, ?_⟩
  · by_cases hmiss : ∃ t ∈ received items', Missing sid t
    · rw [k9 hmiss, l9 hmiss]
    · rw [k10 hf hmiss, l10 hf' hmiss]
  · rw [k5, hpr, m1, o4, show o.chunkSize = chunk.toNat by omega, show o.numChunks = num.toNat by omega]
  · rw [l5, hpr, m2, u4, show u.chunkSize = chunk'.toNat by omega, show u.numChunks = num'.toNat by omega]

namespace C137ex
open C68ex (raw clk)

/-- A stream to be recorded: PAT, PMT, EIT, a PCR, TOT, a PCR, video, the EIT of the next event, a PCR, video. -/
def ps : List (List UInt8) :=
  [raw 0 0 1, raw 0x100 0 2, raw 0x12 0 3, clk 0x1ff 900100, raw 0x14 0 4, clk 0x1ff 900200, raw 0x111 0 6,
    raw 0x111 1 6, raw 0x12 1 7, clk 0x1ff 1000000, raw 0x111 2 5]
/-- The tables behind the service filter. -/
def tabs' : Nat → ServiceFilter.Out → List Table
  | _, .pat p _ => [{ sourcePid := 0, body := .pat p }]
  | n, .orig p =>
    if p.pid = 0x100 then [C68ex.pmt]
    else if p.pid = 0x12 then [C58ex.eit 1 [⟨if n < 6 then 5 else 6, 32400000, 60, 0⟩]]
    else if p.pid = 0x14 then [C52ex.tot 32400000] else []
/-- Every read delivers a packet, and everything can be written. -/
def world : World :=
  { C95ex.world with tables2 := tabs', read := ps.map some, file := List.replicate 20 8192 }
theorem reads : Reads world ps := by
  refine ⟨fun r hr => ?_, ?_⟩
  · have : ∀ r ∈ world.read, (r.getD []).length ≤ 16384 := by decide +kernel
    exact this _ hr
  · have hne : ∀ l : List (List UInt8), (∀ b ∈ l, b ≠ []) → upToEnd (l.map some) = l.flatten := by
      intro l h
      induction l with
      | nil => rfl
      | cons r l ih =>
        cases r with
        | nil => exact absurd rfl (h [] (by simp))
        | cons x r => simp only [List.map_cons, upToEnd, ih (fun b hb => h b (by simp [hb])), List.flatten_cons]
    have : contents world = ps.flatten := hne ps (by decide +kernel)
    rw [this]
    exact Mirakc.Pipeline.packets_flatten (by decide +kernel)

end C137ex

example : Faithful C137ex.world.codec ∧ Reads C137ex.world C137ex.ps ∧
    (∃ e, main C137ex.world (.recordService 1 8192 2 (some 8192)) = .ok e ∧
      decide (.failed ∉ e.ops ∧ (edges (printed e.docs)).length = 3) = true) ∧ Permitted 16384 3 0 :=
  ⟨C68ex.faithful, C137ex.reads, C95ex.check (by decide +kernel), by refine ⟨?_, ?_, ?_, ?_, ?_, ?_, ?_⟩ <;> decide⟩

end Mirakc.Props
