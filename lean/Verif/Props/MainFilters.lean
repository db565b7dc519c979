import Verif.Props.Main
import Verif.Props.Options
/-
Properties of the whole program: the commands that pass packets on.
-/
namespace Mirakc.Props
open Mirakc.Pipeline (via input outBytes programBytes between betweenRec)
open Mirakc.Main Mirakc.Spec Mirakc.Spec.Main Mirakc.Spec.Pipeline
open Mirakc.Spec.ServiceFilter (sent received Missing usablePat validPmt)

theorem feed_exec {σ : Type} {w : World} {snk : Sink (List UInt8) σ} {s : σ} {r : Nat × σ} :
    feed w snk s = .ok r ↔
      Mirakc.Pipeline.exec snk ((readResults w).flatten.length + 1) (readResults w) s = .ok r := by
  rw [feed, mapError_ok_iff]

theorem load_service (sid : Nat) (hs : sid < 65536) : Options.loadServiceFilter (some sid) = { sid := sid } := by
  have : Options.toUint16 (sid : Int) = sid := by unfold Options.toUint16; omega
  simp only [Options.loadServiceFilter, this]

namespace C95ex

/-- The stream of C68, read in two pieces, with short writes. -/
def world : World :=
  { C90ex.world with
    codec := C68ex.codec, tables := C68ex.tabs, tables2 := C68ex.tabs', extra := C26ex.one
    read := C68ex.reads.map some, write := [100, 1, 1000, 5000] }
theorem reads : Reads world C68ex.ps := by
  refine ⟨fun r hr => ?_, ?_⟩
  · have : ∀ r ∈ world.read, (r.getD []).length ≤ 16384 := by decide +kernel
    exact this _ hr
  · have : contents world = C68ex.ps.flatten := by decide +kernel
    rw [this]
    exact Mirakc.Pipeline.packets_flatten (by decide +kernel)
theorem writes : ∀ x ∈ world.write, 0 ≤ x := by decide
/-- Shorthand for spelled-out runs. -/
theorem check {r : Except Stop Ended} {P : Ended → Bool}
    (h : (match r with | .ok a => P a | .error _ => false) = true) : ∃ e, r = .ok e ∧ P e = true := by
  cases r with
  | error f => cases h
  | ok a => exact ⟨a, rfl, h⟩
/-- Arguments of filter-program. -/
def args : Options.ProgramArgs :=
  { sid := 1, eid := 5, clockPid := 0x1ff, clockPcr := 1000, clockTime := -32400000, videoTags := some [['0']] }

end C95ex

/-- **C95**, filter-service.  For a service given by its number, if no write fails: the command
ends normally exactly if the service filter does on the packets of the stream, and then it
has written the packets sent by the filter: some packets of the stream dropped, those on PID 0
replaced by PAT packets.  The exit code is 1 exactly if a usable PAT without the service was
received. -/
theorem C95_filter_service (w : World) (hc : Faithful w.codec) (ps : List (List UInt8)) (hr : Reads w ps)
    (hw : ∀ x ∈ w.write, 0 ≤ x) (sid : Nat) (hs : sid < 65536) :
    let run := ServiceFilter.run { sid := sid } (ServiceFilter.init { sid := sid })
      (seen (arrived w.codec w.tables) 0 ps)
    ((∃ e, main w (.filterService (some sid)) = .ok e) ↔ ∃ x, run = .ok x) ∧
    ∀ f items, run = .ok (f, items) → ∃ code,
      main w (.filterService (some sid)) =
        .ok { code := code, bytes := ((sent items).map (serviceBytes w.codec)).flatten } ∧
      Selected w.codec (ps.take items.length) ((sent items).map (serviceBytes w.codec)) ∧
      ((∃ t ∈ received items, Missing sid t) → code = 1) ∧
      ((¬ ∃ t ∈ received items, Missing sid t) → code = 0) := by
  intro run
  have hm : main w (.filterService (some sid)) = Main.filterService w { sid := sid } := by
    rw [main, load_service sid hs]
  obtain ⟨k1, k2⟩ := C68_filter_service w.codec hc w.tables sid (readResults w) ps _ (reading hr) w.write hw
  refine ⟨⟨fun ⟨e, h⟩ => k1.1 ?_, fun ⟨⟨f, items⟩, h⟩ => ?_⟩, fun f items h => ?_⟩
  · rw [hm, Main.filterService, bind_ok_iff] at h
    obtain ⟨r, h, _⟩ := h
    exact ⟨r, feed_exec.1 h⟩
  · obtain ⟨code, n, m, d, h1, _⟩ := k2 f items h
    rw [hm, Main.filterService, feed_exec.2 h1]
    exact ⟨_, rfl⟩
  · obtain ⟨code, n, m, d, h1, h2, h3⟩ := k2 f items h
    refine ⟨code, ?_, h3⟩
    rw [hm, Main.filterService, feed_exec.2 h1, ← h2]
    rfl

example : Faithful C95ex.world.codec ∧ Reads C95ex.world C68ex.ps ∧ (∀ x ∈ C95ex.world.write, 0 ≤ x) ∧
    ∃ e, main C95ex.world (.filterService (some 1)) = .ok e ∧ (e.code = 0 ∧ e.bytes.length = 188 * 8) := by
  obtain ⟨e, h1, h2⟩ := C95ex.check (r := main C95ex.world (.filterService (some 1)))
    (P := fun e => e.code = 0 ∧ e.bytes.length = 188 * 8) (by decide +kernel)
  exact ⟨C68ex.faithful, C95ex.reads, C95ex.writes, e, h1, of_decide_eq_true h2⟩

private theorem tags_spec {arg : Option (List (List Char))} {tags : List Nat}
    (h : Options.loadComponentTags arg = .ok tags) (x : Nat) : x ∈ tags ↔ Names arg x := by
  cases arg with
  | none =>
    cases h
    simp [Names]
  | some l =>
    by_cases hl : ∀ s ∈ l, ∃ v, Spec.Options.Denotes s v ∧ 0 ≤ v ∧ v < 256
    · obtain ⟨tags', h1, h2⟩ := (C65_tags l).1 hl
      rw [h] at h1
      cases h1
      rw [h2]
      simp [Names]
    · obtain ⟨r, hr⟩ := (C65_tags l).2.1 (by simpa using hl)
      rw [h] at hr; cases hr

theorem load_means {a : Options.ProgramArgs} (hs : 0 ≤ a.sid ∧ a.sid < 65536) (he : 0 ≤ a.eid ∧ a.eid < 65536)
    (hp : 0 ≤ a.clockPid ∧ a.clockPid < 65536) {o : ProgramFilter.Opt} (ho : Options.loadProgramFilter a = .ok o) :
    Means a o := by
  obtain ⟨m1, m2, m3, m4, m5, m6, m7, m8, m9, m10, m11⟩ :=
    (C84_ids_partial a.sid hs).2.2.2.2 a rfl he hp o ho
  exact ⟨m1, m2, m3, m4, m5, tags_spec m6, tags_spec m7, m8, m9, m10, m11⟩

/-- **C95**, filter-program.  If no write fails and the ids given are in range, the command uses
the options as given and writes the packets that the program filter makes of those that the
service filter makes of the packets of the stream; all of them, or up to the packet at which
the program filter stops.  It ends with 222 if the programme was cancelled before it started,
otherwise with 1 if the service was missing from a PAT, otherwise with 0. -/
theorem C95_filter_program (w : World) (hc : Faithful w.codec) (ps : List (List UInt8)) (hr : Reads w ps)
    (hw : ∀ x ∈ w.write, 0 ≤ x) (a : Options.ProgramArgs) (hs : 0 ≤ a.sid ∧ a.sid < 65536)
    (he : 0 ≤ a.eid ∧ a.eid < 65536) (hp : 0 ≤ a.clockPid ∧ a.clockPid < 65536) (e : Ended)
    (h : main w (.filterProgram a) = .ok e) :
    ∃ o, Means a o ∧ ∃ cs f items g items2, cs <+: ps ∧
      ServiceFilter.run { sid := o.sid } (ServiceFilter.init { sid := o.sid })
        (seen (arrived w.codec w.tables) 0 cs) = .ok (f, items) ∧ items.length = cs.length ∧
      ProgramFilter.run w.extra o (ProgramFilter.init o) (seen (forwarded w.codec w.tables2) 0 (sent items)) =
        .ok (g, items2) ∧ items2.length = (sent items).length ∧
      (ServiceFilter.run { sid := o.sid } (ServiceFilter.init { sid := o.sid })
        (seen (arrived w.codec w.tables) 0 ps) = .ok (f, items) ∨
        ∃ pre it, items2 = pre ++ [it] ∧ it.more = false) ∧
      e.bytes = ((Spec.ProgramFilter.sent items2).map (eventBytes w.codec)).flatten ∧
      (∀ x ∈ Spec.ProgramFilter.sent items2, (eventBytes w.codec x).length = 188) ∧
      (
        let cancelled := ∃ pre it, items2 = pre ++ [it] ∧
          ¬ Spec.ProgramFilter.Started Spec.ProgramFilter.ReachedNoWrap o pre ∧
          ∃ t ∈ it.handled, Spec.ProgramFilter.Cancels o False t
        (cancelled → e.code = 222) ∧
        (¬ cancelled → (∃ t ∈ received items, Missing o.sid t) → e.code = 1) ∧
        (¬ cancelled → (¬ ∃ t ∈ received items, Missing o.sid t) → e.code = 0)) := by
  rw [main, bind_ok_iff] at h
  obtain ⟨o, ho, h⟩ := h
  rw [mapError_ok_iff] at ho
  rw [Main.filterProgram, bind_ok_iff] at h
  obtain ⟨⟨code, n, f, m, g, k, d⟩, h, h'⟩ := h
  cases h'
  rw [feed_exec] at h
  refine ⟨o, load_means hs he hp ho, ?_⟩
  obtain ⟨cs, items, items2, h1, h2, h3, h4, h5, h6, h7, h8, h9⟩ := Pipeline.filter_program hc (reading hr) hw h
  refine ⟨cs, f, items, g, items2, h1, h2, h3, h4, h5, h8, h6, h7, ?_⟩
  have hf := retry_flag h4 (Pipeline.sf_patFree hc h2 h4)
  refine ⟨fun h => ?_, fun h hm => ?_, fun h hm => ?_⟩
  · rw [h9, hf.1 h]; rfl
  · rw [h9, hf.2 h, (Pipeline.error_iff h2).2 hm]; rfl
  · rw [h9, hf.2 h, if_neg (by simp), if_neg (fun e => hm ((Pipeline.error_iff h2).1 e))]

example : Faithful C95ex.world.codec ∧ Reads C95ex.world C68ex.ps ∧ (∀ x ∈ C95ex.world.write, 0 ≤ x) ∧
    ∃ e, main C95ex.world (.filterProgram C95ex.args) = .ok e ∧ (e.code = 0 ∧ 188 * 3 ≤ e.bytes.length) := by
  obtain ⟨e, h1, h2⟩ := C95ex.check (r := main C95ex.world (.filterProgram C95ex.args))
    (P := fun e => e.code = 0 ∧ 188 * 3 ≤ e.bytes.length) (by decide +kernel)
  exact ⟨C68ex.faithful, C95ex.reads, C95ex.writes, e, h1, of_decide_eq_true h2⟩

/-- **C95**, record-service.  Arguments that the ring file does not permit are refused before
anything is read.  Otherwise the recording is that of the recorder, with the options given,
fed with what the service filter passes on when it is fed the packets of the stream, all of them
unless a file operation failed; messages and file operations are those of that recording.  The
exit code is 1 if a file operation failed or the service was missing from a PAT, otherwise
0. -/
theorem C95_record_service (w : World) (hc : Faithful w.codec) (ps : List (List UInt8)) (hr : Reads w ps)
    (sid : Nat) (hs : sid < 65536) (chunk num : Int) (start : Option Nat)
    (hk : -2 ^ 63 ≤ chunk ∧ chunk < 2 ^ 63) (hn : -2 ^ 63 ≤ num ∧ num < 2 ^ 63) :
    (¬ (0 ≤ chunk ∧ 0 ≤ num ∧ Permitted chunk.toNat num.toNat (start.getD 0)) →
      main w (.recordService sid chunk num start) = .error (.refused .abort)) ∧
    ∀ e, main w (.recordService sid chunk num start) = .ok e →
      ∃ o : ServiceRecorder.Opt, (o.sid = sid ∧ o.chunkSize = chunk ∧ o.numChunks = num ∧ o.startPos = start.getD 0) ∧
      ∃ cs f items rcode h, cs <+: ps ∧
      ServiceFilter.run { sid := sid } (ServiceFilter.init { sid := sid })
        (seen (arrived w.codec w.tables) 0 cs) = .ok (f, items) ∧ items.length = cs.length ∧
      Spec.ServiceRecorder.Recorded o w.file
        (seen (stored w.codec w.tables2 w.times) 0 (sent items)) rcode h ∧
      e.docs = (Spec.ServiceRecorder.messages h.trace).map .message ∧
      e.ops = Spec.ServiceRecorder.fileOps h.trace ∧
      (ServiceFilter.run { sid := sid } (ServiceFilter.init { sid := sid })
        (seen (arrived w.codec w.tables) 0 ps) = .ok (f, items) ∨ .failed ∈ e.ops) ∧
      (.failed ∈ e.ops → e.code = 1) ∧
      ((∃ t ∈ received items, Missing sid t) → e.code = 1) ∧
      (.failed ∉ e.ops → (¬ ∃ t ∈ received items, Missing sid t) → e.code = 0) := by
  obtain ⟨k1, k2⟩ := C83_recorder_options sid chunk num start hk hn
  refine ⟨fun hp => by rw [main, k2 hp]; rfl, fun e h => ?_⟩
  have hp : 0 ≤ chunk ∧ 0 ≤ num ∧ Permitted chunk.toNat num.toNat (start.getD 0) := by
    by_cases hp : 0 ≤ chunk ∧ 0 ≤ num ∧ Permitted chunk.toNat num.toNat (start.getD 0)
    · exact hp
    · rw [main, k2 hp] at h; cases h
  obtain ⟨o, o1, o2, o3, o4, _⟩ := k1 hp
  have o5 := (C84_ids_partial sid (by omega)).2.2.1 chunk num start o o1
  have o5 : o.sid = sid := by omega
  rw [main, o1] at h
  change Main.recordService w o = .ok e at h
  rw [Main.recordService, bind_ok_iff] at h
  obtain ⟨h0, hi, h⟩ := h
  rw [mapError_ok_iff] at hi
  rw [bind_ok_iff] at h
  obtain ⟨⟨code, n, f, m, x⟩, h, h'⟩ := h
  cases h'
  rw [feed_exec] at h
  obtain ⟨cs, items, rcode, r1, r2, r3, r4, r5, r6, r7⟩ := C87_record_service w.codec hc w.tables w.tables2 w.times o
    (by rw [show o.chunkSize = chunk.toNat by omega, show o.numChunks = num.toNat by omega, o4]; exact hp.2.2)
    _ ps _ (reading hr) w.file h0 hi code n m f x h
  rw [o5] at r2 r6 r7
  refine ⟨o, ⟨o5, o2, o3, o4⟩, cs, f, items, rcode, x, r1, r2, r3, r4, ?_, rfl, r6, r7⟩
  simp only [messages, Spec.ServiceRecorder.messages, List.map_filterMap]
  congr 1
  funext t
  cases t <;> rfl

example : Faithful C95ex.world.codec ∧ Reads C95ex.world C68ex.ps ∧
    ∃ e, main C95ex.world (.recordService 1 8192 2 (some 8192)) = .ok e ∧ (2 ≤ e.docs.length ∧ e.ops ≠ []) := by
  obtain ⟨e, h1, h2⟩ := C95ex.check (r := main C95ex.world (.recordService 1 8192 2 (some 8192)))
    (P := fun e => 2 ≤ e.docs.length ∧ e.ops ≠ []) (by decide +kernel)
  exact ⟨C68ex.faithful, C95ex.reads, e, h1, of_decide_eq_true h2⟩

/-- **C95**, seek-start.  If no write fails, and for limits in range of which one is positive:
under the conditions of C34 the command writes all packets of the stream unchanged, or the
packet of a PAT followed by all packets from a later one on, and ends with 0. -/
theorem C95_seek_start (w : World) (hc : Faithful w.codec) (ps : List (List UInt8)) (hr : Reads w ps)
    (hw : ∀ x ∈ w.write, 0 ≤ x) (sid : Nat) (hs : sid < 65536) (dur pkts : Option Nat)
    (hp : ∀ p, pkts = some p → p < 2 ^ 32) (hl : 0 < dur.getD 0 ∨ 0 < pkts.getD 0)
    (s : StartSeeker.St) (items : List StartSeeker.Item)
    (h : StartSeeker.run { sid := sid, maxDuration := dur.getD 0, maxPackets := pkts.getD 0 }
      StartSeeker.init (seen (arrived w.codec w.tables) 0 ps) = .ok (s, items))
    (hpl : Spec.StartSeeker.Placed items)
    (hf : Spec.StartSeeker.Fresh { sid := sid, maxDuration := dur.getD 0, maxPackets := pkts.getD 0 } items) :
    ∃ out, main w (.seekStart sid (dur.map fun v : Nat => (v : Int)) (pkts.map fun v : Nat => (v : Int))) =
        .ok { code := 0, bytes := out } ∧
      (out = ps.flatten ∨ ∃ j k b, j < k ∧ k < ps.length ∧ ps[j]? = some b ∧
        (w.codec.packet b).pid = 0 ∧ out = b ++ (ps.drop k).flatten) := by
  have e1 : (dur.map fun v : Nat => (v : Int)).getD 0 = (dur.getD 0 : Nat) := by cases dur <;> rfl
  have e2 : (pkts.map fun v : Nat => (v : Int)).getD 0 = (pkts.getD 0 : Nat) := by cases pkts <;> rfl
  obtain ⟨o, o1, o2, o3⟩ := (C85_seeker_options_partial sid (dur.map fun v : Nat => (v : Int))
    (pkts.map fun v : Nat => (v : Int)) (by
      intro d hd
      obtain ⟨v, _, rfl⟩ := Option.map_eq_some_iff.1 hd
      omega) (by
      intro p hd
      obtain ⟨v, hv, rfl⟩ := Option.map_eq_some_iff.1 hd
      have := hp v hv
      omega)).1 (by rw [e1, e2]; omega)
  have o4 := (C84_ids_partial sid (by omega)).2.2.2.1 _ _ o o1
  have ho : o = { sid := sid, maxDuration := dur.getD 0, maxPackets := pkts.getD 0 } := by
    cases o
    simp only [StartSeeker.Opt.mk.injEq]
    simp only at o2 o3 o4
    refine ⟨by omega, by rw [o2, e1], by omega⟩
  rw [← ho] at h hf
  obtain ⟨n, s', m, d, h1, h2⟩ := C88_bytes w.codec hc w.tables o _ ps _ (reading hr) w.write hw
    s items h hpl hf
  refine ⟨d.out, ?_, h2⟩
  rw [main, o1]
  change Main.seekStart w o = _
  rw [Main.seekStart, feed_exec.2 h1]
  rfl

/-- The stream of C88, at most 4 packets held. -/
example : let w := { C95ex.world with tables := C88ex.tabs }
    Faithful w.codec ∧ Reads w C68ex.ps ∧ (∀ x ∈ w.write, 0 ≤ x) ∧
    (∃ s items, StartSeeker.run { sid := 1, maxDuration := (some 1000).getD 0, maxPackets := (some 4).getD 0 }
        StartSeeker.init (seen (input w.codec w.tables) 0 C68ex.ps) = .ok (s, items) ∧
      Spec.StartSeeker.Placed items ∧
      Spec.StartSeeker.Fresh { sid := 1, maxDuration := (some 1000).getD 0, maxPackets := (some 4).getD 0 } items) ∧
    ∃ e, main w (.seekStart 1 (some 1000) (some 4)) = .ok e ∧ (e.code = 0 ∧ e.bytes.length = 188 * 9) := by
  refine ⟨C68ex.faithful, C95ex.reads, C95ex.writes, ?_, ?_⟩
  · obtain ⟨s, items, h1, h2, h3, _⟩ := C88ex.run
    exact ⟨s, items, h1, h2, h3⟩
  · obtain ⟨e, h1, h2⟩ := C95ex.check
      (r := main { C95ex.world with tables := C88ex.tabs } (.seekStart 1 (some 1000) (some 4)))
      (P := fun e => e.code = 0 ∧ e.bytes.length = 188 * 9) (by decide +kernel)
    exact ⟨e, h1, of_decide_eq_true h2⟩

end Mirakc.Props
