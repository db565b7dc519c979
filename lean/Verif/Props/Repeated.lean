import Verif.Spec.Repeated
import Verif.Proof.RepeatedMain
import Verif.Props.Again
/-
C131: tables that are repeated.
-/
namespace Mirakc.Props
open Mirakc.Main Mirakc.Spec.Main Mirakc.Spec.Pipeline Mirakc.Spec.ServiceFilter Mirakc.Spec.Repeated

/-- **C131**, filter-service.  Let `uss` be the tables the filter receives from the stream, with any number of
repetitions of tables in force.  If the packets complete the tables `uss`, the command does the same. -/
theorem C131_filter_service (w : World) (ps : List (List UInt8)) (hr : Reads w ps) (sid : Nat) (hs : sid < 65536)
    (f : ServiceFilter.St) (items : List ServiceFilter.Item)
    (hrun : ServiceFilter.run { sid := sid } (ServiceFilter.init { sid := sid })
      (seen (arrived w.codec w.tables) 0 ps) = .ok (f, items))
    (uss : List (List Table)) (hu : Repeated [] (items.map (·.handled)) uss)
    (tabs : Nat → List Table) (ht : ∀ k l, uss[k]? = some l → tabs k = l) :
    main { w with tables := tabs } (.filterService (some sid)) = main w (.filterService (some sid)) := by
  have hsid : Options.toUint16 (sid : Int) = sid := by unfold Options.toUint16; omega
  simp only [main, Options.loadServiceFilter, hsid, filterService, Pipeline.filterService]
  have key := feed_repeats hr hrun hu ht (tabs2' := w.tables2) (S := Eq)
    (k := Pipeline.via (fun _ => Pipeline.outBytes w.codec) StdoutSink.sink)
    (k' := Pipeline.via (fun _ => Pipeline.outBytes w.codec) StdoutSink.sink)
    ⟨fun a b hab => by subst hab; cases (Pipeline.via (fun _ => Pipeline.outBytes w.codec) StdoutSink.sink).finish a <;> rfl,
      fun a b hab => by subst hab; rfl⟩
    (d := (0, StdoutSink.init w.write))
    ⟨rfl, rfl, fun _ => follows_same (fun _ => rfl) _ _⟩
    (fin := fun r => Except.ok (ε := Stop) { code := r.1, bytes := r.2.2.out : Ended })
    (fun c a b hab => by subst hab; rfl)
  exact key

/-- **C131**, filter-program.  The same for the tables received by both filters. -/
theorem C131_filter_program (w : World) (ps : List (List UInt8)) (hr : Reads w ps) (a : Options.ProgramArgs)
    (o : ProgramFilter.Opt) (ho : Options.loadProgramFilter a = .ok o)
    (f : ServiceFilter.St) (items : List ServiceFilter.Item)
    (hrun : ServiceFilter.run { sid := o.sid } (ServiceFilter.init { sid := o.sid })
      (seen (arrived w.codec w.tables) 0 ps) = .ok (f, items))
    (uss : List (List Table)) (hu : Repeated [] (items.map (·.handled)) uss)
    (tabs : Nat → List Table) (ht : ∀ k l, uss[k]? = some l → tabs k = l)
    (g : ProgramFilter.St) (items2 : List ProgramFilter.Item)
    (hrun2 : ProgramFilter.run w.extra o (ProgramFilter.init o) (seen (forwarded w.codec w.tables2) 0 (sent items)) =
      .ok (g, items2))
    (uss2 : List (List Table)) (hu2 : Repeated [] (items2.map (·.handled)) uss2)
    (tabs2 : Nat → ServiceFilter.Out → List Table)
    (ht2 : ∀ k x l, (sent items)[k]? = some x → uss2[k]? = some l → tabs2 k x = l) :
    main { w with tables := tabs, tables2 := tabs2 } (.filterProgram a) = main w (.filterProgram a) := by
  rw [main, main, ho]
  exact program_repeats hr hrun hu ht hrun2 hu2 ht2

/-- **C131**, record-service.  The same for the tables received by the service filter and the recorder: the same
messages, the same operations on the file, the same exit code. -/
theorem C131_record_service (w : World) (ps : List (List UInt8)) (hr : Reads w ps) (sid chunk num : Int) (start : Option Nat)
    (o : ServiceRecorder.Opt) (ho : Options.loadRecorder sid chunk num start = .ok o)
    (f : ServiceFilter.St) (items : List ServiceFilter.Item)
    (hrun : ServiceFilter.run { sid := o.sid } (ServiceFilter.init { sid := o.sid })
      (seen (arrived w.codec w.tables) 0 ps) = .ok (f, items))
    (uss : List (List Table)) (hu : Repeated [] (items.map (·.handled)) uss)
    (tabs : Nat → List Table) (ht : ∀ k l, uss[k]? = some l → tabs k = l) (code : Nat) (h : ServiceRecorder.Hist)
    (hrec : Spec.ServiceRecorder.Recorded o w.file (seen (stored w.codec w.tables2 w.times) 0 (sent items)) code h)
    (uss2 : List (List Table)) (hu2 : Repeated [] (h.items.map (·.handled)) uss2)
    (tabs2 : Nat → ServiceFilter.Out → List Table)
    (ht2 : ∀ k x l, (sent items)[k]? = some x → uss2[k]? = some l → tabs2 k x = l) :
    main { w with tables := tabs, tables2 := tabs2 } (.recordService sid chunk num start) =
      main w (.recordService sid chunk num start) := by
  rw [main, main, ho]
  exact recorder_repeats hr hrun hu ht hrec hu2 ht2

/-! Two streams of the same packets, which may also contain tables that nobody receives. -/

/-- **C131**, filter-service, for two streams: if the tables received from the second stream are those received from
the first one with repetitions, the command does the same. -/
theorem C131_filter_service_received (w : World) (ps : List (List UInt8)) (hr : Reads w ps) (sid : Nat) (hs : sid < 65536)
    (tabs : Nat → List Table) (f f' : ServiceFilter.St) (items items' : List ServiceFilter.Item)
    (hrun : ServiceFilter.run { sid := sid } (ServiceFilter.init { sid := sid })
      (seen (arrived w.codec w.tables) 0 ps) = .ok (f, items))
    (hrun' : ServiceFilter.run { sid := sid } (ServiceFilter.init { sid := sid })
      (seen (arrived w.codec tabs) 0 ps) = .ok (f', items'))
    (hu : Repeated [] (items.map (·.handled)) (items'.map (·.handled))) :
    main { w with tables := tabs } (.filterService (some sid)) = main w (.filterService (some sid)) := by
  have h1 := C131_filter_service w ps hr sid hs f items hrun _ hu _ given_tables
  have h2 := C131_filter_service { w with tables := tabs } ps hr sid hs f' items' hrun' _ (repeated_refl _ _) _ given_tables
  exact h2.symm.trans h1

/-- **C131**, filter-program, for two streams. -/
theorem C131_filter_program_received (w : World) (ps : List (List UInt8)) (hr : Reads w ps) (a : Options.ProgramArgs)
    (o : ProgramFilter.Opt) (ho : Options.loadProgramFilter a = .ok o)
    (tabs : Nat → List Table) (f f' : ServiceFilter.St) (items items' : List ServiceFilter.Item)
    (hrun : ServiceFilter.run { sid := o.sid } (ServiceFilter.init { sid := o.sid })
      (seen (arrived w.codec w.tables) 0 ps) = .ok (f, items))
    (hrun' : ServiceFilter.run { sid := o.sid } (ServiceFilter.init { sid := o.sid })
      (seen (arrived w.codec tabs) 0 ps) = .ok (f', items'))
    (hu : Repeated [] (items.map (·.handled)) (items'.map (·.handled)))
    (tabs2 : Nat → ServiceFilter.Out → List Table) (g g' : ProgramFilter.St) (items2 items2' : List ProgramFilter.Item)
    (hrun2 : ProgramFilter.run w.extra o (ProgramFilter.init o) (seen (forwarded w.codec w.tables2) 0 (sent items)) =
      .ok (g, items2))
    (hrun2' : ProgramFilter.run w.extra o (ProgramFilter.init o) (seen (forwarded w.codec tabs2) 0 (sent items')) =
      .ok (g', items2'))
    (hu2 : Repeated [] (items2.map (·.handled)) (items2'.map (·.handled))) :
    main { w with tables := tabs, tables2 := tabs2 } (.filterProgram a) = main w (.filterProgram a) := by
  have h1 := C131_filter_program w ps hr a o ho f items hrun _ hu _ given_tables g items2 hrun2 _ hu2
    (fun k _ => ((items2'.map (·.handled))[k]?).getD []) (fun k x l _ h => given_tables k l h)
  have h2 := C131_filter_program { w with tables := tabs, tables2 := tabs2 } ps hr a o ho f' items' hrun' _
    (repeated_refl _ _) _ given_tables g' items2' hrun2' _ (repeated_refl _ _)
    (fun k _ => ((items2'.map (·.handled))[k]?).getD []) (fun k x l _ h => given_tables k l h)
  exact h2.symm.trans h1

/-- **C131**, record-service, for two streams. -/
theorem C131_record_service_received (w : World) (ps : List (List UInt8)) (hr : Reads w ps) (sid chunk num : Int)
    (start : Option Nat) (o : ServiceRecorder.Opt) (ho : Options.loadRecorder sid chunk num start = .ok o)
    (tabs : Nat → List Table) (f f' : ServiceFilter.St) (items items' : List ServiceFilter.Item)
    (hrun : ServiceFilter.run { sid := o.sid } (ServiceFilter.init { sid := o.sid })
      (seen (arrived w.codec w.tables) 0 ps) = .ok (f, items))
    (hrun' : ServiceFilter.run { sid := o.sid } (ServiceFilter.init { sid := o.sid })
      (seen (arrived w.codec tabs) 0 ps) = .ok (f', items'))
    (hu : Repeated [] (items.map (·.handled)) (items'.map (·.handled)))
    (tabs2 : Nat → ServiceFilter.Out → List Table) (code code' : Nat) (h h' : ServiceRecorder.Hist)
    (hrec : Spec.ServiceRecorder.Recorded o w.file (seen (stored w.codec w.tables2 w.times) 0 (sent items)) code h)
    (hrec' : Spec.ServiceRecorder.Recorded o w.file (seen (stored w.codec tabs2 w.times) 0 (sent items')) code' h')
    (hu2 : Repeated [] (h.items.map (·.handled)) (h'.items.map (·.handled))) :
    main { w with tables := tabs, tables2 := tabs2 } (.recordService sid chunk num start) =
      main w (.recordService sid chunk num start) := by
  have h1 := C131_record_service w ps hr sid chunk num start o ho f items hrun _ hu _ given_tables code h hrec _ hu2
    (fun k _ => ((h'.items.map (·.handled))[k]?).getD []) (fun k x l _ h => given_tables k l h)
  have h2 := C131_record_service { w with tables := tabs, tables2 := tabs2 } ps hr sid chunk num start o ho f' items' hrun' _
    (repeated_refl _ _) _ given_tables code' h' hrec' _ (repeated_refl _ _)
    (fun k _ => ((h'.items.map (·.handled))[k]?).getD []) (fun k x l _ h => given_tables k l h)
  exact h2.symm.trans h1

namespace C131ex

/-- The rewritten PAT. -/
def pat1 : Table := { sourcePid := 0, body := .pat C68ex.pat1 }
/-- An event that lasts 100 seconds. -/
def eit : Table := { sourcePid := 0x12, body := .eit (C37ex.eit C37ex.ev1) }
/-- A stream in which PAT, PMT and EIT are repeated. -/
def ps : List (List UInt8) :=
  [ C68ex.raw 0 0 1, C68ex.raw 0x100 0 2, C68ex.raw 0x14 0 3, C68ex.raw 0x12 0 3, C68ex.clk 0x1ff 900100,
    C68ex.clk 0x1ff 900200, C68ex.raw 0x12 1 3, C68ex.raw 0 1 1, C68ex.raw 0x100 1 2, C68ex.clk 0x1ff 900300 ]
/-- The tables completed by its packets, without the repetitions. -/
def ts : List (List Table) := [[C68ex.pat], [C68ex.pmt], [C37ex.tot], [eit]]
def ts2 : List (List Table) := [[pat1], [C68ex.pmt], [C37ex.tot], [eit]]
/-- What the filters receive, with the repetitions: another place, and a new version of the PMT. -/
def us : List (List Table) :=
  [[C68ex.pat], [C68ex.pmt], [], [], [], [], [], [{ C68ex.pat with firstPacket := 7 }],
    [{ C68ex.pmt with firstPacket := 8, version := 1 }], []]
def us2 : List (List Table) :=
  [[pat1], [C68ex.pmt], [C37ex.tot], [eit], [], [], [{ eit with firstPacket := 6 }], [{ pat1 with firstPacket := 7 }],
    [{ C68ex.pmt with firstPacket := 8, version := 1 }], []]
def world : World :=
  { C95ex.world with read := [some ps.flatten], tables := fun k => (ts[k]?).getD [], tables2 := fun k _ => (ts2[k]?).getD [] }
theorem reads : Reads world ps := by
  refine ⟨fun r hr => ?_, ?_⟩
  · have : ∀ r ∈ world.read, (r.getD []).length ≤ 16384 := by decide +kernel
    exact this _ hr
  · have : contents world = ps.flatten := by decide +kernel
    rw [this]
    exact Mirakc.Pipeline.packets_flatten (by decide +kernel)
/-- The run of the service filter. -/
def result := ServiceFilter.run { sid := 1 } (ServiceFilter.init { sid := 1 }) (seen (arrived world.codec world.tables) 0 ps)
def items : List ServiceFilter.Item := match result with | .ok x => x.2 | .error _ => []
theorem ran : ∃ f, ServiceFilter.run { sid := 1 } (ServiceFilter.init { sid := 1 })
    (seen (arrived world.codec world.tables) 0 ps) = .ok (f, items) := by
  have key : (match result with | .ok _ => true | .error _ => false) = true := by decide +kernel
  cases h : result with
  | error e => rw [h] at key; cases key
  | ok r =>
    refine ⟨r.1, ?_⟩
    have hi : items = r.2 := by unfold items; rw [h]
    rw [hi]; exact h
theorem received : Repeated [] (items.map (·.handled)) us := repeatedCheck_sound (by decide +kernel)
def opt : ServiceRecorder.Opt := { sid := 1, chunkSize := 8192, numChunks := 2, startPos := 8192 }
/-- filter-program of the event; packets are sent before it starts. -/
def args : Options.ProgramArgs := { C95ex.args with eid := 1, preStreaming := true }
def popt : ProgramFilter.Opt :=
  match Options.loadProgramFilter args with
  | .ok o => o
  | .error _ => { sid := 0, eid := 0, clockPid := 0, clockPcr := 0, clockTime := 0 }
theorem loads : Options.loadProgramFilter args = .ok popt := by
  have key : (match Options.loadProgramFilter args with | .ok _ => true | .error _ => false) = true := by decide +kernel
  unfold popt
  cases h : Options.loadProgramFilter args with
  | error e => rw [h] at key; cases key
  | ok r => rfl

/-- A stream whose PMT changes; a PAT is repeated before. -/
def sps : List (List UInt8) :=
  [ C68ex.raw 0 0 1, C68ex.raw 0x100 0 2, C68ex.clk 0x1ff 900100, C68ex.raw 0 1 1, C68ex.raw 0x100 1 3, C68ex.raw 0x111 1 3 ]
def sts : List (List Table) := [[C34ex.pat 0], [C34ex.pmt C34ex.pmt0 1], [], [], [C34ex.pmt C34ex.pmt1 4], []]
def sus : List (List Table) := [[C34ex.pat 0], [C34ex.pmt C34ex.pmt0 1], [], [C34ex.pat 3], [C34ex.pmt C34ex.pmt1 4], []]
def sworld : World := { C95ex.world with read := [some sps.flatten], tables := fun k => (sts[k]?).getD [] }
theorem sreads : Reads sworld sps := by
  refine ⟨fun r hr => ?_, ?_⟩
  · have : ∀ r ∈ sworld.read, (r.getD []).length ≤ 16384 := by decide +kernel
    exact this _ hr
  · have : contents sworld = sps.flatten := by decide +kernel
    rw [this]
    exact Mirakc.Pipeline.packets_flatten (by decide +kernel)

end C131ex

/-- filter-service: PAT and PMT repeated. -/
example : ∃ f, ServiceFilter.run { sid := 1 } (ServiceFilter.init { sid := 1 })
      (seen (arrived C131ex.world.codec C131ex.world.tables) 0 C131ex.ps) = .ok (f, C131ex.items) ∧
    Repeated [] (C131ex.items.map (·.handled)) C131ex.us ∧
    ∃ e, main C131ex.world (.filterService (some 1)) = .ok e ∧ e.bytes.length = 10 * 188 ∧
      main { C131ex.world with tables := fun k => (C131ex.us[k]?).getD [] } (.filterService (some 1)) = .ok e := by
  obtain ⟨f, hf⟩ := C131ex.ran
  obtain ⟨e, h1, h2⟩ := C95ex.check (r := main C131ex.world (.filterService (some 1)))
    (P := fun e => decide (e.bytes.length = 10 * 188)) (by decide +kernel)
  refine ⟨f, hf, C131ex.received, e, h1, of_decide_eq_true h2, ?_⟩
  rw [← h1]
  exact C131_filter_service C131ex.world C131ex.ps C131ex.reads 1 (by decide) f _ hf _ C131ex.received _ given_tables

/-- filter-program: PAT, PMT and EIT repeated. -/
example : ∃ e, main C131ex.world (.filterProgram C131ex.args) = .ok e ∧ e.bytes.length = 8 * 188 ∧
    main { C131ex.world with tables := fun k => (C131ex.us[k]?).getD [], tables2 := fun k _ => (C131ex.us2[k]?).getD [] }
      (.filterProgram C131ex.args) = .ok e := by
  obtain ⟨f, hf⟩ := C131ex.ran
  obtain ⟨e, h1, h2⟩ := C95ex.check (r := main C131ex.world (.filterProgram C131ex.args))
    (P := fun e => decide (e.bytes.length = 8 * 188)) (by decide +kernel)
  obtain ⟨g, hg⟩ : ∃ g : ProgramFilter.St × List ProgramFilter.Item, ProgramFilter.run C131ex.world.extra C131ex.popt
      (ProgramFilter.init C131ex.popt) (seen (forwarded C131ex.world.codec C131ex.world.tables2) 0 (sent C131ex.items)) = .ok g ∧
      repeatedCheck [] (g.2.map (·.handled)) C131ex.us2 = true := by
    have key : (match ProgramFilter.run C131ex.world.extra C131ex.popt (ProgramFilter.init C131ex.popt)
        (seen (forwarded C131ex.world.codec C131ex.world.tables2) 0 (sent C131ex.items)) with
      | .ok g => repeatedCheck [] (g.2.map (·.handled)) C131ex.us2 | .error _ => false) = true := by decide +kernel
    split at key
    · next g hg => exact ⟨g, hg, key⟩
    · cases key
  refine ⟨e, h1, of_decide_eq_true h2, ?_⟩
  rw [← h1]
  exact C131_filter_program C131ex.world C131ex.ps C131ex.reads C131ex.args C131ex.popt C131ex.loads f _ hf _ C131ex.received
    _ given_tables g.1 g.2 hg.1 _ (repeatedCheck_sound hg.2) _ (fun k x l _ h => given_tables k l h)

/-- record-service: the messages of an event are the same. -/
example : ∃ e, main C131ex.world (.recordService 1 8192 2 (some 8192)) = .ok e ∧ e.docs.length = 4 ∧
    main { C131ex.world with tables := fun k => (C131ex.us[k]?).getD [], tables2 := fun k _ => (C131ex.us2[k]?).getD [] }
      (.recordService 1 8192 2 (some 8192)) = .ok e := by
  obtain ⟨f, hf⟩ := C131ex.ran
  obtain ⟨e, h1, h2⟩ := C95ex.check (r := main C131ex.world (.recordService 1 8192 2 (some 8192)))
    (P := fun e => decide (e.docs.length = 4)) (by decide +kernel)
  obtain ⟨c, h, r1, r2⟩ := C37ex.recorded_of_check (o := C131ex.opt) (results := C131ex.world.file)
    (is := seen (stored C131ex.world.codec C131ex.world.tables2 C131ex.world.times) 0 (sent C131ex.items))
    (P := fun _ h => repeatedCheck [] (h.items.map (·.handled)) C131ex.us2) (by decide +kernel)
  refine ⟨e, h1, of_decide_eq_true h2, ?_⟩
  rw [← h1]
  exact C131_record_service C131ex.world C131ex.ps C131ex.reads 1 8192 2 (some 8192) C131ex.opt rfl f _ hf _ C131ex.received
    _ given_tables c h r1 _ (repeatedCheck_sound r2) _ (fun k x l _ h => given_tables k l h)

namespace C131ex

/-- The tables completed by the packets, with those received by nobody. -/
def all : List (List Table) :=
  [[C68ex.pat], [C68ex.pmt], [C37ex.tot], [eit], [], [], [{ eit with firstPacket := 6 }], [{ C68ex.pat with firstPacket := 7 }],
    [{ C68ex.pmt with firstPacket := 8, version := 1 }], []]
def items' : List ServiceFilter.Item :=
  match ServiceFilter.run { sid := 1 } (ServiceFilter.init { sid := 1 })
    (seen (arrived world.codec fun k => (all[k]?).getD []) 0 ps) with
  | .ok x => x.2
  | .error _ => []
theorem ran' : ∃ f, ServiceFilter.run { sid := 1 } (ServiceFilter.init { sid := 1 })
    (seen (arrived world.codec fun k => (all[k]?).getD []) 0 ps) = .ok (f, items') := by
  have key : (match ServiceFilter.run { sid := 1 } (ServiceFilter.init { sid := 1 })
    (seen (arrived world.codec fun k => (all[k]?).getD []) 0 ps) with | .ok _ => true | .error _ => false) = true := by decide +kernel
  unfold items'
  split at key
  · next x hx => exact ⟨x.1, by rw [hx]⟩
  · cases key
theorem received' : Repeated [] (items.map (·.handled)) (items'.map (·.handled)) := repeatedCheck_sound (by decide +kernel)
/-- The run of the program filter. -/
def prun (tabs : Nat → ServiceFilter.Out → List Table) (its : List ServiceFilter.Item) :=
  ProgramFilter.run world.extra popt (ProgramFilter.init popt) (seen (forwarded world.codec tabs) 0 (sent its))
/-- The run of the recorder. -/
def rrun (tabs : Nat → ServiceFilter.Out → List Table) (its : List ServiceFilter.Item) :=
  C37ex.exec opt world.file (seen (stored world.codec tabs world.times) 0 (sent its))

end C131ex

/-- The same for two streams: the tables received by nobody are there. -/
example : main { C131ex.world with tables := fun k => (C131ex.all[k]?).getD [] } (.filterService (some 1)) =
      main C131ex.world (.filterService (some 1)) ∧
    main { C131ex.world with tables := fun k => (C131ex.all[k]?).getD [], tables2 := fun k _ => (C131ex.us2[k]?).getD [] }
        (.filterProgram C131ex.args) = main C131ex.world (.filterProgram C131ex.args) ∧
    main { C131ex.world with tables := fun k => (C131ex.all[k]?).getD [], tables2 := fun k _ => (C131ex.us2[k]?).getD [] }
        (.recordService 1 8192 2 (some 8192)) = main C131ex.world (.recordService 1 8192 2 (some 8192)) := by
  obtain ⟨f, hf⟩ := C131ex.ran
  obtain ⟨f', hf'⟩ := C131ex.ran'
  refine ⟨C131_filter_service_received C131ex.world C131ex.ps C131ex.reads 1 (by decide) _ f f' _ _ hf hf' C131ex.received', ?_, ?_⟩
  · have key : (match C131ex.prun C131ex.world.tables2 C131ex.items, C131ex.prun (fun k _ => (C131ex.us2[k]?).getD []) C131ex.items' with
      | .ok g, .ok g' => repeatedCheck [] (g.2.map (·.handled)) (g'.2.map (·.handled)) | _, _ => false) = true := by decide +kernel
    split at key
    · next g g' hg hg' =>
      exact C131_filter_program_received C131ex.world C131ex.ps C131ex.reads C131ex.args C131ex.popt C131ex.loads _ f f' _ _ hf hf'
        C131ex.received' _ g.1 g'.1 g.2 g'.2 hg hg' (repeatedCheck_sound key)
    · cases key
  · have key : (match C131ex.rrun C131ex.world.tables2 C131ex.items, C131ex.rrun (fun k _ => (C131ex.us2[k]?).getD []) C131ex.items' with
      | .ok g, .ok g' => repeatedCheck [] (g.2.items.map (·.handled)) (g'.2.items.map (·.handled)) | _, _ => false) = true := by
      decide +kernel
    split at key
    · next g g' hg hg' =>
      exact C131_record_service_received C131ex.world C131ex.ps C131ex.reads 1 8192 2 (some 8192) C131ex.opt rfl _ f f' _ _ hf hf'
        C131ex.received' _ g.1 g'.1 g.2 g'.2 (C37ex.recorded_iff.2 hg) (C37ex.recorded_iff.2 hg') (repeatedCheck_sound key)
    · cases key

/-- **C131** does not extend to seek-start: it begins its output with the last PAT before the change of the PMT.  So a
PAT that is repeated changes the output. -/
theorem C131_seek_start_differs :
    ∃ (w : World) (ps : List (List UInt8)) (tss uss : List (List Table)) (s : StartSeeker.St) (items : List StartSeeker.Item)
      (a b : List UInt8), Reads w ps ∧ (w.tables = fun k => (tss[k]?).getD []) ∧ Repeated [] tss uss ∧
      StartSeeker.run { sid := 1, maxDuration := 1000, maxPackets := 5 } StartSeeker.init
        (seen (arrived w.codec w.tables) 0 ps) = .ok (s, items) ∧ items.map (·.handled) = tss ∧
      main w (.seekStart 1 (some 1000) (some 5)) = .ok { code := 0, bytes := a } ∧
      main { w with tables := fun k => (uss[k]?).getD [] } (.seekStart 1 (some 1000) (some 5)) = .ok { code := 0, bytes := b } ∧
      a ≠ b := by
  obtain ⟨x, hx, hx2⟩ : ∃ x : StartSeeker.St × List StartSeeker.Item,
      StartSeeker.run { sid := 1, maxDuration := 1000, maxPackets := 5 } StartSeeker.init
        (seen (arrived C131ex.sworld.codec C131ex.sworld.tables) 0 C131ex.sps) = .ok x ∧ x.2.map (·.handled) = C131ex.sts := by
    have key : (match StartSeeker.run { sid := 1, maxDuration := 1000, maxPackets := 5 } StartSeeker.init
        (seen (arrived C131ex.sworld.codec C131ex.sworld.tables) 0 C131ex.sps) with
      | .ok x => decide (x.2.map (·.handled) = C131ex.sts) | .error _ => false) = true := by decide +kernel
    split at key
    · next x hx => exact ⟨x, hx, of_decide_eq_true key⟩
    · cases key
  obtain ⟨e1, h1, k1⟩ := C95ex.check (r := main C131ex.sworld (.seekStart 1 (some 1000) (some 5)))
    (P := fun e => decide (e = { code := 0, bytes := e.bytes : Ended } ∧ e.bytes[3]? = some 16)) (by decide +kernel)
  obtain ⟨e2, h2, k2⟩ := C95ex.check
    (r := main { C131ex.sworld with tables := fun k => (C131ex.sus[k]?).getD [] } (.seekStart 1 (some 1000) (some 5)))
    (P := fun e => decide (e = { code := 0, bytes := e.bytes : Ended } ∧ e.bytes[3]? = some 17)) (by decide +kernel)
  have k1 := of_decide_eq_true k1
  have k2 := of_decide_eq_true k2
  rw [k1.1] at h1
  rw [k2.1] at h2
  refine ⟨C131ex.sworld, C131ex.sps, C131ex.sts, C131ex.sus, x.1, x.2, e1.bytes, e2.bytes, C131ex.sreads, rfl,
    repeatedCheck_sound (by decide +kernel), hx, hx2, h1, h2, fun h => ?_⟩
  have := k1.2
  rw [h, k2.2] at this
  cases this

end Mirakc.Props
