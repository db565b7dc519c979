import Verif.Spec.Later
import Verif.Proof.LaterPes
import Verif.Props.Idle
import Verif.Props.MainFilters
/-
C128: the same broadcast at another time is treated alike.
-/
namespace Mirakc.Props
open Mirakc.Main Mirakc.Spec.Main Mirakc.Spec.Pipeline

/-- The times given to filter-program, moved. -/
theorem toJst_later {t T : Int} (h : Dated t) (h' : Dated (t + T)) :
    Options.toJst t = .ok (t + 32400000) ∧ Options.toJst (t + T) = .ok (t + 32400000 + T) := by
  obtain ⟨h1, h2⟩ := h
  obtain ⟨h3, h4⟩ := h'
  have e : ∀ x : Int, unixToJst x = x + 32400000 := fun x => by simp only [unixToJst, jstTzOffset]; omega
  unfold Options.toJst
  rw [if_pos, if_pos, e, e]
  · exact ⟨rfl, congrArg Except.ok (by omega)⟩
  · simp only [e, Bool.and_eq_true, decide_eq_true_eq]
    omega
  · simp only [e, Bool.and_eq_true, decide_eq_true_eq]
    omega

theorem loadWait_later {x : Option Int} {T : Int} (h : ∀ t, x = some t → Dated t ∧ Dated (t + T)) :
    ∃ y, Options.loadWaitUntil x = .ok y ∧ Options.loadWaitUntil (x.map (· + T)) = .ok (y.map (· + T)) := by
  cases x with
  | none => exact ⟨none, rfl, rfl⟩
  | some t =>
    obtain ⟨h1, h2⟩ := toJst_later (h t rfl).1 (h t rfl).2
    refine ⟨some (t + 32400000), ?_, ?_⟩
    · rw [Options.loadWaitUntil, h1]
      rfl
    · show Options.loadWaitUntil (some (t + T)) = _
      rw [Options.loadWaitUntil, h2]
      rfl

theorem loadProgram_later (a : Options.ProgramArgs) (T : Int) (hm : Movable T (.filterProgram a)) :
    Options.loadProgramFilter { a with clockTime := a.clockTime + T, waitUntil := a.waitUntil.map (· + T) } =
      (Options.loadProgramFilter a).map (laterProgram T) := by
  obtain ⟨h1, h2, h3⟩ := hm
  obtain ⟨k1, k2⟩ := toJst_later h1 h2
  obtain ⟨y, k3, k4⟩ := loadWait_later h3
  unfold Options.loadProgramFilter
  rw [k1, k2, k3, k4]
  cases Options.loadComponentTags a.audioTags with
  | error e => rfl
  | ok x =>
    cases Options.loadComponentTags a.videoTags with
    | error e => rfl
    | ok x => rfl

/-- **C128**.  The same stream broadcast at another time, and received at another time, is treated
alike: the same faults, exit codes, bytes and file operations, and the same documents with their times moved. -/
theorem C128_later (w : World) (ps : List (List UInt8)) (hr : Reads w ps) (T L : Int) (cmd : Cmd)
    (hm : Movable T cmd) : main (later T L w) (laterCmd T cmd) = (main w cmd).map (laterEnded T) := by
  cases cmd with
  | scanServices sids xsids =>
    simp only [main, laterCmd]
    cases sidSet sids with
    | error e => rfl
    | ok x =>
      cases sidSet xsids with
      | error e => rfl
      | ok y => exact scan_later hr T L _
  | syncClocks sids xsids =>
    simp only [main, laterCmd]
    cases sidSet sids with
    | error e => rfl
    | ok x =>
      cases sidSet xsids with
      | error e => rfl
      | ok y => exact sync_later hr T L _
  | collectEits sids xsids limit st oa oo =>
    simp only [main, laterCmd]
    cases loadEits sids xsids limit st oa oo with
    | error e => rfl
    | ok o => exact eits_later hr T L o hm
  | collectEitpf sids st pr fo =>
    simp only [main, laterCmd]
    cases loadEitpf sids st pr fo with
    | error e => rfl
    | ok o => exact eitpf_later hr T L o
  | collectLogos => exact logos_later hr T L
  | filterService sid => exact service_later hr T L _
  | filterProgram a =>
    simp only [main, laterCmd]
    rw [loadProgram_later a T hm]
    cases Options.loadProgramFilter a with
    | error e => rfl
    | ok o => exact program_later hr T L o
  | filterProgramMetadata sid => exact metadata_later hr T L _
  | recordService sid cs nc sp =>
    simp only [main, laterCmd]
    cases Options.loadRecorder sid cs nc sp with
    | error e => rfl
    | ok o => exact record_later hr T L o
  | trackAirtime sid eid => exact airtime_later hr T L _
  | seekStart sid d n =>
    simp only [main, laterCmd]
    cases Options.loadSeeker sid d n with
    | error e => rfl
    | ok o => exact seek_later hr T L o
  | printPes => exact pes_later hr T L

namespace C128ex
/-- A year. -/
def year : Int := 31536000000
/-- A section of the second segment, a TOT at three o'clock, the other section of the segment, and one of
another service. -/
def ps : List (List UInt8) := [C68ex.raw 0x12 0 1, C68ex.raw 0x14 0 1, C68ex.raw 0x12 0 2, C68ex.raw 0x12 0 3]
def night : World :=
  { C90ex.world with
    read := [some ps.flatten], tables := fun _ => []
    sections := fun k => match k with
      | 0 => [.sect (C43ex.sec 101 0x50 1 8 9 9 0x50)]
      | 1 => [.table { sourcePid := 0x14, body := .tot 10800000 }]
      | 2 => [.sect (C43ex.sec 101 0x50 1 9 9 9 0x50)]
      | 3 => [.sect (C43ex.sec 102 0x50 1 0 0 0 0x50)]
      | _ => [] }
theorem reads_night : Reads night ps := by
  refine ⟨?_, (by decide +kernel : contents night = ps.flatten) ▸ Mirakc.Pipeline.packets_flatten (by decide +kernel)⟩
  intro r hr
  have : ∀ r ∈ night.read, (r.getD []).length ≤ 16384 := by decide +kernel
  exact this _ hr
theorem year_dated : Dated C95ex.args.clockTime ∧ Dated (C95ex.args.clockTime + year) := by
  refine ⟨⟨?_, ?_⟩, ?_, ?_⟩ <;> decide
end C128ex

/-- filter-program a year later sends the same bytes. -/
example : Reads C95ex.world C68ex.ps ∧ Movable C128ex.year (.filterProgram C95ex.args) ∧
    ∃ e, main C95ex.world (.filterProgram C95ex.args) = .ok e ∧ e.bytes ≠ [] ∧
      ∃ e', main (later C128ex.year 77 C95ex.world)
        (.filterProgram { C95ex.args with clockTime := C95ex.args.clockTime + C128ex.year }) = .ok e' ∧ e'.bytes = e.bytes := by
  have hm : Movable C128ex.year (.filterProgram C95ex.args) :=
    ⟨C128ex.year_dated.1, C128ex.year_dated.2, fun t h => by cases h⟩
  obtain ⟨e, h1, h2⟩ := C95ex.check (r := main C95ex.world (.filterProgram C95ex.args)) (P := fun e => decide (e.bytes ≠ []))
    (by decide +kernel)
  refine ⟨C95ex.reads, hm, e, h1, of_decide_eq_true h2, laterEnded C128ex.year e, ?_, rfl⟩
  have := C128_later C95ex.world C68ex.ps C95ex.reads C128ex.year 77 (.filterProgram C95ex.args) hm
  rw [h1] at this
  exact this

/-- sync-clocks a year later reports the same clock with a time a year later. -/
example : ∃ e, main (later C128ex.year 0 C90ex.world) (.syncClocks none none) = .ok e ∧
    e.docs = [.clocks [{ C90ex.clock with time := C90ex.clock.time + C128ex.year }]] := by
  obtain ⟨e, h1, h2⟩ := C95ex.check (r := main C90ex.world (.syncClocks none none))
    (P := fun e => decide (e.docs = [.clocks [C90ex.clock]])) (by decide +kernel)
  have := C128_later C90ex.world C90ex.ps C90ex.reads C128ex.year 0 (.syncClocks none none) trivial
  rw [h1] at this
  refine ⟨_, this, ?_⟩
  show e.docs.map _ = _
  rw [of_decide_eq_true h2]
  rfl

/-- **C128**, the condition on collect-eits is needed: it takes segments of the past hours of the day for
collected, so that three hours decide whether it waits for further sections. -/
theorem C128_time_of_day : ∃ (w : World) (ps : List (List UInt8)) (cmd : Cmd) (T : Int) (e e' : Ended), Reads w ps ∧
    main w cmd = .ok e ∧ main (later T 0 w) (laterCmd T cmd) = .ok e' ∧ e.docs.length = 2 ∧ e'.docs.length = 3 := by
  obtain ⟨e, h1, h2⟩ := C95ex.check (r := main C128ex.night (.collectEits none none none false false false))
    (P := fun e => decide (e.docs.length = 2)) (by decide +kernel)
  obtain ⟨e', h3, h4⟩ := C95ex.check
    (r := main (later (-10800000) 0 C128ex.night) (.collectEits none none none false false false))
    (P := fun e => decide (e.docs.length = 3)) (by decide +kernel)
  exact ⟨C128ex.night, C128ex.ps, .collectEits none none none false false false, -10800000, e, e', C128ex.reads_night,
    h1, h3, of_decide_eq_true h2, of_decide_eq_true h4⟩

end Mirakc.Props
