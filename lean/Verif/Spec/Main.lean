import Verif.Model.Main
import Verif.Spec.Pipeline
import Verif.Spec.Options
import Verif.Spec.ServiceScanner
import Verif.Spec.PcrSynchronizer
import Verif.Spec.EitCollector
import Verif.Spec.EitpfCollector
import Verif.Spec.EitReporters
/-
Specification vocabulary for the whole program.
-/
namespace Mirakc.Spec.Main
open Mirakc.Main Mirakc.Spec.Pipeline

/-- The bytes obtained by reading until the end of the file or an error. -/
def upToEnd : List (Option (List UInt8)) → List UInt8
  | some (b :: bs) :: rest => b :: bs ++ upToEnd rest
  | some [] :: _ => []
  | none :: _ => []
  | [] => []

/-- The bytes of the input; none if it cannot be opened. -/
def contents (w : World) : List UInt8 :=
  if w.opened then upToEnd w.read else []

/-- No read delivers more than was asked for. -/
def Fits (w : World) : Prop := ∀ r, some r ∈ w.read → r.length ≤ 16384

/-- The input can be read, and these are its packets. -/
def Reads (w : World) (ps : List (List UInt8)) : Prop := Fits w ∧ Packets (contents w) ps


end Mirakc.Spec.Main

namespace Mirakc.Spec.Main
open Mirakc.Main

/-- The commands that print one document at the end of the stream. -/
def printsOnce : Cmd → Bool
  | .scanServices .. => true
  | .syncClocks .. => true
  | _ => false

/-- record-service with a start position, for which the file is positioned at the start. -/
def positions : Cmd → Bool
  | .recordService _ _ _ (some pos) => pos != 0
  | _ => false

/-- record-service cannot position its file at the start. -/
def NotPositioned (w : World) (cmd : Cmd) : Prop :=
  positions cmd = true ∧ ∃ r rs, w.file = r :: rs ∧ r ≤ 0

/-- The command is record-service. -/
def records : Cmd → Bool
  | .recordService .. => true
  | _ => false

open Mirakc.Spec.Options (Denotes)

/-- The values of the option are numbers of services. -/
def Numbers (arg : Option (List (List Char))) : Prop :=
  ∀ l, arg = some l → ∀ s ∈ l, ∃ v, Denotes s v ∧ 0 ≤ v ∧ v < 65536

/-- The option names the service. -/
def Names (arg : Option (List (List Char))) (sid : Nat) : Prop :=
  ∃ l, arg = some l ∧ ∃ s ∈ l, Denotes s sid

/-- The options --sids and --xsids select the service. -/
def Asked (sids xsids : Option (List (List Char))) (sid : Nat) : Prop :=
  (sids = none ∨ sids = some [] ∨ Names sids sid) ∧ ¬ Names xsids sid

/-- The document shows the section. -/
def ShowsSection (d : Doc) (x : Section) : Prop :=
  ∃ j : JsonEit, d = .eit j ∧ j.serviceId = x.ext ∧ j.tableId = x.tid ∧ j.versionNumber = x.version ∧
    j.sectionNumber = x.number

/-- The options mean what was given. -/
structure Means (a : Options.ProgramArgs) (o : ProgramFilter.Opt) : Prop where
  sid : (o.sid : Int) = a.sid
  eid : (o.eid : Int) = a.eid
  clockPid : (o.clockPid : Int) = a.clockPid
  clockPcr : o.clockPcr = a.clockPcr
  clockTime : o.clockTime = a.clockTime + 9 * 3600 * 1000
  audioTags : ∀ x : Nat, x ∈ o.audioTags ↔ Names a.audioTags x
  videoTags : ∀ x : Nat, x ∈ o.videoTags ↔ Names a.videoTags x
  startMargin : o.startMargin = a.startMargin.getD 0
  endMargin : o.endMargin = a.endMargin.getD 0
  waitUntil : o.waitUntil = a.waitUntil.map (· + 9 * 3600 * 1000)
  preStreaming : o.preStreaming = a.preStreaming

open Mirakc.Spec.ServiceFilter (Conforming usablePat validPmt)

/-- The PCRs of the packets are in range. -/
def PcrsValid (w : World) (ps : List (List UInt8)) : Prop :=
  ∀ b ∈ ps, ∀ x, (w.codec.packet b).pcr = some x → 0 ≤ x ∧ x < 2 ^ 33 * 300

/-- The PTSs and DTSs of the packets have 33 bits. -/
def StampsValid (w : World) (ps : List (List UInt8)) : Prop :=
  ∀ b ∈ ps, (∀ x ∈ (w.codec.packet b).pts, 0 ≤ x ∧ x < 2 ^ 33) ∧
    ∀ x ∈ (w.codec.packet b).dts, 0 ≤ x ∧ x < 2 ^ 33

/-- The event loops of the sections end with complete events. -/
def EventsComplete (w : World) (ps : List (List UInt8)) : Prop :=
  ∀ n < ps.length, ∀ x, .sect x ∈ w.sections n → 6 ≤ x.payload.length →
    EventsJson.WellFormed (x.payload.drop 6)

/-- EIT p/f sections with the same service id are of the same stream of the same network. -/
def OneOrigin (w : World) (ps : List (List UInt8)) : Prop :=
  ∀ n < ps.length, ∀ m < ps.length, ∀ x y, .sect x ∈ w.sections n → .sect y ∈ w.sections m →
    x.tid.toNat = 0x4E → y.tid.toNat = 0x4E → x.ext = y.ext → EitCollector.origin x = EitCollector.origin y

/-- The id given. -/
def Id (v : Int) (n : Nat) : Prop := v = n ∧ n < 65536

/-- Arguments and input with which the command does not terminate abnormally. -/
def Benign (w : World) (ps : List (List UInt8)) : Cmd → Prop
  | .scanServices .. => True
  | .syncClocks .. => PcrsValid w ps
  | .collectEits _ _ _ _ onlyActual onlyOthers =>
    (onlyActual = false ∨ onlyOthers = false) ∧ EventsComplete w ps
  | .collectEitpf _ streaming present following =>
    EventsComplete w ps ∧ (streaming = true ∨ present = true ∨ following = true ∨ OneOrigin w ps)
  | .collectLogos => True
  | .filterService sid => ∃ s, Id (sid.getD 0) s ∧ ∀ n, ∀ t ∈ w.tables n, Conforming s t
  | .filterProgram a => PcrsValid w ps ∧ (0 ≤ a.clockPcr ∧ a.clockPcr < 2 ^ 33 * 300) ∧
    (Near (32400000 + a.clockTime) ∧ Near (a.startMargin.getD 0) ∧ Near (a.endMargin.getD 0)) ∧
    ∃ s, Id a.sid s ∧ (∀ n, ∀ t ∈ w.tables n, Conforming s t) ∧
      (∀ n x, ∀ t ∈ w.tables2 n x, Spec.ProgramFilter.Timely s t) ∧
      ∃ pmtPid, (pmtPid ≠ 0 ∧ pmtPid ≠ 0x12 ∧ pmtPid ≠ 0x14 ∧ pmtPid ≠ 0x1FFF) ∧
        (∀ n, ∀ t ∈ w.tables n, ∀ pat, usablePat t = some pat →
          ∀ pid, (s, pid) ∈ pat.pmts.entries → pid = pmtPid) ∧
        ∀ n x, ∀ t ∈ w.tables2 n x, ∀ pmt, validPmt s t = some pmt → t.sourcePid = pmtPid
  | .filterProgramMetadata _ => True
  | .recordService sid chunk num _ => PcrsValid w ps ∧ (-2 ^ 63 ≤ chunk ∧ chunk < 2 ^ 63) ∧
    (-2 ^ 63 ≤ num ∧ num < 2 ^ 63) ∧ ∃ s, Id sid s ∧ ∀ n, ∀ t ∈ w.tables n, Conforming s t
  | .trackAirtime _ _ => True
  | .seekStart sid maxDuration _ => PcrsValid w ps ∧
    (-341606371735362 ≤ maxDuration.getD 0 ∧ maxDuration.getD 0 ≤ 341606371735362) ∧
    ∃ s, Id sid s ∧ ∀ n, ∀ t ∈ w.tables n, t.firstPacket ≤ n ∧
      ∀ pat, usablePat t = some pat → ∃ pid, (s, pid) ∈ pat.pmts.entries
  | .printPes => StampsValid w ps ∧ PcrsValid w ps

end Mirakc.Spec.Main
