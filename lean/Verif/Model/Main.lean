import Verif.Model.Pipeline
import Verif.Model.Options
import Verif.Model.ServiceScanner
import Verif.Model.PcrSynchronizer
import Verif.Model.EitCollector
import Verif.Model.EitpfCollector
import Verif.Model.EitReporters
import Verif.Model.LogoCollector
import Verif.Model.PesPrinter
/-
Model of `main`, src/main.cc:1424-1449, with `MakePacketSource`, `MakePacketSink`, the rest
of the option parsing and `PosixFile` for the input.

docopt is not modelled: a command is given together with the values of its arguments.
-h, --help and --version, the environment variables and logging are left out.
-/
namespace Mirakc.Main
open Mirakc.Pipeline Mirakc.Options

/-- What is not determined by the arguments: TSDuck's and LibISDB's view of the packets
(packet by packet), the clock of the machine, and the results of system calls.
`read` has for each call the bytes read (none at the end of the file), or `none` if it
fails. -/
structure World where
  codec : Codec
  tables : Nat → List Table
  tables2 : Nat → ServiceFilter.Out → List Table
  sections : Nat → List SectionEvent
  logos : Nat → LogoCollector.LogoInput
  times : Nat → Int × Int × Int
  extra : Pmt → Nat
  base64 : List UInt8 → String
  mjd : List UInt8 → Option Int
  opened : Bool
  read : List (Option (List UInt8))
  write : List Int
  file : List Int

/-- A command with the values of its arguments, src/main.cc:50-81 (usage). -/
inductive Cmd where
  | scanServices (sids xsids : Option (List (List Char)))
  | syncClocks (sids xsids : Option (List (List Char)))
  | collectEits (sids xsids : Option (List (List Char))) (timeLimit : Option Int)
      (streaming onlyActual onlyOthers : Bool)
  | collectEitpf (sids : Option (List (List Char))) (streaming present following : Bool)
  | collectLogos
  | filterService (sid : Option Int)
  | filterProgram (a : ProgramArgs)
  | filterProgramMetadata (sid : Option Int)
  | recordService (sid chunkSize numChunks : Int) (startPos : Option Nat)
  | trackAirtime (sid eid : Int)
  | seekStart (sid : Int) (maxDuration maxPackets : Option Int)
  | printPes

/-- A JSON document, or a line of print-pes. -/
inductive Doc where
  | services (l : List ServiceScanner.ServiceEntry)
  | clocks (l : List PcrSynchronizer.ClockEntry)
  | eit (e : JsonEit)
  | logo (l : LogoCollector.Doc)
  | metadata (m : ProgramMetadataFilter.Metadata)
  | message (m : ServiceRecorder.Msg)
  | airtime (a : AirtimeTracker.EventInfo)
  | line (l : PesPrinter.PLine)
deriving DecidableEq

/-- What is left when the process has ended: the exit code, the bytes or documents on
standard output, and the operations on the file of record-service. -/
structure Ended where
  code : Nat
  bytes : List UInt8 := []
  docs : List Doc := []
  ops : List RingFileSink.Op := []
deriving DecidableEq

/-- How the process ends otherwise: because of its arguments, or abnormally later. -/
inductive Stop where
  | refused (r : Refusal)
  | fault (f : Fault)
deriving DecidableEq

/-- `LoadSidSet`, src/main.cc:1049-1055. -/
def sidSet (arg : Option (List (List Char))) : Except Stop (List Nat) :=
  (loadSidSet arg).mapError .refused

/-- `PosixFile::Read`, src/main.cc:945-951, as `FileSource` uses it: the results of the calls
as byte strings, empty if there is an error.  If the file could not be opened
(src/main.cc:903-917), the first call fails. -/
def readResults (w : World) : List (List UInt8) :=
  if w.opened then w.read.map fun r => r.getD [] else []

/-- `src->Connect(sink)`, `src->FeedPackets()`, src/main.cc:1446-1448.  The number of
iterations of the packet loop is at most that of the bytes read. -/
def feed {σ : Type} (w : World) (snk : Sink (List UInt8) σ) (s : σ) : Except Stop (Nat × σ) :=
  (exec snk ((readResults w).flatten.length + 1) (readResults w) s).mapError .fault

/-- A packet with the tables it completes. -/
def packet (w : World) : Nat → List UInt8 → Input := input w.codec w.tables

/-- A packet with the sections it completes. -/
def sections (w : World) (n : Nat) (b : List UInt8) : SectionInput :=
  { packet := w.codec.packet b, events := w.sections n }

/-- scan-services, src/main.cc:1297-1304. -/
def scanServices (w : World) (o : ServiceScanner.Opt) : Except Stop Ended := do
  let (code, _, h) ← feed w (via (packet w) (ServiceScanner.sink o)) (0, { st := {} })
  .ok { code := code, docs := h.st.out.toList.map .services }

/-- sync-clocks, src/main.cc:1305-1312. -/
def syncClocks (w : World) (o : PcrSynchronizer.Opt) : Except Stop Ended := do
  let (code, _, h) ← feed w (via (packet w) (PcrSynchronizer.sink o)) (0, { st := {} })
  .ok { code := code, docs := h.st.out.toList.map .clocks }

/-- The documents of the sections written.  They can be made, because they were. -/
def eitDocs (w : World) (es : List EitSection) : List Doc :=
  es.filterMap fun e => ((makeJsonEit w.mjd e).toOption.map .eit)

/-- collect-eits, src/main.cc:1313-1319. -/
def collectEits (w : World) (o : EitCollector.Opt) : Except Stop Ended := do
  let h0 ← (EitCollector.init o).mapError .fault
  let (code, _, h) ← feed w (via (sections w) (EitCollector.sink o)) (0, h0)
  .ok { code := code, docs := eitDocs w ((h.items.flatMap (·.did)).filterMap (·.out)) }

/-- collect-eitpf, src/main.cc:1320-1326. -/
def collectEitpf (w : World) (o : EitpfCollector.Opt) : Except Stop Ended := do
  let (code, _, h) ← feed w (via (sections w) (EitpfCollector.sink o)) (0, { st := {} })
  .ok { code := code, docs := eitDocs w ((h.items.flatMap (·.did)).filterMap (·.out)) }

/-- collect-logos, src/main.cc:1327-1331. -/
def collectLogos (w : World) : Except Stop Ended := do
  let (code, _, h) ← feed w (via (fun n _ => w.logos n) (LogoCollector.sink w.base64)) (0, { st := () })
  .ok { code := code, docs := (h.items.flatMap (·.did)).map .logo }

/-- filter-service, src/main.cc:1332-1338. -/
def filterService (w : World) (o : ServiceFilter.Opt) : Except Stop Ended := do
  let (code, _, _, _, d) ← feed w (Pipeline.filterService w.codec w.tables o.sid)
    (0, ServiceFilter.init { sid := o.sid }, 0, StdoutSink.init w.write)
  .ok { code := code, bytes := d.out }

/-- filter-program, src/main.cc:1339-1349. -/
def filterProgram (w : World) (o : ProgramFilter.Opt) : Except Stop Ended := do
  let (code, _, _, _, _, _, d) ← feed w (Pipeline.filterProgram w.codec w.tables w.tables2 w.extra o)
    (0, ServiceFilter.init { sid := o.sid }, 0, ProgramFilter.init o, 0, StdoutSink.init w.write)
  .ok { code := code, bytes := d.out }

/-- filter-program-metadata, src/main.cc:1350-1356. -/
def filterProgramMetadata (w : World) (o : ProgramMetadataFilter.Opt) : Except Stop Ended := do
  let (code, _, h) ← feed w (via (packet w) (ProgramMetadataFilter.sink o)) (0, { st := {} })
  .ok { code := code, docs := (h.items.flatMap (·.did)).map .metadata }

/-- The messages in what record-service does. -/
def messages (tr : List ServiceRecorder.Tr) : List Doc :=
  tr.filterMap fun | .msg m => some (.message m) | .op _ => none
/-- The operations on the file in what record-service does. -/
def operations (tr : List ServiceRecorder.Tr) : List RingFileSink.Op :=
  tr.filterMap fun | .msg _ => none | .op o => some o

/-- record-service, src/main.cc:1357-1371.  If its file cannot be opened, the first
operation on it fails. -/
def recordService (w : World) (o : ServiceRecorder.Opt) : Except Stop Ended := do
  let h0 ← (ServiceRecorder.init o w.file).mapError .fault
  let (code, _, _, _, h) ← feed w (Pipeline.recordService w.codec w.tables w.tables2 w.times o)
    (0, ServiceFilter.init { sid := o.sid }, 0, h0)
  .ok { code := code, docs := messages h.trace, ops := operations h.trace }

/-- track-airtime, src/main.cc:1372-1378. -/
def trackAirtime (w : World) (o : AirtimeTracker.Opt) : Except Stop Ended := do
  let (code, _, h) ← feed w (via (packet w) (AirtimeTracker.sink o)) (0, { st := {} })
  .ok { code := code, docs := (h.items.flatMap (·.did)).map .airtime }

/-- seek-start, src/main.cc:1379-1385. -/
def seekStart (w : World) (o : StartSeeker.Opt) : Except Stop Ended := do
  let (code, _, _, _, d) ← feed w (Pipeline.seekStart w.codec w.tables o)
    (0, StartSeeker.init, 0, StdoutSink.init w.write)
  .ok { code := code, bytes := d.out }

/-- print-pes, src/main.cc:1386-1388. -/
def printPes (w : World) : Except Stop Ended := do
  let (code, _, h) ← feed w (via (packet w) PesPrinter.sink) (0, { st := {} })
  .ok { code := code, docs := (h.items.flatMap (·.did.lines)).map .line }

/-- `LoadOption(EitCollectorOption)`, src/main.cc:1110-1134. -/
def loadEits (sids xsids : Option (List (List Char))) (timeLimit : Option Int)
    (streaming onlyActual onlyOthers : Bool) : Except Stop EitCollector.Opt := do
  let sids ← sidSet sids
  let xsids ← sidSet xsids
  .ok { sids := sids.map UInt16.ofNat, xsids := xsids.map UInt16.ofNat
        timeLimit := timeLimit.getD 30000
        streaming := streaming, collectActual := !onlyOthers, collectOthers := !onlyActual }

/-- `LoadOption(EitpfCollectorOption)`, src/main.cc:1136-1148. -/
def loadEitpf (sids : Option (List (List Char))) (streaming present following : Bool) :
    Except Stop EitpfCollector.Opt := do
  let sids ← sidSet sids
  .ok { sids := sids.map UInt16.ofNat, streaming := streaming, following := !present, present := !following }

/-- `LoadOption(ProgramMetadataFilterOption)`, src/main.cc:1210-1217. -/
def loadMetadata (sid : Option Int) : ProgramMetadataFilter.Opt :=
  match sid with
  | none => {}
  | some v => { sid := toUint16 v }

/-- `LoadOption(AirtimeTrackerOption)`, src/main.cc:1267-1274. -/
def loadAirtime (sid eid : Int) : AirtimeTracker.Opt := { sid := toUint16 sid, eid := toUint16 eid }

/-- `main`, src/main.cc:1424-1449, and `MakePacketSink`, src/main.cc:1296-1390. -/
def main (w : World) : Cmd → Except Stop Ended
  | .scanServices sids xsids => do
    let sids ← sidSet sids
    let xsids ← sidSet xsids
    scanServices w { sids := sids, xsids := xsids }
  | .syncClocks sids xsids => do
    let sids ← sidSet sids
    let xsids ← sidSet xsids
    syncClocks w { sids := sids, xsids := xsids }
  | .collectEits sids xsids timeLimit streaming onlyActual onlyOthers => do
    let o ← loadEits sids xsids timeLimit streaming onlyActual onlyOthers
    collectEits w o
  | .collectEitpf sids streaming present following => do
    let o ← loadEitpf sids streaming present following
    collectEitpf w o
  | .collectLogos => collectLogos w
  | .filterService sid => filterService w (loadServiceFilter sid)
  | .filterProgram a => do
    let o ← (loadProgramFilter a).mapError .refused
    filterProgram w o
  | .filterProgramMetadata sid => filterProgramMetadata w (loadMetadata sid)
  | .recordService sid chunkSize numChunks startPos => do
    let o ← (loadRecorder sid chunkSize numChunks startPos).mapError .refused
    recordService w o
  | .trackAirtime sid eid => trackAirtime w (loadAirtime sid eid)
  | .seekStart sid maxDuration maxPackets => do
    let o ← (loadSeeker sid maxDuration maxPackets).mapError .refused
    seekStart w o
  | .printPes => printPes w

end Mirakc.Main
