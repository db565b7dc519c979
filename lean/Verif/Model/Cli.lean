import Verif.Model.StdoutRecorder
/-
Model of `main`, src/main.cc:1424-1449, from the result of docopt on: `Args`, `ShowHelp`, `MakePacketSource`,
`MakePacketSink` and the `LoadOption` functions with the conversions of `docopt::value`
(how strings are read as numbers is left open).

What docopt makes of a command line is in Model/Usage.lean.  --version, the environment
variables and logging are left out.  --use-unicode-symbol only changes how TSDuck decodes texts.
-/
namespace Mirakc.Cli
open Mirakc.Options Mirakc.Main

/-- `docopt::value` (docopt.cpp): nothing, a flag or command, the value of an option or argument, or the values of a
repeated one.  Numbers (of repeated flags) do not occur with the usage of src/main.cc:50-81. -/
inductive Value where
  | empty
  | bool (b : Bool)
  | str (s : List Char)
  | list (l : List (List Char))
deriving DecidableEq

/-- `Args`, src/base.hh:25: `std::map<std::string, docopt::value>`. -/
abbrev Args := String → Option Value

/-- `docopt::value::operator bool`. -/
def Value.given : Value → Bool
  | .empty => false
  | _ => true

/-- How docopt reads numbers: `asLong` and `asInt64` (both signed numbers of 64 bits), and `asUint64`.  `none`: an
exception is thrown, because the string is not a number or out of range.  Which strings are numbers is up to docopt
(test/cli_tests.sh gives decimal and hexadecimal ones). -/
structure Reader where
  long : List Char → Option Int
  int64 : List Char → Option Int
  uint64 : List Char → Option Nat

namespace Value

/-- `docopt::value::asBool`. -/
def asBool : Value → Except Refusal Bool
  | .bool b => .ok b
  | _ => .error .uncaught

/-- `docopt::value::asString`. -/
def asString : Value → Except Refusal (List Char)
  | .str s => .ok s
  | _ => .error .uncaught

/-- `docopt::value::asStringList`. -/
def asStringList : Value → Except Refusal (List (List Char))
  | .list l => .ok l
  | _ => .error .uncaught

/-- `docopt::value::asLong`, `asInt64` and `asUint64`, with the reader of numbers. -/
def asNumber {α : Type} (read : List Char → Option α) : Value → Except Refusal α
  | .str s => match read s with
    | none => .error .uncaught
    | some v => .ok v
  | _ => .error .uncaught

end Value

/-- `args.at(name)`: `std::out_of_range` if there is no such entry. -/
def at' (a : Args) (name : String) : Except Refusal Value :=
  match a name with
  | none => .error .uncaught
  | some v => .ok v

/-- `args.at(name).asBool()`. -/
def flag (a : Args) (name : String) : Except Refusal Bool := do
  let v ← at' a name
  v.asBool

/-- `args.at(name).asLong()` and the like. -/
def number {α : Type} (read : List Char → Option α) (a : Args) (name : String) : Except Refusal α := do
  let v ← at' a name
  v.asNumber read

/-- `if (args.at(name)) … args.at(name).asLong()` and the like. -/
def maybeNumber {α : Type} (read : List Char → Option α) (a : Args) (name : String) : Except Refusal (Option α) := do
  let v ← at' a name
  if v.given then do
    let n ← v.asNumber read
    .ok (some n)
  else .ok none

/-- `LoadSidSet`, src/main.cc:1049-1055. -/
def sids (a : Args) (name : String) : Except Refusal (List Nat) := do
  let v ← at' a name
  if v.given then do
    let l ← v.asStringList
    loadSidSet (some l)
  else .ok []

/-- `LoadComponentTags`, src/main.cc:1075-1108. -/
def tags (a : Args) (name : String) : Except Refusal (List Nat) := do
  let v ← at' a name
  if v.given then do
    let l ← v.asStringList
    loadComponentTags (some l)
  else .ok []

/-- `LoadOption(EitCollectorOption)`, src/main.cc:1110-1134. -/
def eits (d : Reader) (a : Args) : Except Refusal EitCollector.Opt := do
  let ss ← sids a "--sids"
  let xs ← sids a "--xsids"
  let limit ← maybeNumber d.int64 a "--time-limit"
  let streaming ← flag a "--streaming"
  let others ← flag a "--only-others"
  let actual ← flag a "--only-actual"
  let _ ← flag a "--use-unicode-symbol"
  .ok { sids := ss.map UInt16.ofNat, xsids := xs.map UInt16.ofNat, timeLimit := limit.getD 30000
        streaming := streaming, collectActual := !others, collectOthers := !actual }

/-- `LoadOption(EitpfCollectorOption)`, src/main.cc:1136-1148. -/
def eitpf (a : Args) : Except Refusal EitpfCollector.Opt := do
  let ss ← sids a "--sids"
  let streaming ← flag a "--streaming"
  let present ← flag a "--present"
  let following ← flag a "--following"
  .ok { sids := ss.map UInt16.ofNat, streaming := streaming, following := !present, present := !following }

/-- `LoadOption(ServiceFilterOption)`, src/main.cc:1150-1159. -/
def service (d : Reader) (a : Args) : Except Refusal ServiceFilter.Opt := do
  let sid ← maybeNumber d.long a "--sid"
  .ok (loadServiceFilter sid)

/-- `LoadOption(ProgramFilterOption)`, src/main.cc:1161-1208. -/
def program (d : Reader) (a : Args) : Except Refusal ProgramFilter.Opt := do
  let sid ← number d.long a "--sid"
  let eid ← number d.long a "--eid"
  let pid ← number d.long a "--clock-pid"
  let pcr ← number d.int64 a "--clock-pcr"
  let time ← number d.int64 a "--clock-time"
  let time ← toJst time
  let audio ← tags a "--audio-tags"
  let video ← tags a "--video-tags"
  let start ← maybeNumber d.int64 a "--start-margin"
  let stop ← maybeNumber d.int64 a "--end-margin"
  let wait ← maybeNumber d.int64 a "--wait-until"
  let wait ← loadWaitUntil wait
  let pre ← flag a "--pre-streaming"
  .ok { sid := toUint16 sid, eid := toUint16 eid, clockPid := toUint16 pid, clockPcr := pcr, clockTime := time
        audioTags := audio, videoTags := video, startMargin := start.getD 0, endMargin := stop.getD 0
        waitUntil := wait, preStreaming := pre }

/-- `LoadOption(ProgramMetadataFilterOption)`, src/main.cc:1210-1217. -/
def metadata (d : Reader) (a : Args) : Except Refusal ProgramMetadataFilter.Opt := do
  let sid ← maybeNumber d.long a "--sid"
  .ok (loadMetadata sid)

/-- `LoadOption(ServiceRecorderOption)`, src/main.cc:1219-1265; the name of the file comes first. -/
def recorder (d : Reader) (a : Args) : Except Refusal (List Char × ServiceRecorder.Opt) := do
  let sid ← number d.long a "--sid"
  let v ← at' a "--file"
  let file ← v.asString
  let chunkSize ← number d.long a "--chunk-size"
  let chunk := toSize chunkSize
  if chunk == 0 then .error .abort
  else if chunk % RingFileSink.bufferSize != 0 then .error .abort
  else if chunk > RingFileSink.maxChunkSize then .error .abort
  else
    let numChunks ← number d.long a "--num-chunks"
    let num := toSize numChunks
    if num == 0 then .error .abort
    else if num > RingFileSink.maxNumChunks then .error .abort
    else
      let opt : ServiceRecorder.Opt := { sid := toUint16 sid, chunkSize := chunk, numChunks := num }
      let pos ← maybeNumber d.uint64 a "--start-pos"
      match pos with
      | none => .ok (file, opt)
      | some pos =>
        if pos % chunk != 0 then .error .abort
        else if pos ≥ (chunk * num) % 18446744073709551616 then .error .abort
        else .ok (file, { opt with startPos := pos })

/-- `LoadOption(AirtimeTrackerOption)`, src/main.cc:1267-1274. -/
def airtime (d : Reader) (a : Args) : Except Refusal AirtimeTracker.Opt := do
  let sid ← number d.long a "--sid"
  let eid ← number d.long a "--eid"
  .ok (loadAirtime sid eid)

/-- `LoadOption(StartSeekerOption)`, src/main.cc:1276-1294. -/
def seeker (d : Reader) (a : Args) : Except Refusal StartSeeker.Opt := do
  let sid ← number d.long a "--sid"
  let duration ← maybeNumber d.int64 a "--max-duration"
  let packets ← maybeNumber d.long a "--max-packets"
  loadSeeker sid duration packets

/-- `ShowHelp`, src/main.cc:1392-1420: the command whose help is printed, `none` for the usage. -/
def showHelp (a : Args) : List String → Except Refusal (Option String)
  | [] => .ok none
  | c :: cs => do
    let b ← flag a c
    if b then .ok (some c) else showHelp a cs

/-- The commands in the order of `MakePacketSink` and `ShowHelp`. -/
def commands : List String :=
  ["scan-services", "sync-clocks", "collect-eits", "collect-eitpf", "collect-logos", "filter-service", "filter-program",
    "filter-program-metadata", "record-service", "track-airtime", "seek-start", "print-pes"]

/-- `MakePacketSource`, src/main.cc:1041-1047, and the constructor of `PosixFile`, src/main.cc:903-917: no name or an
empty one stands for the standard input. -/
def source (w : World) (a : Args) : Except Refusal World := do
  let v ← at' a "<file>"
  match v with
  | .str (_ :: _) => .ok w
  | _ => .ok { w with opened := true }

/-- The part of `MakePacketSink` and `main` for a command, src/main.cc:1296-1390, 1446-1448.  An empty name given
with --file stands for the standard output, src/main.cc:919-933. -/
def run (d : Reader) (w : World) (a : Args) : Option String → Except Stop Ended
  | some "scan-services" => do
    let ss ← (sids a "--sids").mapError .refused
    let xs ← (sids a "--xsids").mapError .refused
    scanServices w { sids := ss, xsids := xs }
  | some "sync-clocks" => do
    let ss ← (sids a "--sids").mapError .refused
    let xs ← (sids a "--xsids").mapError .refused
    syncClocks w { sids := ss, xsids := xs }
  | some "collect-eits" => do
    let o ← (eits d a).mapError .refused
    collectEits w o
  | some "collect-eitpf" => do
    let o ← (eitpf a).mapError .refused
    collectEitpf w o
  | some "collect-logos" => collectLogos w
  | some "filter-service" => do
    let o ← (service d a).mapError .refused
    filterService w o
  | some "filter-program" => do
    let o ← (program d a).mapError .refused
    let _ ← (service d a).mapError .refused
    filterProgram w o
  | some "filter-program-metadata" => do
    let o ← (metadata d a).mapError .refused
    filterProgramMetadata w o
  | some "record-service" => do
    let (file, o) ← (recorder d a).mapError .refused
    let _ ← (service d a).mapError .refused
    if file.isEmpty then StdoutRecorder.recordService w o else recordService w o
  | some "track-airtime" => do
    let o ← (airtime d a).mapError .refused
    trackAirtime w o
  | some "seek-start" => do
    let o ← (seeker d a).mapError .refused
    seekStart w o
  | some "print-pes" => printPes w
  -- `FeedPackets` without a sink, src/packet_source.hh:27
  | _ => .error (.fault .assertFail)

/-- What the process has done when it ends: shown the help of a command (or the usage), or run a command. -/
inductive Out where
  | help (command : Option String)
  | ended (e : Ended)
deriving DecidableEq

/-- `main`, src/main.cc:1424-1449, with `Init`, src/main.cc:1011-1039, which looks at the commands in the same order. -/
def main (d : Reader) (w : World) (a : Args) : Except Stop Out := do
  let h ← (flag a "-h").mapError .refused
  let h ← if h then .ok true else (flag a "--help").mapError .refused
  if h then
    let c ← (showHelp a commands).mapError .refused
    .ok (.help c)
  else
    let c ← (showHelp a commands).mapError .refused
    let w ← (source w a).mapError .refused
    let e ← run d w a c
    .ok (.ended e)

end Mirakc.Cli
