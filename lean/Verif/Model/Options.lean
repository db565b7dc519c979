import Verif.Model.RingFileSink
import Verif.Model.StartSeeker
import Verif.Model.ServiceRecorder
import Verif.Model.ServiceFilter
import Verif.Model.ProgramFilter
import Verif.Model.Pcr
/-
Model of the option parsing in src/main.cc and of `SidSet::Add`, src/base.hh.

docopt is not modelled: the arguments are the values that `asStringList`, `asLong`, `asInt64`
and `asUint64` return.  Log messages are left out.
-/
namespace Mirakc.Options

/-- How the command ends before anything is processed: `std::abort()`, an exception that is
not caught, an overflow of a signed number, or `exit(code)`. -/
inductive Refusal where
  | abort
  | uncaught
  | overflow
  | exit (code : Nat)
deriving DecidableEq

/-- `isspace` in the C locale. -/
def isSpace (c : Char) : Bool :=
  c == ' ' || c == '\t' || c == '\n' || c == '\x0b' || c == '\x0c' || c == '\r'

/-- `isdigit`. -/
def isDigit (c : Char) : Bool := 48 ≤ c.toNat && c.toNat ≤ 57

/-- The sign that `strtol` accepts: negative or not, and the characters after it. -/
def takeSign : List Char → Bool × List Char
  | '-' :: r => (true, r)
  | '+' :: r => (false, r)
  | r => (false, r)

/-- `strtol` with base 10 (C standard): blanks, a sign, digits; the value and the number of
characters used, `none` if there is no digit.  Simplified: the value is not cut to the range
of `long`, because `std::stoi` throws in that case anyway. -/
def strtol (cs : List Char) : Option (Int × Nat) :=
  let r := cs.dropWhile isSpace
  let (neg, r) := takeSign r
  let ds := r.takeWhile isDigit
  if ds.isEmpty then none
  else
    let v : Int := (ds.foldl (fun n c => n * 10 + (c.toNat - 48)) 0 : Nat)
    some (if neg then -v else v, cs.length - r.length + ds.length)

/-- `std::stoi(str, &pos)` (C++ standard); it throws `std::invalid_argument` or
`std::out_of_range`. -/
def stoi (cs : List Char) : Except Refusal (Int × Nat) :=
  match strtol cs with
  | none => .error .uncaught
  | some (v, pos) =>
    if v < -2147483648 || v > 2147483647 then .error .uncaught
    else .ok (v, pos)

/-- `SidSet::Add`, src/base.hh:38-48, and `LoadSidSet`, src/main.cc:1049-1055: the set as a
list.  `static_cast<uint16_t>` is the residue modulo 65536. -/
def addSids : List (List Char) → List Nat → Except Refusal (List Nat)
  | [], set => .ok set
  | str :: l, set => do
    let (v, pos) ← stoi str
    let sid := (v % 65536).toNat
    if pos ≠ str.length then addSids l set
    else addSids l (set ++ [sid])

/-- The loop of `LoadComponentTags`, src/main.cc:1082-1105. -/
def addTags : List (List Char) → List Nat → Except Refusal (List Nat)
  | [], tags => .ok tags
  | str :: l, tags => do
    let (val, pos) ← stoi str
    if pos ≠ str.length then .error .abort
    else if val < 0 then .error .abort
    else if val ≥ 256 then .error .abort
    else addTags l (tags ++ [val.toNat])

/-- `LoadSidSet`, src/main.cc:1049-1055; `none` if the option is absent. -/
def loadSidSet (arg : Option (List (List Char))) : Except Refusal (List Nat) :=
  match arg with
  | none => .ok []
  | some list => addSids list []

/-- `LoadComponentTags`, src/main.cc:1075-1108. -/
def loadComponentTags (arg : Option (List (List Char))) : Except Refusal (List Nat) :=
  match arg with
  | none => .ok []
  | some list => addTags list []

/-- `static_cast<uint16_t>(long)`. -/
def toUint16 (v : Int) : Nat := (v % 65536).toNat

/-- `static_cast<size_t>(long)` on a 64 bit machine. -/
def toSize (v : Int) : Nat := (v % 18446744073709551616).toNat

/-- `LoadOption(ServiceFilterOption)`, src/main.cc:1150-1159; `sid` is 0 by default. -/
def loadServiceFilter (sid : Option Int) : ServiceFilter.Opt :=
  match sid with
  | none => { sid := 0 }
  | some v => { sid := toUint16 v }

/-- The arguments of filter-program. -/
structure ProgramArgs where
  sid : Int
  eid : Int
  clockPid : Int
  clockPcr : Int
  clockTime : Int
  audioTags : Option (List (List Char)) := none
  videoTags : Option (List (List Char)) := none
  startMargin : Option Int := none
  endMargin : Option Int := none
  waitUntil : Option Int := none
  preStreaming : Bool := false

/-- `ConvertUnixTimeToJstTime`, src/tsduck_helper.hh:28-30, applied to an argument: the sum is a signed number of
64 bits. -/
def toJst (t : Int) : Except Refusal Int :=
  if -9223372036854775808 ≤ unixToJst t && unixToJst t ≤ 9223372036854775807 then .ok (unixToJst t)
  else .error .overflow

/-- The value of `--wait-until`, src/main.cc:1188-1191. -/
def loadWaitUntil : Option Int → Except Refusal (Option Int)
  | none => .ok none
  | some t => do
    let t ← toJst t
    .ok (some t)

/-- `LoadOption(ProgramFilterOption)`, src/main.cc:1161-1208. -/
def loadProgramFilter (a : ProgramArgs) : Except Refusal ProgramFilter.Opt := do
  let clockTime ← toJst a.clockTime
  let audio ← loadComponentTags a.audioTags
  let video ← loadComponentTags a.videoTags
  let waitUntil ← loadWaitUntil a.waitUntil
  .ok { sid := toUint16 a.sid, eid := toUint16 a.eid, clockPid := toUint16 a.clockPid
        clockPcr := a.clockPcr, clockTime := clockTime
        audioTags := audio, videoTags := video
        startMargin := a.startMargin.getD 0, endMargin := a.endMargin.getD 0
        waitUntil := waitUntil, preStreaming := a.preStreaming }

/-- `LoadOption(ServiceRecorderOption)`, src/main.cc:1219-1265; `startPos` is unsigned. -/
def loadRecorder (sid chunkSize numChunks : Int) (startPos : Option Nat) :
    Except Refusal ServiceRecorder.Opt := do
  let chunk := toSize chunkSize
  if chunk == 0 then .error .abort
  else if chunk % RingFileSink.bufferSize != 0 then .error .abort
  else if chunk > RingFileSink.maxChunkSize then .error .abort
  else
    let num := toSize numChunks
    if num == 0 then .error .abort
    else if num > RingFileSink.maxNumChunks then .error .abort
    else
      let opt : ServiceRecorder.Opt := { sid := toUint16 sid, chunkSize := chunk, numChunks := num }
      match startPos with
      | none => .ok opt
      | some pos =>
        if pos % chunk != 0 then .error .abort
        else if pos ≥ (chunk * num) % 18446744073709551616 then .error .abort
        else .ok { opt with startPos := pos }

/-- `LoadOption(StartSeekerOption)`, src/main.cc:1276-1294; the limits are 0 by default,
and `max_packets` is a `uint32_t`, src/start_seeker.hh:17-21. -/
def loadSeeker (sid : Int) (maxDuration maxPackets : Option Int) : Except Refusal StartSeeker.Opt :=
  let duration := maxDuration.getD 0
  let packets := match maxPackets with
    | none => 0
    | some v => toSize v % 4294967296
  if duration == 0 && packets == 0 then .error (.exit 1)
  else .ok { sid := toUint16 sid, maxDuration := duration, maxPackets := packets }

end Mirakc.Options
