import Verif.Model.Usage
/-
Vocabulary for C135: what the parts of a command line say.
-/
namespace Mirakc.Spec.Usage
open Mirakc.Cli (Reader)
open Mirakc.Main (Cmd)
open Mirakc.Usage (Leaf)

/-- The option is given, with a value read as the number. -/
def One {α : Type} (read : List Char → Option α) (l : List Leaf) (name : String) (v : α) : Prop :=
  ∃ s, .value name s ∈ l ∧ read s = some v

/-- The option is not given, or with a value read as the number. -/
def AtMost {α : Type} (read : List Char → Option α) (l : List Leaf) (name : String) : Option α → Prop
  | none => ∀ s, .value name s ∉ l
  | some v => One read l name v

/-- The values given for the option, in their order. -/
def given (name : String) : List Leaf → List (List Char)
  | [] => []
  | .word _ :: l => given name l
  | .value n s :: l => if n = name then s :: given name l else given name l

/-- The option or command is given or not. -/
def On (l : List Leaf) (name : String) (b : Bool) : Prop := b = true ↔ .word name ∈ l

/-- The parts say this command, with the numbers read by `d`. -/
def Says (d : Reader) (l : List Leaf) : Cmd → Prop
  | .scanServices ss xs => .word "scan-services" ∈ l ∧ ss = some (given "--sids" l) ∧ xs = some (given "--xsids" l)
  | .syncClocks ss xs => .word "sync-clocks" ∈ l ∧ ss = some (given "--sids" l) ∧ xs = some (given "--xsids" l)
  | .collectEits ss xs limit streaming actual others => .word "collect-eits" ∈ l ∧ ss = some (given "--sids" l) ∧
      xs = some (given "--xsids" l) ∧ AtMost d.int64 l "--time-limit" limit ∧ On l "--streaming" streaming ∧
      On l "--only-actual" actual ∧ On l "--only-others" others
  | .collectEitpf ss streaming present following => .word "collect-eitpf" ∈ l ∧ ss = some (given "--sids" l) ∧
      On l "--streaming" streaming ∧ On l "--present" present ∧ On l "--following" following
  | .collectLogos => .word "collect-logos" ∈ l
  | .filterService sid => .word "filter-service" ∈ l ∧ ∃ v, sid = some v ∧ One d.long l "--sid" v
  | .filterProgram o => .word "filter-program" ∈ l ∧ One d.long l "--sid" o.sid ∧ One d.long l "--eid" o.eid ∧
      One d.long l "--clock-pid" o.clockPid ∧ One d.int64 l "--clock-pcr" o.clockPcr ∧
      One d.int64 l "--clock-time" o.clockTime ∧ o.audioTags = some (given "--audio-tags" l) ∧
      o.videoTags = some (given "--video-tags" l) ∧ AtMost d.int64 l "--start-margin" o.startMargin ∧
      AtMost d.int64 l "--end-margin" o.endMargin ∧ AtMost d.int64 l "--wait-until" o.waitUntil ∧
      On l "--pre-streaming" o.preStreaming
  | .filterProgramMetadata sid => .word "filter-program-metadata" ∈ l ∧ AtMost d.long l "--sid" sid
  | .recordService sid chunk num pos => .word "record-service" ∈ l ∧ One d.long l "--sid" sid ∧
      One d.long l "--chunk-size" chunk ∧ One d.long l "--num-chunks" num ∧ AtMost d.uint64 l "--start-pos" pos
  | .trackAirtime sid eid => .word "track-airtime" ∈ l ∧ One d.long l "--sid" sid ∧ One d.long l "--eid" eid
  | .seekStart sid duration packets => .word "seek-start" ∈ l ∧ One d.long l "--sid" sid ∧
      AtMost d.int64 l "--max-duration" duration ∧ AtMost d.long l "--max-packets" packets
  | .printPes => .word "print-pes" ∈ l

/-- Neither the version nor help is asked for. -/
def Runs (l : List Leaf) : Prop := .word "-h" ∉ l ∧ .word "--help" ∉ l ∧ .word "--version" ∉ l

/-- The names of the options whose values are numbers. -/
def longs : List String := ["--sid", "--eid", "--clock-pid", "--chunk-size", "--num-chunks", "--max-packets"]
def ints : List String :=
  ["--clock-pcr", "--clock-time", "--start-margin", "--end-margin", "--wait-until", "--time-limit", "--max-duration"]
def unsigneds : List String := ["--start-pos"]

/-- All values that should be numbers are. -/
def Readable (d : Reader) (l : List Leaf) : Prop := ∀ n s, .value n s ∈ l →
  (n ∈ longs → (d.long s).isSome) ∧ (n ∈ ints → (d.int64 s).isSome) ∧ (n ∈ unsigneds → (d.uint64 s).isSome)

/-- What a command line cannot ask for. -/
def Legal : Cmd → Prop
  | .collectEits _ _ _ _ actual others => ¬ (actual = true ∧ others = true)
  | .collectEitpf _ _ present following => ¬ (present = true ∧ following = true)
  | _ => True

end Mirakc.Spec.Usage
