import Verif.Model.Cli
/-
Vocabulary for C129: what the words of a command line say.
-/
namespace Mirakc.Spec.Cli
open Mirakc.Cli (Args Reader)
open Mirakc.Main (Cmd World)

/-- The commands. -/
def names : List String :=
  ["collect-eitpf", "collect-eits", "collect-logos", "filter-program", "filter-program-metadata", "filter-service",
    "print-pes", "record-service", "scan-services", "seek-start", "sync-clocks", "track-airtime"]

/-- The command `c` is given, and no other. -/
def Only (a : Args) (c : String) : Prop := c ∈ names ∧ ∀ x ∈ names, a x = some (.bool (decide (x = c)))

/-- No help is asked for. -/
def NoHelp (a : Args) : Prop := a "-h" = some (.bool false) ∧ a "--help" = some (.bool false)

/-- The flag is given or not. -/
def Switch (a : Args) (name : String) (b : Bool) : Prop := a name = some (.bool b)

/-- The value of the option is read as the number. -/
def Number {α : Type} (read : List Char → Option α) (a : Args) (name : String) (v : α) : Prop :=
  ∃ s, a name = some (.str s) ∧ read s = some v

/-- The option is absent, or its value is read as the number. -/
def MaybeNumber {α : Type} (read : List Char → Option α) (a : Args) (name : String) : Option α → Prop
  | none => a name = some .empty
  | some v => Number read a name v

/-- The option is absent, or has these values. -/
def Words (a : Args) (name : String) : Option (List (List Char)) → Prop
  | none => a name = some .empty
  | some l => a name = some (.list l)

/-- The option has a value. -/
def Word (a : Args) (name : String) : Prop := ∃ s, a name = some (.str s)

/-- The arguments are those of the command, with the numbers read by `d`. -/
def Given (d : Reader) (a : Args) : Cmd → Prop
  | .scanServices ss xs => Only a "scan-services" ∧ Words a "--sids" ss ∧ Words a "--xsids" xs
  | .syncClocks ss xs => Only a "sync-clocks" ∧ Words a "--sids" ss ∧ Words a "--xsids" xs
  | .collectEits ss xs limit streaming actual others => Only a "collect-eits" ∧ Words a "--sids" ss ∧
      Words a "--xsids" xs ∧ MaybeNumber d.int64 a "--time-limit" limit ∧ Switch a "--streaming" streaming ∧
      Switch a "--only-actual" actual ∧ Switch a "--only-others" others ∧ ∃ b, Switch a "--use-unicode-symbol" b
  | .collectEitpf ss streaming present following => Only a "collect-eitpf" ∧ Words a "--sids" ss ∧
      Switch a "--streaming" streaming ∧ Switch a "--present" present ∧ Switch a "--following" following
  | .collectLogos => Only a "collect-logos"
  | .filterService sid => Only a "filter-service" ∧ MaybeNumber d.long a "--sid" sid
  | .filterProgram o => Only a "filter-program" ∧ Number d.long a "--sid" o.sid ∧ Number d.long a "--eid" o.eid ∧
      Number d.long a "--clock-pid" o.clockPid ∧ Number d.int64 a "--clock-pcr" o.clockPcr ∧ Number d.int64 a "--clock-time" o.clockTime ∧
      Words a "--audio-tags" o.audioTags ∧ Words a "--video-tags" o.videoTags ∧
      MaybeNumber d.int64 a "--start-margin" o.startMargin ∧ MaybeNumber d.int64 a "--end-margin" o.endMargin ∧
      MaybeNumber d.int64 a "--wait-until" o.waitUntil ∧ Switch a "--pre-streaming" o.preStreaming
  | .filterProgramMetadata sid => Only a "filter-program-metadata" ∧ MaybeNumber d.long a "--sid" sid
  | .recordService sid chunk num pos => Only a "record-service" ∧ Number d.long a "--sid" sid ∧ Word a "--file" ∧
      Number d.long a "--chunk-size" chunk ∧ Number d.long a "--num-chunks" num ∧ MaybeNumber d.uint64 a "--start-pos" pos
  | .trackAirtime sid eid => Only a "track-airtime" ∧ Number d.long a "--sid" sid ∧ Number d.long a "--eid" eid
  | .seekStart sid duration packets => Only a "seek-start" ∧ Number d.long a "--sid" sid ∧
      MaybeNumber d.int64 a "--max-duration" duration ∧ MaybeNumber d.long a "--max-packets" packets
  | .printPes => Only a "print-pes"

/-- The stream comes from the file named, or, if there is no name, from the standard input, which is open. -/
def Supplied (a : Args) (w : World) : Prop :=
  (∃ s, s ≠ [] ∧ a "<file>" = some (.str s)) ∨
    ((a "<file>" = some .empty ∨ a "<file>" = some (.str [])) ∧ w.opened = true)

end Mirakc.Spec.Cli
