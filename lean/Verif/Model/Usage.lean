import Verif.Model.Cli
/-
Model of the usage of the process, `kUsage`, src/main.cc:50-81, with the meaning docopt documents for it: which command
lines it describes, and what `docopt::docopt` (called in src/main.cc:1437) makes of them.  Options may come in any
order; abbreviations of options, and how the words of a command line are split, are left out.
-/
namespace Mirakc.Usage
open Mirakc.Cli (Value Args)

/-- The patterns of docopt. -/
inductive Pat where
  /-- A command, or an option without a value. -/
  | word (name : String)
  /-- An option with a value, or an argument. -/
  | value (name : String)
  | seq (p q : Pat)
  /-- `[…]` -/
  | maybe (p : Pat)
  /-- `…|…` -/
  | either (p q : Pat)
  /-- `… ...` -/
  | many (p : Pat)
deriving DecidableEq

/-- Several patterns, one after the other. -/
def Pat.all : List Pat → Pat
  | [] => .maybe (.word "")
  | [p] => p
  | p :: ps => .seq p (Pat.all ps)

/-- One of several patterns. -/
def Pat.any : List Pat → Pat
  | [] => .word ""
  | [p] => p
  | p :: ps => .either p (Pat.any ps)

/-- `[--name=<value>...]` -/
def Pat.repeated (name : String) : Pat := .maybe (.many (.value name))
/-- `[--name=<value>]` -/
def Pat.maybeValue (name : String) : Pat := .maybe (.value name)
/-- `[--name]` -/
def Pat.maybeWord (name : String) : Pat := .maybe (.word name)

/-- src/main.cc:54-57 -/
def help : Pat := .seq (.either (.word "-h") (.word "--help")) (.maybe (Pat.any
  [.word "scan-services", .word "sync-clocks", .word "collect-eits", .word "collect-eitpf", .word "collect-logos",
    .word "filter-service", .word "filter-program", .word "filter-program-metadata", .word "record-service",
    .word "track-airtime", .word "seek-start", .word "print-pes"]))

/-- src/main.cc:58 -/
def version : Pat := .word "--version"

/-- src/main.cc:59 -/
def scanServices : Pat :=
  Pat.all [.word "scan-services", .repeated "--sids", .repeated "--xsids", .maybeValue "<file>"]

/-- src/main.cc:60 -/
def syncClocks : Pat :=
  Pat.all [.word "sync-clocks", .repeated "--sids", .repeated "--xsids", .maybeValue "<file>"]

/-- src/main.cc:61-64 -/
def collectEits : Pat :=
  Pat.all [.word "collect-eits", .repeated "--sids", .repeated "--xsids", .maybeValue "--time-limit",
    .maybeWord "--streaming", .maybe (.either (.word "--only-actual") (.word "--only-others")),
    .maybeWord "--use-unicode-symbol", .maybeValue "<file>"]

/-- src/main.cc:65-66 -/
def collectEitpf : Pat :=
  Pat.all [.word "collect-eitpf", .repeated "--sids", .maybeWord "--streaming",
    .maybe (.either (.word "--present") (.word "--following")), .maybeValue "<file>"]

/-- src/main.cc:67 -/
def collectLogos : Pat := Pat.all [.word "collect-logos", .maybeValue "<file>"]

/-- src/main.cc:68 -/
def filterService : Pat := Pat.all [.word "filter-service", .value "--sid", .maybeValue "<file>"]

/-- src/main.cc:69-73 -/
def filterProgram : Pat :=
  Pat.all [.word "filter-program", .value "--sid", .value "--eid", .value "--clock-pid", .value "--clock-pcr",
    .value "--clock-time", .repeated "--audio-tags", .repeated "--video-tags", .maybeValue "--start-margin",
    .maybeValue "--end-margin", .maybeValue "--wait-until", .maybeWord "--pre-streaming", .maybeValue "<file>"]

/-- src/main.cc:74 -/
def filterProgramMetadata : Pat :=
  Pat.all [.word "filter-program-metadata", .maybeValue "--sid", .maybeValue "<file>"]

/-- src/main.cc:75-76 -/
def recordService : Pat :=
  Pat.all [.word "record-service", .value "--sid", .value "--file", .value "--chunk-size", .value "--num-chunks",
    .maybeValue "--start-pos", .maybeValue "<file>"]

/-- src/main.cc:77 -/
def trackAirtime : Pat := Pat.all [.word "track-airtime", .value "--sid", .value "--eid", .maybeValue "<file>"]

/-- src/main.cc:78-79 -/
def seekStart : Pat :=
  Pat.all [.word "seek-start", .value "--sid", .maybeValue "--max-duration", .maybeValue "--max-packets",
    .maybeValue "<file>"]

/-- src/main.cc:80 -/
def printPes : Pat := Pat.all [.word "print-pes", .maybeValue "<file>"]

/-- The lines of `kUsage`, src/main.cc:53-80. -/
def usage : List Pat :=
  [help, version, scanServices, syncClocks, collectEits, collectEitpf, collectLogos, filterService, filterProgram,
    filterProgramMetadata, recordService, trackAirtime, seekStart, printPes]

/-- A part of a command line: a command or an option without a value, or an option or an argument with its value. -/
inductive Leaf where
  | word (name : String)
  | value (name : String) (v : List Char)
deriving DecidableEq

/-- The parts are, in this order, those of the pattern. -/
def Matches : Pat → List Leaf → Prop
  | .word n, l => l = [.word n]
  | .value n, l => ∃ v, l = [.value n v]
  | .seq p q, l => ∃ a b, l = a ++ b ∧ Matches p a ∧ Matches q b
  | .maybe p, l => l = [] ∨ Matches p l
  | .either p q, l => Matches p l ∨ Matches q l
  | .many p, l => ∃ ls : List (List Leaf), ls ≠ [] ∧ l = ls.flatten ∧ ∀ x ∈ ls, Matches p x

/-- The command line is one of those described by the usage, up to the order of its parts. -/
def Accepted (l : List Leaf) : Prop := ∃ p ∈ usage, ∃ l', Matches p l' ∧ l.Perm l'

/-- What docopt makes of a name: true or false, a string, or a list of strings. -/
inductive Kind where
  | word
  | value
  | values
deriving DecidableEq

/-- The kind of a name in a pattern. -/
def kindIn (name : String) : Pat → Option Kind
  | .word n => if n = name then some .word else none
  | .value n => if n = name then some .value else none
  | .seq p q => (kindIn name p).or (kindIn name q)
  | .maybe p => kindIn name p
  | .either p q => (kindIn name p).or (kindIn name q)
  | .many p => match kindIn name p with
    | some .value => some .values
    | k => k

/-- The kind of a name of the usage. -/
def kind (name : String) : Option Kind := usage.findSome? (kindIn name)

/-- The values given for a name. -/
def valuesOf (name : String) (l : List Leaf) : List (List Char) :=
  l.filterMap fun
    | .value n v => if n = name then some v else none
    | .word _ => none

/-- The result of docopt: all names of the usage have an entry. -/
def args (l : List Leaf) : Args := fun name =>
  match kind name with
  | none => none
  | some .word => some (.bool (decide (.word name ∈ l)))
  | some .value => match valuesOf name l with
    | [] => some .empty
    | v :: _ => some (.str v)
  | some .values => some (.list (valuesOf name l))

end Mirakc.Usage
