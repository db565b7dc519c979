import Verif.Model.PesText
import Verif.Spec.EventsJson
/-
A reader of the output of print-pes, as its help text describes it (src/main.cc:855-880):
`[DATETIME]|[CLOCK]|<MESSAGE>`, in columns.
-/
namespace Mirakc.Spec.PesText

/-- The text in lines; each ends with a newline.  `none`: the last line does not end. -/
def lines : List Char → Option (List (List Char))
  | [] => some []
  | c :: r =>
    if c = '\n' then (lines r).map ([] :: ·)
    else
      match lines r with
      | some (l :: ls) => some ((c :: l) :: ls)
      | _ => none

/-- What follows the word. -/
def after : (word text : List Char) → Option (List Char)
  | [], t => some t
  | _ :: _, [] => none
  | c :: w, d :: t => if c = d then after w t else none

/-- The value of a digit; lower case letters are none. -/
def digit (c : Char) : Nat :=
  if '0' ≤ c ∧ c ≤ '9' then c.toNat - 48
  else if 'A' ≤ c ∧ c ≤ 'F' then c.toNat - 55
  else 16

/-- A number with the base in at least `w` digits, and what follows the digits. -/
def number (base w : Nat) (t : List Char) : Option (Nat × List Char) :=
  let ds := t.takeWhile fun c => decide (digit c < base)
  if ds = [] ∨ ds.length < w then none
  else some (ds.foldl (fun n c => base * n + digit c) 0, t.dropWhile fun c => decide (digit c < base))

/-- A number with four hexadecimal digits. -/
def hex4 : List Char → Option (Nat × List Char) := number 16 4
/-- A decimal number. -/
def dec : List Char → Option (Nat × List Char) := number 10 1
/-- A decimal number with sign. -/
def int (t : List Char) : Option (Int × List Char) :=
  match after ['-'] t with
  | some t => (dec t).map fun x => (-(x.1 : Int), x.2)
  | none => (dec t).map fun x => ((x.1 : Int), x.2)

/-- A text of the length, and what follows. -/
def column (n : Nat) (t : List Char) : Option (List Char × List Char) :=
  if t.length < n then none else some (t.take n, t.drop n)

/-- Nothing follows. -/
def done (t : List Char) : Option Unit := if t = [] then some () else none

/-- A message.  Times and names are given by their texts. -/
inductive What where
  | pat (version pid : Nat)
  | service (sid pmtPid : Nat)
  | cat (version : Nat)
  | pmt (sid pcrPid version : Nat)
  | stream (pid : Nat) (name : List Char) (type : Nat)
  | eit (sid version : Nat)
  | event (index eid : Nat) (start stop : List Char) (minutes : Int)
  | tot
  | pcr (pid : Nat)
  | pts (name : List Char) (pid : Nat)
  | dts (name : List Char) (pid : Nat)
deriving DecidableEq

/-- `PAT: V#7 PID#0000` -/
def readPat (t : List Char) : Option What := do
  let t ← after "PAT: V#".toList t
  let (v, t) ← dec t
  let t ← after " PID#".toList t
  let (p, t) ← hex4 t
  done t
  return .pat v p

/-- `  SID#0400 => PMT#01F0` -/
def readService (t : List Char) : Option What := do
  let t ← after "  SID#".toList t
  let (s, t) ← hex4 t
  let t ← after " => PMT#".toList t
  let (p, t) ← hex4 t
  done t
  return .service s p

/-- `CAT: V#7` -/
def readCat (t : List Char) : Option What := do
  let t ← after "CAT: V#".toList t
  let (v, t) ← dec t
  done t
  return .cat v

/-- `PMT: SID#0400 PCR#01FF V#3` -/
def readPmt (t : List Char) : Option What := do
  let t ← after "PMT: SID#".toList t
  let (s, t) ← hex4 t
  let t ← after " PCR#".toList t
  let (p, t) ← hex4 t
  let t ← after " V#".toList t
  let (v, t) ← dec t
  done t
  return .pmt s p v

/-- A name: what is before the `#`. -/
def name (t : List Char) : List Char × List Char := (t.takeWhile (· ≠ '#'), t.dropWhile (· ≠ '#'))

/-- `  PES#0100 => Video#02` -/
def readStream (t : List Char) : Option What := do
  let t ← after "  PES#".toList t
  let (p, t) ← hex4 t
  let t ← after " => ".toList t
  let (k, t) := name t
  let t ← after "#".toList t
  let (ty, t) ← number 16 2 t
  done t
  return .stream p k ty

/-- `EIT p/f Actual: SID#0400 V#5` -/
def readEit (t : List Char) : Option What := do
  let t ← after "EIT p/f Actual: SID#".toList t
  let (s, t) ← hex4 t
  let t ← after " V#".toList t
  let (v, t) ← dec t
  done t
  return .eit s v

/-- `  Event[0]: EID#1A2B 2021/07/02 20:00:00.000 - 2021/07/02 20:45:00.000 (45m)` -/
def readEvent (t : List Char) : Option What := do
  let t ← after "  Event[".toList t
  let (n, t) ← dec t
  let t ← after "]: EID#".toList t
  let (e, t) ← hex4 t
  let t ← after " ".toList t
  let (a, t) ← column 23 t
  let t ← after " - ".toList t
  let (b, t) ← column 23 t
  let t ← after " (".toList t
  let (m, t) ← int t
  let t ← after "m)".toList t
  done t
  return .event n e a b m

/-- `TOT` -/
def readTot (t : List Char) : Option What := do
  let t ← after "TOT".toList t
  done t
  return .tot

/-- `PCR#01FF` -/
def readPcr (t : List Char) : Option What := do
  let t ← after "PCR#".toList t
  let (p, t) ← hex4 t
  done t
  return .pcr p

/-- `Video#0100 PTS` -/
def readStamp (word : List Char) (what : List Char → Nat → What) (t : List Char) : Option What := do
  let (k, t) := name t
  let t ← after "#".toList t
  let (p, t) ← hex4 t
  let t ← after word t
  done t
  return what k p

/-- A message. -/
def message (t : List Char) : Option What :=
  readPat t <|> readService t <|> readCat t <|> readPmt t <|> readStream t <|> readEit t <|>
    readEvent t <|> readTot t <|> readPcr t <|> readStamp " PTS".toList .pts t <|>
    readStamp " DTS".toList .dts t

/-- A line: the text of the time if there is one, base and extension of the clock if there
is one, and the message. -/
structure Row where
  time : Option (List Char)
  clock : Option (Nat × Nat)
  what : What
deriving DecidableEq

/-- Only blanks. -/
def blank (t : List Char) : Bool := t.all (· == ' ')

/-- The column with the clock. -/
def clock (t : List Char) : Option (Option (Nat × Nat)) :=
  if blank t then some none
  else do
    let (b, t) ← number 10 10 t
    let t ← after "+".toList t
    let (e, t) ← number 10 3 t
    done t
    return some (b, e)

/-- A line: the time is in the first 23 columns, the clock in 14 columns after the first
`|`. -/
def row (t : List Char) : Option Row := do
  let (time, t) ← column 23 t
  let t ← after "|".toList t
  let (c, t) ← column 14 t
  let t ← after "|".toList t
  let c ← clock c
  let m ← message t
  return ⟨if blank time then none else some time, c, m⟩

/-- The output, line by line. -/
def read (t : List Char) : Option (List Row) := (lines t).bind fun ls => ls.mapM row

/-- The name of a kind of stream. -/
def kindName : PesPrinter.Kind → String
  | .audio => "Audio"
  | .video => "Video"
  | .subtitle => "Subtitle"
  | .aribSubtitle => "ARIB-Subtitle"
  | .aribSuperimposedText => "ARIB-SuperimposedText"
  | .other => "Other"

/-- The name of a stream, `PES` if nothing is known about it. -/
def streamName (k : Option PesPrinter.Kind) : List Char := ((k.map kindName).getD "PES").toList

/-- What a reader is to find for a message. -/
def whatOf (time : Int → List Char) (label : Option PesPrinter.Kind) : PesPrinter.Msg → What
  | .pat v p => .pat v p
  | .service s p => .service s p
  | .cat v => .cat v
  | .pmt s p v => .pmt s p v
  | .stream p k ty => .stream p (kindName k).toList ty
  | .eit s v => .eit s v
  | .event n e a b m => .event n e (time a) (time b) m
  | .tot => .tot
  | .pcr p => .pcr p
  | .pts p => .pts (streamName label) p
  | .dts p => .dts (streamName label) p

/-- What a reader is to find for a line: the clock is `300 * base + extension`. -/
def Shows (time : Int → List Char) (l : PesPrinter.PLine) (r : Row) : Prop :=
  r.time = l.time.map time ∧ r.what = whatOf time l.label l.msg ∧
    match l.pcr, r.clock with
    | none, none => True
    | some pcr, some (base, ext) => pcr = 300 * base + ext ∧ ext < 300
    | _, _ => False

/-- Texts of times: 23 characters in one line, not all blank, as `2021/07/02 20:00:00.000`. -/
def TimeText (time : Int → List Char) : Prop :=
  ∀ t, (time t).length = 23 ∧ '\n' ∉ time t ∧ blank (time t) = false

end Mirakc.Spec.PesText
