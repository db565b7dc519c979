import Verif.Model.Main
/-
The text that `PesPrinter` prints, src/pes_printer.hh.

`ts::Time` is printed by TSDuck (src/tsduck_helper.hh:641); its text is given by a function
`time`.  The formats of libfmt are modelled as documented.  Writes to standard output succeed.
-/
namespace Mirakc.PesPrinter

/-- `{:0wX}` of libfmt for a non-negative integer: hexadecimal digits in upper case, padded on
the left with zeros to at least `w` characters. -/
def fmtHex (w n : Nat) : List Char := ((Nat.toDigits 16 n).map Char.toUpper).leftpad w '0'

/-- `{}` of libfmt for a non-negative integer. -/
def fmtNat (n : Nat) : List Char := Nat.toDigits 10 n

/-- `{}` of libfmt for an integer. -/
def fmtInt : Int → List Char
  | .ofNat n => fmtNat n
  | .negSucc n => '-' :: fmtNat (n + 1)

/-- `StreamInfo::type`, src/pes_printer.hh:166-185. -/
def Kind.text : Kind → List Char
  | .audio => "Audio".toList
  | .video => "Video".toList
  | .subtitle => "Subtitle".toList
  | .aribSubtitle => "ARIB-Subtitle".toList
  | .aribSuperimposedText => "ARIB-SuperimposedText".toList
  | .other => "Other".toList

/-- The name of a stream before a PTS or DTS, src/pes_printer.hh:46, 48, 56, 58. -/
def labelText : Option Kind → List Char
  | some k => k.text
  | none => "PES".toList

/-- The messages: src/pes_printer.hh:116, 120 and 133, 146, 158, 168-184, 201, 205, 218, 38,
46 and 48, 56 and 58. -/
def Msg.text (time : Int → List Char) (label : Option Kind) : Msg → List Char
  | .pat version pid => "PAT: V#".toList ++ fmtNat version ++ " PID#".toList ++ fmtHex 4 pid
  | .service sid pmtPid => "  SID#".toList ++ fmtHex 4 sid ++ " => PMT#".toList ++ fmtHex 4 pmtPid
  | .cat version => "CAT: V#".toList ++ fmtNat version
  | .pmt sid pcrPid version =>
    "PMT: SID#".toList ++ fmtHex 4 sid ++ " PCR#".toList ++ fmtHex 4 pcrPid ++ " V#".toList ++ fmtNat version
  | .stream pid kind type => "  PES#".toList ++ fmtHex 4 pid ++ " => ".toList ++ kind.text ++ "#".toList ++ fmtHex 2 type
  | .eit sid version => "EIT p/f Actual: SID#".toList ++ fmtHex 4 sid ++ " V#".toList ++ fmtNat version
  | .event index eid start stop minutes =>
    "  Event[".toList ++ fmtNat index ++ "]: EID#".toList ++ fmtHex 4 eid ++ " ".toList ++ time start ++
      " - ".toList ++ time stop ++ " (".toList ++ fmtInt minutes ++ "m)".toList
  | .tot => "TOT".toList
  | .pcr pid => "PCR#".toList ++ fmtHex 4 pid
  | .pts pid => labelText label ++ "#".toList ++ fmtHex 4 pid ++ " PTS".toList
  | .dts pid => labelText label ++ "#".toList ++ fmtHex 4 pid ++ " DTS".toList

/-- The text of `FormatPcr`; `printPcr` has called it with success before there is a line. -/
def pcrText (pcr : Int) : List Char :=
  match formatPcr pcr with
  | .ok s => s.toList
  | .error _ => []

/-- What is written for a line: src/pes_printer.hh:67, 74, 76, 81. -/
def PLine.text (time : Int → List Char) (l : PLine) : List Char :=
  match l.time, l.pcr with
  | none, none => "                       |              |".toList ++ l.msg.text time l.label ++ ['\n']
  | some t, some pcr => time t ++ "|".toList ++ pcrText pcr ++ "|".toList ++ l.msg.text time l.label ++ ['\n']
  | none, some pcr => "                       |".toList ++ pcrText pcr ++ "|".toList ++ l.msg.text time l.label ++ ['\n']
  | some t, none => time t ++ "|              |".toList ++ l.msg.text time l.label ++ ['\n']

/-- What print-pes has written to standard output when it has ended. -/
def written (time : Int → List Char) (e : Main.Ended) : List Char :=
  e.docs.flatMap fun
    | .line l => l.text time
    | _ => []

end Mirakc.PesPrinter
