import Verif.Tests.Cli
import Verif.Model.Usage
/-
The tests of /repo/test/cli_tests.sh, from the words of the command line on: exit codes of commands that read
/dev/null.  Not transcribed are --version (line 35) and the two that do not match the usage (lines 46 and 52, see the
examples of C135).
-/
namespace Mirakc.Tests.Usage
open Mirakc.Usage
open Mirakc.Cli (Reader)

/-- The value of a digit. -/
def digit (c : Char) : Option Nat :=
  if '0' ≤ c ∧ c ≤ '9' then some (c.toNat - '0'.toNat)
  else if 'A' ≤ c ∧ c ≤ 'F' then some (c.toNat - 'A'.toNat + 10)
  else none

/-- Digits in this base. -/
def digits (base : Nat) (s : List Char) : Option Nat :=
  s.foldl (fun r c => r.bind fun v => (digit c).bind fun d => if d < base then some (v * base + d) else none) (some 0)

/-- Decimal and hexadecimal numbers. -/
def number (s : List Char) : Option Int :=
  match s with
  | '-' :: s => (digits 10 s).map fun v => - (v : Int)
  | '0' :: 'x' :: s => (digits 16 s).map Int.ofNat
  | s => (digits 10 s).map Int.ofNat

/-- The numbers of docopt, with their ranges. -/
def reader : Reader where
  long s := (number s).bind fun v => if -9223372036854775808 ≤ v ∧ v ≤ 9223372036854775807 then some v else none
  int64 s := (number s).bind fun v => if -9223372036854775808 ≤ v ∧ v ≤ 9223372036854775807 then some v else none
  uint64 s := (number s).bind fun v => if 0 ≤ v ∧ v ≤ 18446744073709551615 then some v.toNat else none

/-- A word of the command line. -/
def leaf (s : String) : Leaf :=
  match s.toList.span (· ≠ '=') with
  | (n, '=' :: v) => .value (String.ofList n) v
  | _ => .word s

/-- The exit code; 134 is that of a process that aborts. -/
def code (ws : List String) : Nat :=
  match Cli.main reader Cli.devNull (args (ws.map leaf)) with
  | .ok (.help _) => 0
  | .ok (.ended e) => e.code
  | .error (.refused (.exit n)) => n
  | .error _ => 134

/-- `--sid=1 --eid=1 --clock-pid=1 --clock-pcr=1 --clock-time=1` and more. -/
def program (ws : List String) : List String :=
  ["filter-program", "--sid=1", "--eid=1", "--clock-pid=1", "--clock-pcr=1", "--clock-time=1"] ++ ws

/-- `--sid=1 --file=$TMPFILE` and more. -/
def record (ws : List String) : List String := ["record-service", "--sid=1", "--file=/tmp/file"] ++ ws

/-- cli_tests.sh:24-33. -/
example : ∀ opt ∈ ["-h", "--help"], code [opt] = 0 ∧ ∀ c ∈ Mirakc.Cli.commands, code [c, opt] = 0 := by decide +kernel
/-- cli_tests.sh:37-41. -/
example : ∀ c ∈ ["scan-services", "sync-clocks"], code [c] = 1 ∧
    code [c, "--sids=1", "--sids=0xFFFF", "--xsids=1", "--xsids=0xFFFF"] = 1 := by decide +kernel
/-- cli_tests.sh:43-45. -/
example : code ["collect-eits"] = 0 ∧
    code ["collect-eits", "--sids=1", "--sids=0xFFFF", "--xsids=1", "--xsids=0xFFFF", "--time-limit=0x7FFFFFFFFFFFFFFF",
      "--streaming"] = 0 ∧
    code ["collect-eits", "--time-limit=0xFFFFFFFFFFFFFFFF"] = 134 := by decide +kernel
/-- cli_tests.sh:48-51. -/
example : code ["collect-eitpf"] = 0 ∧ code ["collect-eitpf", "--sids=1", "--sids=0xFFFF", "--streaming"] = 0 ∧
    code ["collect-eitpf", "--sids=1", "--sids=0xFFFF", "--streaming", "--present"] = 0 ∧
    code ["collect-eitpf", "--sids=1", "--sids=0xFFFF", "--streaming", "--following"] = 0 := by decide +kernel
/-- cli_tests.sh:54-55. -/
example : code ["filter-service", "--sid=1"] = 0 ∧ code ["filter-service", "--sid=0xFFFF"] = 0 := by decide +kernel
/-- cli_tests.sh:57-60. -/
example : code (program []) = 0 ∧
    code ["filter-program", "--sid=0xFFFF", "--eid=0xFFFF", "--clock-pid=0xFFFF", "--clock-pcr=0x7FFFFFFFFFFFFFFF",
      "--clock-time=-9223372036854775808", "--start-margin=1", "--end-margin=1", "--wait-until=-9223372036854775808",
      "--pre-streaming"] = 0 ∧
    code ["filter-program", "--sid=1", "--eid=1", "--clock-pid=1", "--clock-pcr=0xFFFFFFFFFFFFFFFFF", "--clock-time=1"] = 134 ∧
    code ["filter-program", "--sid=1", "--eid=1", "--clock-pid=1", "--clock-pcr=1", "--clock-time=-9223372036854775809"] = 134 := by
  decide +kernel
/-- cli_tests.sh:61-66. -/
example : code (program ["--audio-tags=0", "--audio-tags=255", "--video-tags=0", "--video-tags=255"]) = 0 ∧
    ∀ o ∈ ["--audio-tags=-1", "--audio-tags=256", "--video-tags=-1", "--video-tags=256", "--wait-until=-9223372036854775809"],
      code (program [o]) = 134 := by decide +kernel
/-- cli_tests.sh:68-70. -/
example : code ["filter-program-metadata"] = 0 ∧ code ["filter-program-metadata", "--sid=1"] = 0 ∧
    code ["filter-program-metadata", "--sid=0xFFFF"] = 0 := by decide +kernel
/-- cli_tests.sh:72-78. -/
example : code (record ["--chunk-size=8192", "--num-chunks=1"]) = 0 ∧
    code (record ["--chunk-size=8192", "--num-chunks=1", "--start-pos=0"]) = 0 ∧
    code (record ["--chunk-size=8192", "--num-chunks=2", "--start-pos=8192"]) = 0 ∧
    code ["record-service", "--sid=0xFFFF", "--file=/tmp/file", "--chunk-size=0x7FFE0000", "--num-chunks=0x7FFFFFFF",
      "--start-pos=0x3FFEFFFF00040000"] = 0 := by decide +kernel
/-- cli_tests.sh:80-86. -/
example : code (record ["--chunk-size=0", "--num-chunks=1"]) = 134 ∧ code (record ["--chunk-size=1", "--num-chunks=1"]) = 134 ∧
    code (record ["--chunk-size=0xFFFE0000", "--num-chunks=1"]) = 134 ∧
    code (record ["--chunk-size=8192", "--num-chunks=0"]) = 134 ∧
    code (record ["--chunk-size=8192", "--num-chunks=0x80000000"]) = 134 ∧
    code (record ["--chunk-size=8192", "--num-chunks=1", "--start-pos=1"]) = 134 ∧
    code (record ["--chunk-size=8192", "--num-chunks=1", "--start-pos=8192"]) = 134 := by decide +kernel
/-- cli_tests.sh:88-89. -/
example : code ["track-airtime", "--sid=1", "--eid=1"] = 0 ∧ code ["track-airtime", "--sid=0xFFFF", "--eid=0xFFFF"] = 0 := by
  decide +kernel
/-- cli_tests.sh:91-93. -/
example : code ["seek-start", "--sid=1", "--max-duration=1"] = 0 ∧
    code ["seek-start", "--sid=0xFFFF", "--max-duration=0x7FFFFFFFFFFFFFFF", "--max-packets=0x7FFFFFFF"] = 0 ∧
    code ["seek-start", "--sid=0xFFFF", "--max-duration=0xFFFFFFFFFFFFFFFF", "--max-packets=0x7FFFFFFF"] = 134 := by
  decide +kernel
/-- cli_tests.sh:95. -/
example : code ["print-pes"] = 0 := by decide +kernel

end Mirakc.Tests.Usage
