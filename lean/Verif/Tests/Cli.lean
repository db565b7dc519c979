import Verif.Model.Main
/-
The tests of /repo/test/cli_tests.sh, evaluated on the model: exit codes of commands that read
/dev/null.

Not transcribed are the tests whose outcome is decided by docopt: --help, --version, exit code 255 (the arguments do
not match the usage), and numbers out of range (lines 45, 59, 60, 66, 93).
-/
namespace Mirakc.Tests.Cli
open Mirakc.Main

/-- Nothing is read and nothing is written.  All operations on the file of record-service
succeed. -/
def devNull : World where
  codec := { packet := fun _ => { pid := pidNull }, bytes := fun _ => [], patBytes := fun _ _ => [], pmtBytes := fun _ _ _ _ => [] }
  tables _ := []
  tables2 _ _ := []
  sections _ := []
  logos _ := { logos := [], result := true }
  times _ := (0, 0, 0)
  extra _ := 0
  base64 _ := ""
  mjd _ := none
  opened := true
  read := []
  write := []
  file := []

/-- The exit code; 134 is that of a process that aborts. -/
def code (c : Cmd) : Nat :=
  match main devNull c with
  | .ok e => e.code
  | .error (.refused (.exit n)) => n
  | .error _ => 134

def l (ss : List String) : Option (List (List Char)) := some (ss.map String.toList)

/-- The tests use the list `--sids=1 --sids=0xFFFF`. -/
def ids : Option (List (List Char)) := l ["1", "0xFFFF"]
/-- `--clock-pid=1 --clock-pcr=1 --clock-time=1`. -/
def args : Options.ProgramArgs := { sid := 1, eid := 1, clockPid := 1, clockPcr := 1, clockTime := 1 }

/-- cli_tests.sh:37-38. -/
example : code (.scanServices none none) = 1 ∧ code (.scanServices ids ids) = 1 := by decide +kernel
/-- cli_tests.sh:40-41. -/
example : code (.syncClocks none none) = 1 ∧ code (.syncClocks ids ids) = 1 := by decide +kernel
/-- cli_tests.sh:43-44. -/
example : code (.collectEits none none none false false false) = 0 ∧
    code (.collectEits ids ids (some 0x7FFFFFFFFFFFFFFF) true false false) = 0 := by decide +kernel
/-- cli_tests.sh:48-51. -/
example : code (.collectEitpf none false false false) = 0 ∧ code (.collectEitpf ids true false false) = 0 ∧
    code (.collectEitpf ids true true false) = 0 ∧ code (.collectEitpf ids true false true) = 0 := by decide +kernel
/-- cli_tests.sh:54-55. -/
example : code (.filterService (some 1)) = 0 ∧ code (.filterService (some 0xFFFF)) = 0 := by decide +kernel
/-- cli_tests.sh:57-58. -/
example : code (.filterProgram args) = 0 ∧
    code (.filterProgram
      { sid := 0xFFFF, eid := 0xFFFF, clockPid := 0xFFFF, clockPcr := 0x7FFFFFFFFFFFFFFF
        clockTime := -9223372036854775808, startMargin := some 1, endMargin := some 1
        waitUntil := some (-9223372036854775808), preStreaming := true }) = 0 := by decide +kernel
/-- cli_tests.sh:61-65. -/
example : code (.filterProgram { args with audioTags := l ["0", "255"], videoTags := l ["0", "255"] }) = 0 ∧
    code (.filterProgram { args with audioTags := l ["-1"] }) = 134 ∧
    code (.filterProgram { args with audioTags := l ["256"] }) = 134 ∧
    code (.filterProgram { args with videoTags := l ["-1"] }) = 134 ∧
    code (.filterProgram { args with videoTags := l ["256"] }) = 134 := by decide +kernel
/-- cli_tests.sh:68-70. -/
example : code (.filterProgramMetadata none) = 0 ∧ code (.filterProgramMetadata (some 1)) = 0 ∧
    code (.filterProgramMetadata (some 0xFFFF)) = 0 := by decide +kernel
/-- cli_tests.sh:72-78. -/
example : code (.recordService 1 8192 1 none) = 0 ∧ code (.recordService 1 8192 1 (some 0)) = 0 ∧
    code (.recordService 1 8192 2 (some 8192)) = 0 ∧
    code (.recordService 0xFFFF 0x7FFE0000 0x7FFFFFFF (some 0x3FFEFFFF00040000)) = 0 := by decide +kernel
/-- cli_tests.sh:80-86. -/
example : code (.recordService 1 0 1 none) = 134 ∧ code (.recordService 1 1 1 none) = 134 ∧
    code (.recordService 1 0xFFFE0000 1 none) = 134 ∧ code (.recordService 1 8192 0 none) = 134 ∧
    code (.recordService 1 8192 0x80000000 none) = 134 ∧ code (.recordService 1 8192 1 (some 1)) = 134 ∧
    code (.recordService 1 8192 1 (some 8192)) = 134 := by decide +kernel
/-- cli_tests.sh:88-89. -/
example : code (.trackAirtime 1 1) = 0 ∧ code (.trackAirtime 0xFFFF 0xFFFF) = 0 := by decide +kernel
/-- cli_tests.sh:91-92. -/
example : code (.seekStart 1 (some 1) none) = 0 ∧
    code (.seekStart 0xFFFF (some 0x7FFFFFFFFFFFFFFF) (some 0x7FFFFFFF)) = 0 := by decide +kernel
/-- cli_tests.sh:95. -/
example : code .printPes = 0 := by decide +kernel

end Mirakc.Tests.Cli
