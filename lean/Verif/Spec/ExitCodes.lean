import Verif.Model.Main
/-
Specification vocabulary: what the exit code of a command says.
-/
namespace Mirakc.Spec.ExitCodes
open Mirakc.Main

/-- What can be relied on when a command has ended with its exit code. -/
def Says : Cmd → Ended → Prop
  -- success exactly with a document
  | .scanServices .., e => (e.code = 0 ∧ ∃ l, e.docs = [.services l]) ∨ (e.code = 1 ∧ e.docs = [])
  | .syncClocks .., e => (e.code = 0 ∧ ∃ l, e.docs = [.clocks l]) ∨ (e.code = 1 ∧ e.docs = [])
  | .filterService _, e => e.code = 0 ∨ e.code = 1
  -- "try again" only if nothing was written
  | .filterProgram a, e => e.code = 0 ∨ e.code = 1 ∨ (e.code = 222 ∧ (a.preStreaming = false → e.bytes = []))
  -- failure at once, or a recording between a first and a last message; broken only with failure
  | .recordService .., e =>
    (e.code = 1 ∧ e.docs = [] ∧ ∀ b, .write b ∉ e.ops) ∨
      ∃ ms broken, e.docs = .message .start :: ms ++ [.message (.stop broken)] ∧
        (e.code = 1 ∨ (e.code = 0 ∧ broken = false))
  -- no failure is ever reported
  | _, e => e.code = 0

/-- The bytes are the beginning of packets with the PID of the PAT. -/
def OnlyPat (w : World) (bytes : List UInt8) : Prop :=
  ∃ ps : List Packet, (∀ p ∈ ps, p.pid = 0) ∧ bytes <+: (ps.map w.codec.bytes).flatten

end Mirakc.Spec.ExitCodes
