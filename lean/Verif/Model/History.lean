import Verif.Model.PacketSource
/-
Sinks together with the history of what they did, packet by packet.  The history is an
addition of the model: it records what the program reads and writes.
-/
namespace Mirakc

/-- What happened during one packet: the input, what was done, and the result of
`HandlePacket`. -/
structure Line (ι α : Type) where
  input : ι
  did : α
  more : Bool
deriving DecidableEq

/-- A state with its history. -/
structure History (ι σ α : Type) where
  st : σ
  items : List (Line ι α) := []
deriving DecidableEq

/-- The sink made of a function for `HandlePacket`, which yields the new state, what was
done, and the result, and functions for `End` and `GetExitCode`.  `Start` returns
true. -/
def historySink {ι σ α : Type} (step : σ → ι → Except Fault (σ × α × Bool))
    (finish : σ → Except Fault σ) (exitCode : σ → Nat) : Sink ι (History ι σ α) where
  start h := .ok (true, h)
  handle h i := do
    let (s, a, more) ← step h.st i
    .ok (more, { st := s, items := h.items ++ [⟨i, a, more⟩] })
  finish h := do
    let s ← finish h.st
    .ok { h with st := s }
  exitCode h := exitCode h.st

end Mirakc
