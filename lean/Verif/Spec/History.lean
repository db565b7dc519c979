import Verif.Spec.PacketLoop
import Verif.Model.History
/-
Runs of a sink, offered packets by some source.
-/
namespace Mirakc.Spec

/-- The sink, in state `s0` and offered the packets `is` by some source, ended with the
exit code in state `s`. -/
def Ran {ι σ : Type} (snk : Sink ι σ) (s0 : σ) (is : List ι) (code : Nat) (s : σ) : Prop :=
  ∃ (τ : Type) (src : Source ι τ) (t : τ) (fuel : Nat), Yields src t is ∧ is.length < fuel ∧
    feedPackets src snk fuel t s0 = .ok (code, s)

end Mirakc.Spec
