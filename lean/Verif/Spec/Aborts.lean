import Verif.Spec.History
/-
Runs of a sink that terminate abnormally.
-/
namespace Mirakc.Spec

/-- Offered the packets by any source, the sink terminates abnormally. -/
def Aborts {ι σ : Type} (snk : Sink ι σ) (s0 : σ) (is : List ι) : Prop :=
  ∀ (τ : Type) (src : Source ι τ) (t : τ) (fuel : Nat), Yields src t is → is.length < fuel →
    ∃ f, feedPackets src snk fuel t s0 = .error f

/-- All packets were taken, and more were asked for. -/
def GoesOn {ι σ α : Type} (h : History ι σ α) : Prop := ∀ x ∈ h.items, x.more = true

/-- The packets are `pre ++ i :: post`; with those of `pre`, the sink did what `h` says, asking
for more; and then `i` is bad for it. -/
def StopsAt {ι σ α : Type} (snk : Sink ι (History ι σ α)) (s0 : σ)
    (Bad : List (Line ι α) → ι → Prop) (is : List ι) : Prop :=
  ∃ pre i post code h, is = pre ++ i :: post ∧ Ran snk { st := s0 } pre code h ∧ GoesOn h ∧ Bad h.items i

end Mirakc.Spec
