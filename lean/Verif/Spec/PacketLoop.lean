import Verif.Model.PacketSource
/-
Specification vocabulary for packet sources and sinks.
-/
namespace Mirakc.Spec

/-- `Yields src t ps`: asked repeatedly, the source delivers exactly the packets
`ps` and then reports the end of the stream, without any abnormal outcome. -/
inductive Yields {P τ : Type} (src : Source P τ) : τ → List P → Prop
  | stop {t t'} : src.next t = .ok (none, t') → Yields src t []
  | more {t t' p ps} : src.next t = .ok (some p, t') → Yields src t' ps → Yields src t (p :: ps)

/-- `Consumes snk s ps cs s'`: offered the packets `ps`, the sink in state `s`
receives exactly `cs` (everything up to and including the first packet it
refuses) and ends in state `s'`. -/
inductive Consumes {P σ : Type} (snk : Sink P σ) : σ → List P → List P → σ → Prop
  | eof {s} : Consumes snk s [] [] s
  | refuse {s s' p ps} : snk.handle s p = .ok (false, s') → Consumes snk s (p :: ps) [p] s'
  | accept {s s' s'' p ps cs} : snk.handle s p = .ok (true, s') → Consumes snk s' ps cs s'' →
      Consumes snk s (p :: ps) (p :: cs) s''

/-- `Accepts snk s ps s'`: the sink in state `s` accepts every packet of `ps` and
ends in state `s'`. -/
inductive Accepts {P σ : Type} (snk : Sink P σ) : σ → List P → σ → Prop
  | nil {s} : Accepts snk s [] s
  | cons {s s' s'' p ps} : snk.handle s p = .ok (true, s') → Accepts snk s' ps s'' →
      Accepts snk s (p :: ps) s''

/-- A call received by a sink. -/
inductive Call (P : Type) where
  | start
  | handle (p : P)
  | finish
deriving DecidableEq

/-- Any sink, extended by a log of the calls it receives. -/
def logged {P σ : Type} (snk : Sink P σ) : Sink P (σ × List (Call P)) where
  start s := (snk.start s.1).map fun r => (r.1, r.2, s.2 ++ [.start])
  handle s p := (snk.handle s.1 p).map fun r => (r.1, r.2, s.2 ++ [.handle p])
  finish s := (snk.finish s.1).map fun r => (r, s.2 ++ [.finish])
  exitCode s := snk.exitCode s.1

/-- The sink never terminates abnormally. -/
structure Total {P σ : Type} (snk : Sink P σ) : Prop where
  start : ∀ s, ∃ r, snk.start s = .ok r
  handle : ∀ s p, ∃ r, snk.handle s p = .ok r
  finish : ∀ s, ∃ r, snk.finish s = .ok r

end Mirakc.Spec
