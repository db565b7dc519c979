import Verif.Spec.Main
/-
Specification vocabulary for commands used on the same stream.
-/
namespace Mirakc.Spec.Agree
open Mirakc.Main
open Mirakc.Pipeline (Codec)
open Mirakc.Spec.ServiceFilter (usablePat)

/-- The second list is the first with packets left out and packets of PMTs put in. -/
inductive Excerpt (c : Codec) : List (List UInt8) → List (List UInt8) → Prop
  | nil : Excerpt c [] []
  | drop {q qs rs} : Excerpt c qs rs → Excerpt c (q :: qs) rs
  | keep {q qs rs} : Excerpt c qs rs → Excerpt c (q :: qs) (q :: rs)
  | pmt {pid t i n qs rs} : Excerpt c qs rs → Excerpt c qs (c.pmtBytes pid t i n :: rs)

/-- The PAT lists the service. -/
def Lists (pat : Pat) (sid : Nat) : Prop := ∃ pid, (sid, pid) ∈ pat.pmts.entries

/-- All usable PATs of the stream list the same services. -/
def SteadyPat (w : World) : Prop :=
  ∀ n m, ∀ t ∈ w.tables n, ∀ t' ∈ w.tables m, ∀ pat pat', usablePat t = some pat → usablePat t' = some pat' →
    ∀ sid, Lists pat sid ↔ Lists pat' sid

end Mirakc.Spec.Agree
