import Verif.Spec.Main
import Verif.Spec.ServiceFilter
/-
Specification vocabulary: filter-service on its own output.
-/
namespace Mirakc.Spec.ServiceFilter
open Mirakc.ServiceFilter (Out Act Item)

/-- `Again is items ts`: the filter received the packets `is` with the history `items`, and `ts` are
the tables completed by the packets it passed on when these are read again.  A packet passed on as it
is completes the same tables as before.  A packet made from a PAT completes this PAT or nothing on
PID 0; it completes the PAT if the packet it replaces completed a usable PAT. -/
inductive Again : List Input → List Item → List (List Table) → Prop
  | nil : Again [] [] []
  | drop {i is it items ts} : it.act = .drop → Again is items ts → Again (i :: is) (it :: items) ts
  | orig {i is it items ts p} : it.act = .send (.orig p) → Again is items ts →
      Again (i :: is) (it :: items) (i.tables :: ts)
  | pat {i is it items ts t n} {l : List Table} : it.act = .send (.pat t n) →
      (∀ u ∈ l, u.sourcePid = 0 → u.valid = true ∧ u.body = .pat t) →
      ((∃ u ∈ it.handled, usablePat u ≠ none) → ∃ u ∈ l, u.sourcePid = 0) → Again is items ts →
      Again (i :: is) (it :: items) (l :: ts)

/-- A CAT or a PMT of the service is received only with a packet that is passed on as it is. -/
def Carried (sid : Nat) (items : List Item) : Prop :=
  ∀ it ∈ items, (∃ t ∈ it.handled, validCat t ≠ none ∨ validPmt sid t ≠ none) → ∃ p, it.act = .send (.orig p)

/-- The packets passed on, with the tables they complete when they are read again. -/
def reread (fields : Out → Packet) (os : List Out) (ts : List (List Table)) : List Input :=
  List.zipWith (fun x l => ⟨fields x, l⟩) os ts

end Mirakc.Spec.ServiceFilter
