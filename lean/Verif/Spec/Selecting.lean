import Verif.Spec.MainEits
/-
Specification of options that select: what is chosen of a list, and which documents show it.
-/
namespace Mirakc.Spec.Selecting
open Mirakc.Main

/-- The second list consists of the elements of the first that have the property, in order. -/
inductive Picked {α : Type} (P : α → Prop) : List α → List α → Prop
  | nil : Picked P [] []
  | keep {a l l'} : P a → Picked P l l' → Picked P (a :: l) (a :: l')
  | drop {a l l'} : ¬ P a → Picked P l l' → Picked P (a :: l) l'

/-- The document of a section: its service, and the number of the section, have the properties. -/
def SectionDoc (P : Nat → Prop) (Q : Nat → Prop) (d : Doc) : Prop :=
  ∃ j : JsonEit, d = .eit j ∧ P j.serviceId.toNat ∧ Q j.sectionNumber.toNat

end Mirakc.Spec.Selecting
