import Verif.Spec.Again
import Verif.Model.EitSection
/-
Specification vocabulary for C154: sections in the output of filter-service.
-/
namespace Mirakc.Spec.BehindEits
open Mirakc.ServiceFilter (Item Out)

/-- The first list has what each packet of the stream completes, the second what filter-service does with the packet, the third what the
packets passed on complete: packets passed on as they are complete what they complete in the stream; nothing is said about the packets
with rewritten PATs. -/
inductive Repeats : List (List SectionEvent) → List Item → List (List SectionEvent) → Prop
  | nil : Repeats [] [] []
  | drop {l ls it items ss} : it.act = .drop → Repeats ls items ss → Repeats (l :: ls) (it :: items) ss
  | orig {l ls it items ss p} : it.act = .send (.orig p) → Repeats ls items ss → Repeats (l :: ls) (it :: items) (l :: ss)
  | pat {l ls it items ss t n l'} : it.act = .send (.pat t n) → Repeats ls items ss →
      Repeats (l :: ls) (it :: items) (l' :: ss)

end Mirakc.Spec.BehindEits
