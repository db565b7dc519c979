import Verif.Spec.EitCollector
import Verif.Model.Main
/-
Specification for C157: one process of collect-eits takes over from another.
-/
namespace Mirakc.Spec.EitsHandover
open Mirakc.Main Mirakc.Spec.EitCollector

/-- A section of a schedule, in use. -/
def Schedule (x : Section) : Prop :=
  x.valid = true ∧ x.next = false ∧ 0x50 ≤ x.tid.toNat ∧ x.tid.toNat ≤ 0x6F

/-- Two sections of the same edition of the schedule of their service: they agree on the last table; if they are of the
same table, on its version; and if they have the same number too, on the last section of their segment. -/
def SameEdition (e d : EitSection) : Prop :=
  group e = group d → lastTable e = lastTable d ∧
    (tableNo e = tableNo d → e.version = d.version ∧ (number e = number d → lastIndex e = lastIndex d))

/-- The schedules do not change. -/
def Unchanging (S : Section → Prop) : Prop :=
  ∀ x y, S x → S y → Schedule x → Schedule y → ∀ e d, Shows e x → Shows d y → SameEdition e d

/-- Two documents of the same section of the same service, the tables 0x50 and 0x60, and so on, being alike. -/
def SamePlace (d d' : Doc) : Prop :=
  ∃ j j', d = .eit j ∧ d' = .eit j' ∧ j.originalNetworkId = j'.originalNetworkId ∧
    j.transportStreamId = j'.transportStreamId ∧ j.serviceId = j'.serviceId ∧
    j.tableId.toNat % 16 = j'.tableId.toNat % 16 ∧ j.sectionNumber = j'.sectionNumber

/-- Two documents of the same version of a table. -/
def SameVersion (d d' : Doc) : Prop :=
  ∃ j j', d = .eit j ∧ d' = .eit j' ∧ j.versionNumber = j'.versionNumber

end Mirakc.Spec.EitsHandover
