import Verif.Model.Main
/-
Specification for C155: one process of collect-eitpf takes over from another.
-/
namespace Mirakc.Spec.EitpfHandover
open Mirakc.Main

/-- Two documents of the same section of the same service, in the same version. -/
def SameSection (d d' : Doc) : Prop :=
  ∃ j j', d = .eit j ∧ d' = .eit j' ∧ j.originalNetworkId = j'.originalNetworkId ∧
    j.transportStreamId = j'.transportStreamId ∧ j.serviceId = j'.serviceId ∧ j.sectionNumber = j'.sectionNumber ∧
    j.versionNumber = j'.versionNumber

end Mirakc.Spec.EitpfHandover
