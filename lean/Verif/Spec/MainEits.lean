import Verif.Spec.Main
import Verif.Spec.EitCollector
import Verif.Spec.EventsJson
/-
Specification of the documents of collect-eits and collect-eitpf.
-/
namespace Mirakc.Spec.Main
open Mirakc.Main Mirakc.Spec.EventsJson

/-- The document shows the section: its ids and numbers, and its events, decoded. -/
def Documents (mjd : List UInt8 → Option Int) (e : EitSection) (d : Doc) : Prop :=
  ∃ j evs tail, d = .eit j ∧
    j.originalNetworkId = e.nid ∧ j.transportStreamId = e.tsid ∧ j.serviceId = e.sid ∧
    j.tableId = e.tid ∧ j.sectionNumber = e.sectionNumber ∧
    j.lastSectionNumber = e.lastSectionNumber ∧ j.segmentLastSectionNumber = e.segmentLast ∧
    j.versionNumber = e.version ∧
    (∀ ev ∈ evs, ev.descriptors.length < 4096) ∧ e.events = encode evs ++ tail ∧ tail.length < 12 ∧
    Pairwise₂ (Shown mjd) evs j.events

/-- What the section sink is fed. -/
def sectionInput (w : World) (n : Nat) (b : List UInt8) : SectionInput :=
  { packet := w.codec.packet b, events := w.sections n }

end Mirakc.Spec.Main
