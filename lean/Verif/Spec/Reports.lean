import Verif.Spec.Main
/-
Specification vocabulary: what filter-program-metadata and track-airtime say about the same event.
-/
namespace Mirakc.Spec.Reports
open Mirakc.Main

/-- A document of filter-program-metadata about the service. -/
def About (sid : Nat) (d : Doc) : Prop := ∃ m : ProgramMetadataFilter.Metadata, d = .metadata m ∧ m.sid = sid

/-- The airtime of an event as a document of track-airtime, if it is the present or the following event in a document
of filter-program-metadata about its service. -/
def airtimeIn (sid eid : Nat) : Doc → Option Doc
  | .metadata m =>
    if m.sid = sid then
      ((m.events.take 2).find? fun x => decide (x.eventId = eid)).map fun x =>
        .airtime { nid := m.nid, tsid := m.tsid, sid := sid, eid := eid, startTime := x.startTime, duration := x.duration }
    else none
  | _ => none

end Mirakc.Spec.Reports
