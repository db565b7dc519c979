import Verif.Model.EitReporters
import Verif.Spec.History
import Verif.Spec.Received
/-
Specification of track-airtime and filter-program-metadata.
-/
namespace Mirakc.Spec.EitReporters

/-- A valid EIT (present/following, actual stream) in its place. -/
def eitOf : Table → Option Eit
  | { sourcePid := 0x12, valid := true, body := .eit x, .. } => some x
  | _ => none

/-- The EITs received. -/
def eits (is : List Input) : List Eit := (received is).filterMap eitOf

/-- Nine hours in ms: broadcast times are JST. -/
def jst : Int := 9 * 60 * 60 * 1000

/-- What there is to say about the event that is tracked: it is the present or the
following event of the EIT of its service. -/
def info (o : AirtimeTracker.Opt) (eit : Eit) : Option AirtimeTracker.EventInfo :=
  if eit.serviceId = o.sid then
    ((eit.events.take 2).find? fun e => decide (e.eventId = o.eid)).map fun e =>
      { nid := eit.onetwId, tsid := eit.tsId, sid := o.sid, eid := o.eid
        startTime := e.startTime - jst, duration := 1000 * e.duration }
  else none

/-- The EIT of the service does not list the event, as present or as following. -/
def Gone (o : AirtimeTracker.Opt) (eit : Eit) : Prop :=
  eit.serviceId = o.sid ∧ ∀ e ∈ eit.events.take 2, e.eventId ≠ o.eid

/-- track-airtime with the options, offered the packets, ended with the exit code. -/
def Tracked (o : AirtimeTracker.Opt) (is : List Input) (code : Nat) (h : AirtimeTracker.Hist) : Prop :=
  Ran (AirtimeTracker.sink o) { st := {} } is code h

/-- What there is to say about the events of an EIT. -/
def metadata (o : ProgramMetadataFilter.Opt) (eit : Eit) : Option ProgramMetadataFilter.Metadata :=
  if (o.sid = 0 ∨ eit.serviceId = o.sid) ∧ eit.events ≠ [] then
    some { nid := eit.onetwId, tsid := eit.tsId, sid := eit.serviceId
           events := eit.events.map fun e => ⟨e.eventId, e.startTime - jst, 1000 * e.duration, e.rest⟩ }
  else none

/-- filter-program-metadata with the options, offered the packets, ended with the exit
code. -/
def Filtered (o : ProgramMetadataFilter.Opt) (is : List Input) (code : Nat)
    (h : ProgramMetadataFilter.Hist) : Prop :=
  Ran (ProgramMetadataFilter.sink o) { st := {} } is code h

end Mirakc.Spec.EitReporters
