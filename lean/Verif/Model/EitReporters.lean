import Verif.Model.Table
import Verif.Model.History
/-
Models of `AirtimeTracker`, src/airtime_tracker.hh, and `ProgramMetadataFilter`,
src/program_metadata_filter.hh.  Both print JSON documents about the EITs of the actual
stream.  `StdoutJsonlSink` prints documents one after the other; the documents printed
during a packet are the second result of `step`.
-/
namespace Mirakc

namespace AirtimeTracker

/-- `AirtimeTrackerOption`, src/airtime_tracker.hh:15-18. -/
structure Opt where
  sid : Nat := 0
  eid : Nat := 0
deriving DecidableEq

/-- The document made by `WriteEventInfo`, src/airtime_tracker.hh:98-105. -/
structure EventInfo where
  nid : Nat
  tsid : Nat
  sid : Nat
  eid : Nat
  startTime : Int
  duration : Int
deriving DecidableEq

/-- Data members, src/airtime_tracker.hh:110-113, and the documents printed. -/
structure St where
  demux : PidSet := [pidEit]
  done : Bool := false
  out : List EventInfo := []
deriving DecidableEq

/-- `WriteEventInfo`, src/airtime_tracker.hh:94-108; `MilliSecPerSec` is 1000. -/
def writeEventInfo (s : St) (eit : Eit) (event : Event) : St :=
  { s with out := s.out ++ [{ nid := eit.onetwId, tsid := eit.tsId, sid := eit.serviceId
                              eid := event.eventId, startTime := jstToUnix event.startTime
                              duration := event.duration * 1000 }] }

/-- `HandleEit`, src/airtime_tracker.hh:51-92. -/
def handleEit (o : Opt) (s : St) (t : Table) (eit : Eit) : St :=
  if !t.valid then s
  else if eit.serviceId != o.sid then s
  else
    match eit.events with
    | [] => { s with done := true }
    | present :: rest =>
      if present.eventId == o.eid then writeEventInfo s eit present
      else
        match rest with
        | [] => { s with done := true }
        | following :: _ =>
          if following.eventId == o.eid then writeEventInfo s eit following
          else { s with done := true }

/-- `handleTable`, src/airtime_tracker.hh:41-49. -/
def handleTable (o : Opt) (s : St) (t : Table) : Except Fault St :=
  match t.body with
  | .eit eit => .ok (handleEit o s t eit)
  | _ => .ok s

/-- `HandlePacket`, src/airtime_tracker.hh:32-38. -/
def step (o : Opt) (s : St) (i : Input) : Except Fault (St × List EventInfo × Bool) := do
  let (s', _) ← feedDemux St.demux (handleTable o) i.packet.pid i.tables s
  .ok (s', s'.out.drop s.out.length, if s'.done then false else true)

/-- The tracker with its history: the documents printed, packet by packet. -/
abbrev Hist := History Input St (List EventInfo)

/-- `AirtimeTracker` as a sink; `End` and `GetExitCode` are those of `PacketSink`,
src/packet_sink.hh:18-24. -/
def sink (o : Opt) : Sink Input Hist := historySink (step o) .ok fun _ => exitSuccess

end AirtimeTracker

namespace ProgramMetadataFilter

/-- `ProgramMetadataFilterOption`, src/program_metadata_filter.hh:16-18. -/
structure Opt where
  sid : Nat := 0
deriving DecidableEq

/-- `MakeJsonValue(const ts::EIT::Event&)`, src/tsduck_helper.hh:471-485; `rest` stands for
the other content of the event, which the remaining members show. -/
structure EventJson where
  eventId : Nat
  startTime : Int
  duration : Int
  rest : Nat
deriving DecidableEq

/-- `MakeJsonValue(const ts::EIT::Event&)`, src/tsduck_helper.hh:471-485. -/
def makeEvent (e : Event) : EventJson :=
  { eventId := e.eventId, startTime := jstToUnix e.startTime, duration := e.duration * 1000, rest := e.rest }

/-- The document made by `WriteEvents`, src/program_metadata_filter.hh:77-80. -/
structure Metadata where
  nid : Nat
  tsid : Nat
  sid : Nat
  events : List EventJson
deriving DecidableEq

/-- Data members, src/program_metadata_filter.hh:85-87, and the documents printed. -/
structure St where
  demux : PidSet := [pidEit]
  out : List Metadata := []
deriving DecidableEq

/-- `WriteEvents`, src/program_metadata_filter.hh:69-83. -/
def writeEvents (s : St) (eit : Eit) : St :=
  { s with out := s.out ++ [{ nid := eit.onetwId, tsid := eit.tsId, sid := eit.serviceId
                              events := eit.events.map makeEvent }] }

/-- `HandleEit`, src/program_metadata_filter.hh:49-67. -/
def handleEit (o : Opt) (s : St) (t : Table) (eit : Eit) : St :=
  if !t.valid then s
  else if o.sid != 0 && eit.serviceId != o.sid then s
  else if eit.events.length == 0 then s
  else writeEvents s eit

/-- `handleTable`, src/program_metadata_filter.hh:39-47. -/
def handleTable (o : Opt) (s : St) (t : Table) : Except Fault St :=
  match t.body with
  | .eit eit => .ok (handleEit o s t eit)
  | _ => .ok s

/-- `HandlePacket`, src/program_metadata_filter.hh:33-36. -/
def step (o : Opt) (s : St) (i : Input) : Except Fault (St × List Metadata × Bool) := do
  let (s', _) ← feedDemux St.demux (handleTable o) i.packet.pid i.tables s
  .ok (s', s'.out.drop s.out.length, true)

/-- The filter with its history: the documents printed, packet by packet. -/
abbrev Hist := History Input St (List Metadata)

/-- `ProgramMetadataFilter` as a sink; `End` and `GetExitCode` are those of `PacketSink`,
src/packet_sink.hh:18-24. -/
def sink (o : Opt) : Sink Input Hist := historySink (step o) .ok fun _ => exitSuccess

end ProgramMetadataFilter
end Mirakc
