import Verif.Model.Json
import Verif.Model.Main
/-
The JSON documents of all commands, member by member.

LibISDB and TSDuck are not part of the repository.  What they make of the descriptors of an
event is given (`Decoders`); character strings are given decoded, that is after
`DecodeAribString`, src/tsduck_helper.hh:162-167.
-/
namespace Mirakc.Documents

/-- `LibISDB::AudioComponentDescriptor`. -/
structure Audio where
  streamContent : Nat
  componentType : Nat
  componentTag : Nat
  simulcastGroupTag : Nat
  multiLingual : Bool
  main : Bool
  quality : Nat
  samplingRate : Nat
  language : Nat
  language2 : Nat
  text : Option (List UInt8)

/-- `LibISDB::SeriesDescriptor`; `expire` is in ms. -/
structure Series where
  id : Nat
  repeatLabel : Nat
  pattern : Nat
  expire : Option Int
  episode : Nat
  lastEpisode : Nat
  name : Option (List UInt8)

/-- `LibISDB::EventGroupDescriptor::EventInfo`. -/
structure GroupEvent where
  nid : Nat
  tsid : Nat
  sid : Nat
  eid : Nat

/-- A descriptor, as LibISDB parses it according to its tag. -/
inductive Descriptor where
  | shortEvent (name text : Option (List UInt8))
  | component (streamContent componentType componentTag language : Nat) (text : Option (List UInt8))
  | content (nibbles : List (Nat × Nat × Nat × Nat))
  | audio (a : Audio)
  | series (s : Series)
  | group (type : Nat) (events : List GroupEvent)
  | other

/-- `LibISDB::DescriptorBlock` after `ParseBlock`: the descriptors with `IsValid()`, and the
result of `LibISDB::GetEventExtendedTextList`. -/
structure Block where
  descs : List (Bool × Descriptor)
  extended : Option (List (List UInt8 × List UInt8))

/-- What the libraries make of events.  `block` is LibISDB's view of the bytes of the
descriptors of an event in a section.  The others belong to `ts::EIT::Event`, of which
`Event.rest` stands for the rest: the CA flag, and the descriptors with `isValid()` and the
result of parsing them (`none`: it fails). -/
structure Decoders where
  block : List UInt8 → Block
  scrambled : Nat → Bool
  descs : Nat → List (Bool × Option Descriptor)

/-- A member of an object. -/
def member (k : String) (j : Json) : List UInt8 × Json := (Json.ascii k, j)
/-- A member that is only there sometimes. -/
def optional (k : String) (s : Option (List UInt8)) : List (List UInt8 × Json) :=
  s.toList.map fun s => member k (.str s)
/-- A number. -/
def nat (n : Nat) : Json := .num n
/-- A character string of the model. -/
def utf8 (s : String) : List UInt8 := s.toUTF8.data.toList

/-- `MakeJsonValue(group_type, info)`, src/tsduck_helper.hh:262-278; the group types are 4 and
5 (LibISDB). -/
def groupEventJson (type : Nat) (e : GroupEvent) : Json :=
  .obj ((if type = 4 ∨ type = 5 then
      [member "originalNetworkId" (nat e.nid), member "transportStreamId" (nat e.tsid)] else []) ++
    [member "serviceId" (nat e.sid), member "eventId" (nat e.eid)])

/-- `MakeJsonValue` for the descriptors, src/tsduck_helper.hh:169-294, and the `switch` of
415-466 and 529-568; `none`: nothing is added. -/
def descriptorJson : Descriptor → Option Json
  | .shortEvent name text =>
    some (.obj (member "$type" (.str (Json.ascii "ShortEvent")) ::
      (optional "eventName" name ++ optional "text" text)))
  | .component streamContent componentType componentTag language text =>
    some (.obj ([member "$type" (.str (Json.ascii "Component")), member "streamContent" (nat streamContent),
      member "componentType" (nat componentType), member "componentTag" (nat componentTag),
      member "languageCode" (nat language)] ++ optional "text" text))
  | .content nibbles =>
    some (.obj [member "$type" (.str (Json.ascii "Content")),
      member "nibbles" (.arr (nibbles.map fun (a, b, c, d) => .arr [nat a, nat b, nat c, nat d]))])
  | .audio a =>
    some (.obj ([member "$type" (.str (Json.ascii "AudioComponent")),
      member "streamContent" (nat a.streamContent), member "componentType" (nat a.componentType),
      member "componentTag" (nat a.componentTag), member "simulcastGroupTag" (nat a.simulcastGroupTag),
      member "esMultiLingualFlag" (.bool a.multiLingual), member "mainComponentFlag" (.bool a.main),
      member "qualityIndicator" (nat a.quality), member "samplingRate" (nat a.samplingRate),
      member "languageCode" (nat a.language)] ++
      (if a.multiLingual then [member "languageCode2" (nat a.language2)] else []) ++
      optional "text" a.text))
  | .series s =>
    some (.obj ([member "$type" (.str (Json.ascii "Series")), member "seriesId" (nat s.id),
      member "repeatLabel" (nat s.repeatLabel), member "programPattern" (nat s.pattern)] ++
      (s.expire.toList.map fun t => member "expireDate" (.num (t % 2 ^ 64))) ++
      [member "episodeNumber" (nat s.episode), member "lastEpisodeNumber" (nat s.lastEpisode)] ++
      optional "seriesName" s.name))
  | .group type events =>
    some (.obj [member "$type" (.str (Json.ascii "EventGroup")), member "groupType" (nat type),
      member "events" (.arr (events.map (groupEventJson type)))])
  | .other => none

/-- `MakeExtendedEventJsonValue`, src/tsduck_helper.hh:386-405. -/
def extendedJson (l : List (List UInt8 × List UInt8)) : Json :=
  .obj [member "$type" (.str (Json.ascii "ExtendedEvent")),
    member "items" (.arr (l.map fun (d, t) => .arr [.str d, .str t]))]

/-- The descriptors of an event, src/tsduck_helper.hh:522-576. -/
def blockJson (b : Block) : List Json :=
  (b.descs.filterMap fun (valid, d) => if valid then descriptorJson d else none) ++
  b.extended.toList.map extendedJson

/-- A time, or null. -/
def numOrNull : Option Int → Json
  | some n => .num n
  | none => .null

/-- An event of a section, src/tsduck_helper.hh:578-593. -/
def eventJson (d : Decoders) (e : JsonEvent) : Json :=
  .obj [member "eventId" (nat e.eventId.toNat), member "startTime" (numOrNull e.startTime),
    member "duration" (numOrNull e.duration), member "scrambled" (.bool e.scrambled),
    member "descriptors" (.arr (blockJson (d.block e.descriptors)))]

/-- `MakeJsonValue(const EitSection&)`, src/tsduck_helper.hh:604-621. -/
def eitJson (d : Decoders) (e : JsonEit) : Json :=
  .obj [member "originalNetworkId" (nat e.originalNetworkId.toNat),
    member "transportStreamId" (nat e.transportStreamId.toNat),
    member "serviceId" (nat e.serviceId.toNat), member "tableId" (nat e.tableId.toNat),
    member "sectionNumber" (nat e.sectionNumber.toNat),
    member "lastSectionNumber" (nat e.lastSectionNumber.toNat),
    member "segmentLastSectionNumber" (nat e.segmentLastSectionNumber.toNat),
    member "versionNumber" (nat e.versionNumber.val),
    member "events" (.arr (e.events.map (eventJson d)))]

/-- `MakeJsonValue(const ts::DescriptorList&)`, src/tsduck_helper.hh:407-469. -/
def listJson (l : List (Bool × Option Descriptor)) : List Json :=
  l.filterMap fun (valid, x) => if valid then x.bind descriptorJson else none

/-- `MakeJsonValue(const ts::EIT::Event&)`, src/tsduck_helper.hh:471-485. -/
def tsEventJson (d : Decoders) (e : ProgramMetadataFilter.EventJson) : Json :=
  .obj [member "eventId" (nat e.eventId), member "startTime" (.num e.startTime),
    member "duration" (.num e.duration), member "scrambled" (.bool (d.scrambled e.rest)),
    member "descriptors" (.arr (listJson (d.descs e.rest)))]

/-- src/service_scanner.hh:199-208. -/
def serviceJson (s : ServiceScanner.ServiceEntry) : Json :=
  .obj ([member "nid" (nat s.nid), member "tsid" (nat s.tsid), member "sid" (nat s.sid),
    member "name" (.str (utf8 s.name)), member "type" (nat s.type), member "logoId" (.num s.logoId)] ++
    s.remoteControlKeyId.toList.map fun k => member "remoteControlKeyId" (nat k))

/-- src/pcr_synchronizer.hh:50-58. -/
def clockJson (c : PcrSynchronizer.ClockEntry) : Json :=
  .obj [member "nid" (nat c.nid), member "tsid" (nat c.tsid), member "sid" (nat c.sid),
    member "clock" (.obj [member "pid" (nat c.pid), member "pcr" (.num c.pcr),
      member "time" (.num c.time)])]

/-- `LogoCollector::MakeJsonValue`, src/logo_collector.hh:223-248. -/
def logoJson (l : LogoCollector.Doc) : Json :=
  .obj ([member "type" (nat l.type), member "id" (nat l.id), member "version" (nat l.version),
    member "data" (.str (utf8 l.data)), member "nid" (nat l.nid)] ++
    l.services.toList.map fun svs => member "services" (.arr (svs.map fun s =>
      .obj [member "nid" (nat s.nid), member "tsid" (nat s.tsid), member "sid" (nat s.sid)])))

/-- `WriteEvents`, src/program_metadata_filter.hh:69-83. -/
def metadataJson (d : Decoders) (m : ProgramMetadataFilter.Metadata) : Json :=
  .obj [member "nid" (nat m.nid), member "tsid" (nat m.tsid), member "sid" (nat m.sid),
    member "events" (.arr (m.events.map (tsEventJson d)))]

/-- `WriteEventInfo`, src/airtime_tracker.hh:94-108. -/
def airtimeJson (a : AirtimeTracker.EventInfo) : Json :=
  .obj [member "nid" (nat a.nid), member "tsid" (nat a.tsid), member "sid" (nat a.sid),
    member "eid" (nat a.eid), member "startTime" (.num a.startTime), member "duration" (.num a.duration)]

/-- `record` and `chunk`, src/service_recorder.hh:366-371, 413-418. -/
def recordJson (time : Int) (pos : Nat) : Json :=
  .obj [member "timestamp" (.num (jstToUnix time)), member "pos" (nat pos)]

/-- `SendEventMessage`, src/service_recorder.hh:404-431. -/
def eventMessageJson (d : Decoders) (type : String) (eit : Eit) (event : Event) (time : Int)
    (pos : Nat) : Json :=
  .obj [member "type" (.str (Json.ascii type)), member "data" (.obj [
    member "originalNetworkId" (nat eit.onetwId), member "transportStreamId" (nat eit.tsId),
    member "serviceId" (nat eit.serviceId), member "event" (tsEventJson d (ProgramMetadataFilter.makeEvent event)),
    member "record" (recordJson time pos)])]

/-- The messages, src/service_recorder.hh:334-431. -/
def messageJson (d : Decoders) : ServiceRecorder.Msg → Json
  | .start => .obj [member "type" (.str (Json.ascii "start"))]
  | .stop reset => .obj [member "type" (.str (Json.ascii "stop")),
      member "data" (.obj [member "reset" (.bool reset)])]
  | .chunk time pos => .obj [member "type" (.str (Json.ascii "chunk")),
      member "data" (.obj [member "chunk" (recordJson time pos)])]
  | .eventStart eit event time pos => eventMessageJson d "event-start" eit event time pos
  | .eventUpdate eit event time pos => eventMessageJson d "event-update" eit event time pos
  | .eventEnd eit event time pos => eventMessageJson d "event-end" eit event time pos

/-- The document; a line of print-pes is none. -/
def docJson (d : Decoders) : Main.Doc → Option Json
  | .services l => some (.arr (l.map serviceJson))
  | .clocks l => some (.arr (l.map clockJson))
  | .eit e => some (eitJson d e)
  | .logo l => some (logoJson l)
  | .metadata m => some (metadataJson d m)
  | .message m => some (messageJson d m)
  | .airtime a => some (airtimeJson a)
  | .line _ => none

/-- The bytes on standard output; not for print-pes. -/
def stdout (d : Decoders) (e : Main.Ended) : List UInt8 :=
  e.bytes ++ Json.jsonl (e.docs.filterMap (docJson d))

end Mirakc.Documents
