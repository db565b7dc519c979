import Verif.Spec.Json
import Verif.Spec.EventsJson
import Verif.Model.Documents
/-
The JSON documents as described by the help texts, src/main.cc:127-143 (scan-services),
182-203 (sync-clocks), 269-320 (collect-eits), 367-368 (collect-eitpf), 398-424
(collect-logos), 606-622 (filter-program-metadata), 663-735 (record-service), 779-792
(track-airtime).
-/
namespace Mirakc.Spec.Documents
open Mirakc.Documents (Decoders Descriptor Block GroupEvent)
open Mirakc.Main (Doc Cmd)
open Mirakc.Spec.EventsJson (Pairwise₂)

/-- The value of the member with the name; the first if there are several. -/
def field (k : String) : Json → Option Json
  | .obj l => l.lookup (Json.ascii k)
  | _ => none

/-- A number. -/
def IsNum (k : String) (n : Int) (j : Json) : Prop := field k j = some (.num n)
/-- A character string, or nothing. -/
def IsStr (k : String) (s : Option (List UInt8)) (j : Json) : Prop := field k j = s.map .str
/-- The value of "type" or "$type". -/
def IsWord (k s : String) (j : Json) : Prop := field k j = some (.str (Json.ascii s))
/-- An array with one element for each element of the list. -/
def IsList {α : Type} (k : String) (R : α → Json → Prop) (l : List α) (j : Json) : Prop :=
  ∃ js, field k j = some (.arr js) ∧ Pairwise₂ R l js

/-- An event of an event group; the network is shown if the group goes beyond it. -/
def IsGroupEvent (type : Nat) (e : GroupEvent) (j : Json) : Prop :=
  IsNum "serviceId" e.sid j ∧ IsNum "eventId" e.eid j ∧
  (if type = 4 ∨ type = 5 then IsNum "originalNetworkId" e.nid j ∧ IsNum "transportStreamId" e.tsid j
   else field "originalNetworkId" j = none ∧ field "transportStreamId" j = none)

/-- The descriptor is shown. -/
def IsDescriptor : Descriptor → Json → Prop
  | .shortEvent name text, j => IsWord "$type" "ShortEvent" j ∧ IsStr "eventName" name j ∧ IsStr "text" text j
  | .component sc ct tag lang text, j => IsWord "$type" "Component" j ∧ IsNum "streamContent" sc j ∧
      IsNum "componentType" ct j ∧ IsNum "componentTag" tag j ∧ IsNum "languageCode" lang j ∧
      IsStr "text" text j
  | .content l, j => IsWord "$type" "Content" j ∧
      IsList "nibbles" (fun (a, b, c, d) j => j = .arr [.num a, .num b, .num c, .num d]) l j
  | .audio a, j => IsWord "$type" "AudioComponent" j ∧ IsNum "streamContent" a.streamContent j ∧
      IsNum "componentType" a.componentType j ∧ IsNum "componentTag" a.componentTag j ∧
      IsNum "simulcastGroupTag" a.simulcastGroupTag j ∧
      field "esMultiLingualFlag" j = some (.bool a.multiLingual) ∧
      field "mainComponentFlag" j = some (.bool a.main) ∧ IsNum "qualityIndicator" a.quality j ∧
      IsNum "samplingRate" a.samplingRate j ∧ IsNum "languageCode" a.language j ∧
      field "languageCode2" j = (if a.multiLingual then some (.num a.language2) else none) ∧
      IsStr "text" a.text j
  | .series s, j => IsWord "$type" "Series" j ∧ IsNum "seriesId" s.id j ∧
      IsNum "repeatLabel" s.repeatLabel j ∧ IsNum "programPattern" s.pattern j ∧
      (match s.expire with
       | none => field "expireDate" j = none
       | some t => 0 ≤ t → t < 2 ^ 64 → IsNum "expireDate" t j) ∧
      IsNum "episodeNumber" s.episode j ∧ IsNum "lastEpisodeNumber" s.lastEpisode j ∧
      IsStr "seriesName" s.name j
  | .group type events, j => IsWord "$type" "EventGroup" j ∧ IsNum "groupType" type j ∧
      IsList "events" (IsGroupEvent type) events j
  | .other, _ => False

/-- The descriptors that are shown. -/
def isShown : Descriptor → Bool
  | .other => false
  | _ => true

/-- The extended texts. -/
def IsExtended (l : List (List UInt8 × List UInt8)) (j : Json) : Prop :=
  IsWord "$type" "ExtendedEvent" j ∧ IsList "items" (fun (d, t) j => j = .arr [.str d, .str t]) l j

/-- The descriptors of an event of a section: the valid ones of the kinds shown, in their
order, and then the extended texts. -/
def AreDescriptors (b : Block) (js : List Json) : Prop :=
  ∃ l1 l2, js = l1 ++ l2 ∧
    Pairwise₂ IsDescriptor ((b.descs.filter fun (v, x) => v && isShown x).map (·.2)) l1 ∧
    Pairwise₂ IsExtended b.extended.toList l2

/-- A time, null if it is undefined. -/
def IsTime (k : String) (t : Option Int) (j : Json) : Prop :=
  match t with
  | some t => IsNum k t j
  | none => field k j = some .null

/-- An event of a section. -/
def IsEvent (d : Decoders) (e : JsonEvent) (j : Json) : Prop :=
  IsNum "eventId" e.eventId.toNat j ∧ IsTime "startTime" e.startTime j ∧
  IsTime "duration" e.duration j ∧ field "scrambled" j = some (.bool e.scrambled) ∧
  ∃ js, field "descriptors" j = some (.arr js) ∧ AreDescriptors (d.block e.descriptors) js

/-- An event of a table: the valid descriptors of the kinds shown that can be parsed. -/
def IsTableEvent (d : Decoders) (e : ProgramMetadataFilter.EventJson) (j : Json) : Prop :=
  IsNum "eventId" e.eventId j ∧ IsNum "startTime" e.startTime j ∧ IsNum "duration" e.duration j ∧
  field "scrambled" j = some (.bool (d.scrambled e.rest)) ∧
  IsList "descriptors" IsDescriptor
    (((d.descs e.rest).filter (·.1)).filterMap fun (_, x) => x.filter isShown) j

/-- A service of scan-services. -/
def IsService (s : ServiceScanner.ServiceEntry) (j : Json) : Prop :=
  IsNum "nid" s.nid j ∧ IsNum "tsid" s.tsid j ∧ IsNum "sid" s.sid j ∧
  IsStr "name" (some (Documents.utf8 s.name)) j ∧ IsNum "type" s.type j ∧ IsNum "logoId" s.logoId j ∧
  (match s.remoteControlKeyId with
   | some k => IsNum "remoteControlKeyId" k j
   | none => field "remoteControlKeyId" j = none)

/-- A clock of sync-clocks. -/
def IsClock (c : PcrSynchronizer.ClockEntry) (j : Json) : Prop :=
  IsNum "nid" c.nid j ∧ IsNum "tsid" c.tsid j ∧ IsNum "sid" c.sid j ∧
  ∃ k, field "clock" j = some k ∧ IsNum "pid" c.pid k ∧ IsNum "pcr" c.pcr k ∧ IsNum "time" c.time k

/-- A message of record-service. -/
def IsMessage (d : Decoders) (j : Json) : ServiceRecorder.Msg → Prop
  | .start => IsWord "type" "start" j ∧ field "data" j = none
  | .stop reset => IsWord "type" "stop" j ∧
      ∃ x, field "data" j = some x ∧ field "reset" x = some (.bool reset)
  | .chunk t p => IsWord "type" "chunk" j ∧ ∃ x y, field "data" j = some x ∧ field "chunk" x = some y ∧
      IsNum "timestamp" (t - 32400000) y ∧ IsNum "pos" p y
  | .eventStart eit ev t p => IsWord "type" "event-start" j ∧ Event eit ev t p
  | .eventUpdate eit ev t p => IsWord "type" "event-update" j ∧ Event eit ev t p
  | .eventEnd eit ev t p => IsWord "type" "event-end" j ∧ Event eit ev t p
where
  /-- The data of an event message: times are JST in the program, nine hours ahead. -/
  Event (eit : Eit) (ev : Mirakc.Event) (t : Int) (p : Nat) : Prop :=
    ∃ x y z, field "data" j = some x ∧ IsNum "originalNetworkId" eit.onetwId x ∧
      IsNum "transportStreamId" eit.tsId x ∧ IsNum "serviceId" eit.serviceId x ∧
      field "event" x = some y ∧
      IsTableEvent d ⟨ev.eventId, ev.startTime - 32400000, 1000 * ev.duration, ev.rest⟩ y ∧
      field "record" x = some z ∧ IsNum "timestamp" (t - 32400000) z ∧ IsNum "pos" p z

/-- What the JSON document shows. -/
def Describes (d : Decoders) : Doc → Json → Prop
  | .services l, j => ∃ js, j = .arr js ∧ Pairwise₂ IsService l js
  | .clocks l, j => ∃ js, j = .arr js ∧ Pairwise₂ IsClock l js
  | .eit e, j =>
    IsNum "originalNetworkId" e.originalNetworkId.toNat j ∧
    IsNum "transportStreamId" e.transportStreamId.toNat j ∧ IsNum "serviceId" e.serviceId.toNat j ∧
    IsNum "tableId" e.tableId.toNat j ∧ IsNum "sectionNumber" e.sectionNumber.toNat j ∧
    IsNum "lastSectionNumber" e.lastSectionNumber.toNat j ∧
    IsNum "segmentLastSectionNumber" e.segmentLastSectionNumber.toNat j ∧
    IsNum "versionNumber" e.versionNumber.val j ∧ IsList "events" (IsEvent d) e.events j
  | .logo l, j =>
    IsNum "type" l.type j ∧ IsNum "id" l.id j ∧ IsNum "version" l.version j ∧
    IsStr "data" (some (Documents.utf8 l.data)) j ∧ IsNum "nid" l.nid j ∧
    (match l.services with
     | none => field "services" j = none
     | some svs => IsList "services" (fun s j => IsNum "nid" s.nid j ∧ IsNum "tsid" s.tsid j ∧
         IsNum "sid" s.sid j) svs j)
  | .metadata m, j =>
    IsNum "nid" m.nid j ∧ IsNum "tsid" m.tsid j ∧ IsNum "sid" m.sid j ∧
    IsList "events" (IsTableEvent d) m.events j
  | .message m, j => IsMessage d j m
  | .airtime a, j =>
    IsNum "nid" a.nid j ∧ IsNum "tsid" a.tsid j ∧ IsNum "sid" a.sid j ∧ IsNum "eid" a.eid j ∧
    IsNum "startTime" a.startTime j ∧ IsNum "duration" a.duration j
  | .line _, _ => False

/-- The commands that pass packets. -/
def passes : Cmd → Bool
  | .filterService _ | .filterProgram _ | .seekStart .. => true
  | _ => false

mutual
/-- No object has two members of the same name. -/
def Distinct : Json → Prop
  | .arr l => DistinctItems l
  | .obj l => (l.map (·.1)).Nodup ∧ DistinctMembers l
  | _ => True
/-- The same for the elements of an array. -/
def DistinctItems : List Json → Prop
  | [] => True
  | x :: l => Distinct x ∧ DistinctItems l
/-- The same for the members of an object. -/
def DistinctMembers : List (List UInt8 × Json) → Prop
  | [] => True
  | (_, x) :: l => Distinct x ∧ DistinctMembers l
end

end Mirakc.Spec.Documents
