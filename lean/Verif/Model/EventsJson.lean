import Verif.Model.EitSection
import Verif.Model.Pcr
/-
Model of `MakeEventsJsonValue` and `MakeJsonValue(const EitSection&)`,
src/tsduck_helper.hh:487-621.

Simplified: the descriptors of an event are the bytes given to LibISDB, which makes the
JSON values of them.  Handing over bytes behind the payload counts as reading them
(should LibISDB not read them, the loop does so in its next round, because `remain`
has wrapped around).
-/
namespace Mirakc

/-- An element of `events`; `none` stands for `null`. -/
structure JsonEvent where
  eventId : UInt16
  startTime : Option Int
  duration : Option Int
  scrambled : Bool
  descriptors : List UInt8
deriving DecidableEq

/-- `ts::IsValidBCD` (TSDuck). -/
def isValidBcd (b : UInt8) : Bool := b >>> 4 < 10 && b &&& 0x0F < 10
/-- `ts::DecodeBCD` (TSDuck). -/
def decodeBcd (b : UInt8) : Int := 10 * (b >>> 4).toNat + (b &&& 0x0F).toNat

/-- The loop of src/tsduck_helper.hh:494-598, at most `fuel` times; an event has 12 bytes
(`EIT_EVENT_FIXED_SIZE`, src/tsduck_helper.hh:97) before its descriptors.  `mjd` is
`ts::DecodeMJD` of five bytes (TSDuck), `none` if it fails. -/
def makeEvents (mjd : List UInt8 → Option Int) : Nat → List UInt8 → Except Fault (List JsonEvent)
  | 0, _ => .error .diverge
  | fuel + 1, data =>
    match data with
    | b0 :: b1 :: b2 :: b3 :: b4 :: b5 :: b6 :: b7 :: b8 :: b9 :: b10 :: b11 :: rest =>
      let eid := getUInt16 b0 b1
      let startTime := (mjd [b2, b3, b4, b5, b6]).map jstToUnix
      let durationUndefined := !isValidBcd b7 || !isValidBcd b8 || !isValidBcd b9
      let duration := decodeBcd b7 * 3600000 + decodeBcd b8 * 60000 + decodeBcd b9 * 1000
      let caControlled := (b10 >>> 4) &&& 0x01 != 0
      let infoLength := (getUInt16 b10 b11 &&& 0x0FFF).toNat
      if rest.length < infoLength then .error .oob
      else do
        let events ← makeEvents mjd fuel (rest.drop infoLength)
        .ok ({ eventId := eid, startTime := startTime,
               duration := if durationUndefined then none else some duration,
               scrambled := caControlled, descriptors := rest.take infoLength } :: events)
    | _ => .ok []

/-- `MakeEventsJsonValue`, src/tsduck_helper.hh:487-602. -/
def makeEventsJson (mjd : List UInt8 → Option Int) (e : EitSection) : Except Fault (List JsonEvent) :=
  makeEvents mjd (e.events.length + 1) e.events

/-- The document made by `MakeJsonValue(const EitSection&)`. -/
structure JsonEit where
  originalNetworkId : UInt16
  transportStreamId : UInt16
  serviceId : UInt16
  tableId : UInt8
  sectionNumber : UInt8
  lastSectionNumber : UInt8
  segmentLastSectionNumber : UInt8
  versionNumber : Fin 32
  events : List JsonEvent
deriving DecidableEq

/-- `MakeJsonValue(const EitSection&)`, src/tsduck_helper.hh:604-621. -/
def makeJsonEit (mjd : List UInt8 → Option Int) (e : EitSection) : Except Fault JsonEit := do
  let events ← makeEventsJson mjd e
  .ok { originalNetworkId := e.nid, transportStreamId := e.tsid, serviceId := e.sid, tableId := e.tid,
        sectionNumber := e.sectionNumber, lastSectionNumber := e.lastSectionNumber,
        segmentLastSectionNumber := e.segmentLast, versionNumber := e.version, events := events }

end Mirakc
