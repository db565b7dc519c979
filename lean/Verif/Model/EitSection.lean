import Verif.Model.Table
/-
Model of `EitSection`, src/tsduck_helper.hh:82-152, and of `SidSet`, src/base.hh:27-66
(without the parsing of strings).
-/
namespace Mirakc

/-- `ts::Section` (TSDuck): the values read by the code.  `version()` has 5 bits. -/
structure Section where
  sourcePid : Nat := 0x12
  tid : UInt8
  ext : UInt16
  version : Fin 32
  number : UInt8
  last : UInt8
  valid : Bool := true
  next : Bool := false
  payload : List UInt8
deriving DecidableEq

/-- `EitSection`, src/tsduck_helper.hh:82-94, without `pid`, which is not used.
`events` are the `events_size` bytes at `events_data`. -/
structure EitSection where
  sid : UInt16
  tid : UInt8
  nid : UInt16
  tsid : UInt16
  lastTableId : UInt8
  sectionNumber : UInt8
  lastSectionNumber : UInt8
  segmentLast : UInt8
  version : Fin 32
  events : List UInt8
deriving DecidableEq

/-- `ts::GetUInt16` of two bytes (big endian). -/
def getUInt16 (a b : UInt8) : UInt16 := (a.toUInt16 <<< 8) ||| b.toUInt16

namespace EitSection

/-- `EIT_PAYLOAD_FIXED_SIZE`, src/tsduck_helper.hh:96. -/
def payloadFixedSize : Nat := 6

/-- The constructor, src/tsduck_helper.hh:101-117; it reads six bytes of the payload
unconditionally. -/
def make (s : Section) : Except Fault EitSection :=
  match s.payload with
  | b0 :: b1 :: b2 :: b3 :: b4 :: b5 :: events =>
    .ok { sid := s.ext, tid := s.tid, nid := getUInt16 b2 b3, tsid := getUInt16 b0 b1,
          lastTableId := b5, sectionNumber := s.number, lastSectionNumber := s.last,
          segmentLast := b4, version := s.version, events := events }
  | _ => .error .oob

/-- `service_triple`, src/tsduck_helper.hh:119-123. -/
def serviceTriple (e : EitSection) : UInt64 :=
  (e.nid.toUInt64 <<< 48) ||| (e.tsid.toUInt64 <<< 32) ||| (e.sid.toUInt32 <<< 16).toUInt64

/-- `table_index`, src/tsduck_helper.hh:125-127. -/
def tableIndex (e : EitSection) : Nat := (e.tid &&& 0x07).toNat
/-- `last_table_index`, src/tsduck_helper.hh:129-131. -/
def lastTableIndex (e : EitSection) : Nat := (e.lastTableId &&& 0x07).toNat
/-- `segment_index`, src/tsduck_helper.hh:133-135. -/
def segmentIndex (e : EitSection) : Nat := (e.sectionNumber >>> 3).toNat
/-- `section_index`, src/tsduck_helper.hh:137-139. -/
def sectionIndex (e : EitSection) : Nat := (e.sectionNumber &&& 0x07).toNat
/-- `last_segment_index`, src/tsduck_helper.hh:141-143. -/
def lastSegmentIndex (e : EitSection) : Nat := (e.lastSectionNumber >>> 3).toNat
/-- `last_section_index`, src/tsduck_helper.hh:145-147. -/
def lastSectionIndex (e : EitSection) : Nat := (e.segmentLast &&& 0x07).toNat
/-- `IsBasic`, src/tsduck_helper.hh:149-151. -/
def isBasic (e : EitSection) : Bool := e.tid &&& 0x0F < 8

end EitSection

/-- `SidSet`, src/base.hh:27-66: `IsEmpty`, `Contain` and `size` (the list has no
duplicates in C++; here `size` removes them). -/
abbrev SidSet := List UInt16

/-- What `ts::SectionDemux` hands over: a section (`handleSection`) or a table
(`handleTable`). -/
inductive SectionEvent where
  | sect (s : Section)
  | table (t : Table)
deriving DecidableEq

/-- The source PID of the section or table. -/
def SectionEvent.pid : SectionEvent → Nat
  | .sect s => s.sourcePid
  | .table t => t.sourcePid

/-- A packet with the sections and tables that its arrival completes. -/
structure SectionInput where
  packet : Packet
  events : List SectionEvent := []
deriving DecidableEq

/-- `demux_.feedPacket(packet)` for a collector whose PID set never changes: what the
packet completes is handed over in order, if it came from the packet's PID and that PID
is watched. -/
def handedOver (watched : PidSet) (i : SectionInput) : List SectionEvent :=
  i.events.filter fun e => e.pid == i.packet.pid && watched.contains i.packet.pid

end Mirakc
