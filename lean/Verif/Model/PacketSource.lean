import Verif.Model.Base
/-
Model of src/packet_source.hh: the packet loop (`PacketSource::FeedPackets`) and
packet framing (`FileSource`).
-/
namespace Mirakc

/-- The virtual interface `PacketSink` (src/packet_sink.hh:14-29): `Start`,
`HandlePacket`, `End`, `GetExitCode`, as functions on the sink's state. -/
structure Sink (P σ : Type) where
  start : σ → Except Fault (Bool × σ)
  handle : σ → P → Except Fault (Bool × σ)
  finish : σ → Except Fault σ
  exitCode : σ → Nat

/-- The virtual interface of `PacketSource` (src/packet_source.hh:46): `GetNextPacket`;
`none` stands for the result `false`. -/
structure Source (P τ : Type) where
  next : τ → Except Fault (Option P × τ)

/-- The `while` loop of `FeedPackets` (src/packet_source.hh:34-38).  `fuel`
bounds the number of iterations; running out of it is the outcome `diverge`. -/
def feedLoop {P τ σ : Type} (src : Source P τ) (snk : Sink P σ) :
    Nat → τ → σ → Except Fault (τ × σ)
  | 0, _, _ => .error .diverge
  | fuel + 1, t, s => do
    let (p, t') ← src.next t
    match p with
    | none => .ok (t', s)
    | some p => do
      let (ok, s') ← snk.handle s p
      if ok then feedLoop src snk fuel t' s' else .ok (t', s')

/-- `PacketSource::FeedPackets` (src/packet_source.hh:26-43): returns the exit
code together with the final sink state. -/
def feedPackets {P τ σ : Type} (src : Source P τ) (snk : Sink P σ)
    (fuel : Nat) (t : τ) (s : σ) : Except Fault (Nat × σ) := do
  let (ok, s) ← snk.start s
  if ok then
    let (_, s) ← feedLoop src snk fuel t s
    let s ← snk.finish s
    .ok (snk.exitCode s, s)
  else
    .ok (exitFailure, s)

namespace FileSource

/-- `kMaxDropBytes`, src/packet_source.hh:59. -/
def maxDropBytes : Nat := 2 * pktSize
/-- `kMaxResyncBytes`, src/packet_source.hh:60. -/
def maxResyncBytes : Nat := maxDropBytes + 3 * pktSize
/-- `kReadChunkSize`, src/packet_source.hh:61. -/
def readChunkSize : Nat := 4 * blockSize
/-- `kBufferSize`, src/packet_source.hh:69. -/
def bufferSize : Nat := readChunkSize + maxResyncBytes

/-- State of `FileSource` (src/packet_source.hh:165-169).  `data` is the filled
part `buf_[0 .. end_)` of the buffer, so `end_` is `data.length`.  `reads` is the
oracle for `File::Read`: the byte strings returned by the future calls; an empty
string, or the end of the list, stands for a result `<= 0` (EOF or error). -/
structure St where
  data : List UInt8 := []
  pos : Nat := 0
  eof : Bool := false
  reads : List (List UInt8)
deriving DecidableEq

/-- `buf_[i]`; reading beyond `end_` is out of bounds. -/
def at? (data : List UInt8) (i : Nat) : Except Fault UInt8 :=
  match data[i]? with
  | some b => .ok b
  | none => .error .oob

/-- The `do … while` loop of `FillBuffer` (src/packet_source.hh:109-118); returns
the result, the filled buffer, the new `eof_` and the remaining oracle. -/
def readLoop (minBytes : Nat) (data : List UInt8) :
    List (List UInt8) → Except Fault (Bool × List UInt8 × Bool × List (List UInt8))
  | [] => do
    assertThat (readChunkSize ≤ bufferSize - data.length)
    .ok (false, data, true, [])
  | c :: cs => do
    assertThat (readChunkSize ≤ bufferSize - data.length)
    if c.isEmpty then
      .ok (false, data, true, cs)
    else if (data ++ c).length < minBytes then
      readLoop minBytes (data ++ c) cs
    else
      .ok (true, data ++ c, false, cs)

/-- `FileSource::FillBuffer` (src/packet_source.hh:95-122). -/
def fillBuffer (minBytes : Nat) (s : St) : Except Fault (Bool × St) := do
  assertThat (minBytes ≤ maxResyncBytes)
  assertThat (!s.eof)
  assertThat (s.pos ≤ s.data.length)
  assertThat (s.data.length ≤ bufferSize)
  if minBytes ≤ s.data.length - s.pos then
    .ok (true, s)
  else
    let (ok, data, eof, reads) ← readLoop minBytes (s.data.drop s.pos) s.reads
    .ok (ok, { data := data, pos := 0, eof := eof, reads := reads })

/-- `FileSource::ValidateResync` (src/packet_source.hh:150-154), with the
short-circuit evaluation of `&&`. -/
def validateResync (data : List UInt8) (pos : Nat) : Except Fault Bool := do
  let b1 ← at? data (pos + 1 * pktSize)
  if b1 = syncByte then
    let b2 ← at? data (pos + 2 * pktSize)
    if b2 = syncByte then
      let b3 ← at? data (pos + 3 * pktSize)
      .ok (b3 = syncByte)
    else .ok false
  else .ok false

/-- The `while` loop of `Resync` (src/packet_source.hh:134-144); the first
argument is `resync_end - pos_`. -/
def resyncLoop (data : List UInt8) : Nat → Nat → Except Fault (Bool × Nat)
  | 0, pos => .ok (false, pos)
  | n + 1, pos => do
    let b ← at? data pos
    if b = syncByte then
      if ← validateResync data pos then
        .ok (true, pos)
      else
        resyncLoop data n (pos + 1)
    else
      resyncLoop data n (pos + 1)

/-- `FileSource::Resync` (src/packet_source.hh:124-148). -/
def resync (s : St) : Except Fault (Bool × St) := do
  let (ok, s) ← fillBuffer maxResyncBytes s
  if ok then
    let (ok, pos) ← resyncLoop s.data maxDropBytes s.pos
    .ok (ok, { s with pos := pos })
  else
    .ok (false, s)

/-- The tail of `GetNextPacket` (src/packet_source.hh:88-92): copy 188 bytes from
the buffer.  Copying beyond the filled part is out of bounds. -/
def copyPacket (s : St) : Except Fault (Option (List UInt8) × St) := do
  if s.pos + pktSize ≤ s.data.length then
    let pkt := (s.data.drop s.pos).take pktSize
    assertThat (pkt.head? = some syncByte)
    .ok (some pkt, { s with pos := s.pos + pktSize })
  else
    .error .oob

/-- `FileSource::GetNextPacket` (src/packet_source.hh:75-93). -/
def getNextPacket (s : St) : Except Fault (Option (List UInt8) × St) := do
  let (ok, s) ← fillBuffer pktSize s
  if ok then
    let b ← at? s.data s.pos
    if b = syncByte then
      copyPacket s
    else
      let (ok, s) ← resync s
      if ok then
        let b ← at? s.data s.pos
        assertThat (b = syncByte)
        copyPacket s
      else
        .ok (none, s)
  else
    .ok (none, s)

/-- The packet source of the command line tool. -/
def source : Source (List UInt8) St := ⟨getNextPacket⟩

/-- A freshly opened source (src/packet_source.hh:71, 165-169). -/
def init (reads : List (List UInt8)) : St := { reads := reads }

end FileSource
end Mirakc
