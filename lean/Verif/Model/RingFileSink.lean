import Verif.Model.PacketSource
/-
Model of src/ring_file_sink.hh (`RingFileSink`).
-/
namespace Mirakc.RingFileSink

/-- `kBufferSize`, src/ring_file_sink.hh:35. -/
def bufferSize : Nat := 2 * blockSize
/-- `kMaxChunkSize`, src/ring_file_sink.hh:36. -/
def maxChunkSize : Nat := bufferSize * 0x3FFFF
/-- `kMaxNumChunks`, src/ring_file_sink.hh:37. -/
def maxNumChunks : Nat := 0x7FFFFFFF

/-- What the sink does to the outside world, in order.  `write`, `sync`, `trunc`
and `seek` are the successful calls of `File` (src/file.hh); `write` carries the
bytes that were really written.  `notify` is `PacketRingObserver::OnEndOfChunk`.
`failed` is a call of `File` that reported a failure (and had no effect). -/
inductive Op where
  | write (bytes : List UInt8)
  | sync
  | trunc (size : Nat)
  | seek (offset : Nat)
  | notify (pos : Nat)
  | failed
deriving DecidableEq, Repr

/-- State of `RingFileSink` (src/ring_file_sink.hh:174-182) and its environment.
`buf` is the filled part `buf_[0 .. buf_pos_)`; `results` is the oracle for the
calls of `File`: a result `<= 0` is a failure, for `Write` a positive result is
the byte count (cut to the requested count); when the list is exhausted every
call succeeds completely.  `log` is everything done so far.  An observer is
always connected (`ServiceRecorder::Start`); without one the code differs only
by not notifying. -/
structure St where
  chunkSize : Nat
  ringSize : Nat
  buf : List UInt8 := []
  ringPos : Nat := 0
  chunkPos : Nat := 0
  broken : Bool := false
  results : List Int := []
  log : List Op := []
deriving DecidableEq, Repr

/-- The constructor (src/ring_file_sink.hh:19-31).  `uint64_t` multiplication
cannot overflow within the asserted limits (2^31 * 2^31). -/
def new (chunkSize numChunks : Nat) (results : List Int) : Except Fault St := do
  assertThat (chunkSize > 0)
  assertThat (chunkSize ≤ maxChunkSize)
  assertThat (numChunks > 0)
  assertThat (numChunks ≤ maxNumChunks)
  assertThat (chunkSize % bufferSize = 0)
  .ok { chunkSize := chunkSize, ringSize := chunkSize * numChunks, results := results }

/-- One call of `File::Sync`, `File::Trunc` or `File::Seek`, recorded as `op` when
it succeeds. -/
def call (op : Op) (s : St) : Bool × St :=
  match s.results with
  | [] => (true, { s with log := s.log ++ [op] })
  | r :: rs =>
    if r > 0 then (true, { s with log := s.log ++ [op], results := rs })
    else (false, { s with log := s.log ++ [.failed], results := rs })

/-- `SetPosition` (src/ring_file_sink.hh:78-95). -/
def setPosition (s : St) (pos : Nat) : Except Fault (Bool × St) := do
  assertThat (pos ≤ 2 ^ 63 - 1)
  assertThat (pos % bufferSize = 0)
  assertThat (pos < s.ringSize)
  assertThat (pos % s.chunkSize = 0)
  let (ok, s) := call (.seek pos) s
  if ok then
    .ok (true, { s with buf := [], ringPos := pos, chunkPos := 0 })
  else
    .ok (false, s)

/-- `FillBuffer` (src/ring_file_sink.hh:107-115); returns the number of bytes
taken from `data`. -/
def fillBuffer (s : St) (data : List UInt8) : Except Fault (Nat × St) := do
  let n := min data.length (bufferSize - s.buf.length)
  let s := { s with buf := s.buf ++ data.take n }
  assertThat (s.buf.length ≤ bufferSize)
  let s := { s with ringPos := s.ringPos + n }
  assertThat (s.ringPos ≤ s.ringSize)
  .ok (n, s)

/-- The `while` loop of `Flush` (src/ring_file_sink.hh:124-134); returns the
result, the remaining oracle and the extended log. -/
def writeLoop (buf : List UInt8) (nwritten : Nat) (log : List Op) :
    List Int → Bool × List Int × List Op
  | [] =>
    if nwritten < bufferSize then (true, [], log ++ [.write (buf.drop nwritten)])
    else (true, [], log)
  | r :: rs =>
    if nwritten < bufferSize then
      if r ≤ 0 then
        (false, rs, log ++ [.failed])
      else
        let n := min r.toNat (bufferSize - nwritten)
        writeLoop buf (nwritten + n) (log ++ [.write ((buf.drop nwritten).take n)]) rs
    else
      (true, r :: rs, log)

/-- The chunk boundary part of `Flush` (src/ring_file_sink.hh:138-152). -/
def endChunk (s : St) : Except Fault (Bool × St) := do
  let s := { s with chunkPos := s.chunkPos + bufferSize }
  assertThat (s.chunkPos ≤ s.chunkSize)
  if s.chunkPos = s.chunkSize then
    assertThat (s.ringPos ≠ 0)
    assertThat (s.ringPos % s.chunkSize = 0)
    let (ok, s) := call .sync s
    if ok then
      .ok (true, { s with chunkPos := 0, log := s.log ++ [.notify s.ringPos] })
    else
      .ok (false, s)
  else
    .ok (true, s)

/-- The ring boundary part of `Flush` (src/ring_file_sink.hh:154-167). -/
def endRing (s : St) : Bool × St :=
  if s.ringPos = s.ringSize then
    let (ok, s) := call (.trunc s.ringSize) s
    if ok then
      let (ok, s) := call (.seek 0) s
      if ok then
        (true, { s with ringPos := 0 })
      else
        (false, s)
    else
      (false, s)
  else
    (true, s)

/-- `Flush` (src/ring_file_sink.hh:121-168). -/
def flush (s : St) : Except Fault (Bool × St) := do
  assertThat (s.buf.length = bufferSize)
  match writeLoop s.buf 0 s.log s.results with
  | (false, rs, log) => .ok (false, { s with results := rs, log := log })
  | (true, rs, log) =>
    let (ok, s) ← endChunk { s with buf := [], results := rs, log := log }
    if ok then .ok (endRing s) else .ok (false, s)

/-- The `do … while` loop of `HandlePacket` (src/ring_file_sink.hh:55-64), with
`data` the part of the packet not yet copied. -/
def handleLoop : Nat → St → List UInt8 → Except Fault (Bool × St)
  | 0, _, _ => .error .diverge
  | fuel + 1, s, data => do
    let (n, s) ← fillBuffer s data
    let (ok, s) ← if s.buf.length = bufferSize then flush s else .ok (true, s)
    if ok then
      if (data.drop n).length > 0 then handleLoop fuel s (data.drop n) else .ok (true, s)
    else
      .ok (false, { s with broken := true })

/-- `HandlePacket` (src/ring_file_sink.hh:52-68).  The loop runs at most twice for
a non-broken sink (the buffer is larger than a packet). -/
def handlePacket (s : St) (p : List UInt8) : Except Fault (Bool × St) :=
  handleLoop 3 s p

/-- `RingFileSink` as a sink: `Start` is the default of `PacketSink`, `End`
(src/ring_file_sink.hh:41-43) does nothing, `GetExitCode` is
src/ring_file_sink.hh:45-50. -/
def sink : Sink (List UInt8) St where
  start s := .ok (true, s)
  handle := handlePacket
  finish s := .ok s
  exitCode s := if s.broken then exitFailure else exitSuccess

/-- The checks of `LoadOption(ServiceRecorderOption)` on the sizes
(src/main.cc:1219-1264); `false` stands for `std::abort()`.  `startPos` is 0 when
the option is absent. -/
def acceptOptions (chunkSize numChunks startPos : Nat) : Bool :=
  !(chunkSize == 0) && !(chunkSize % bufferSize != 0) && !(chunkSize > maxChunkSize) &&
    !(numChunks == 0) && !(numChunks > maxNumChunks) && !(startPos % chunkSize != 0) &&
    !(startPos ≥ chunkSize * numChunks)

/-- Construction and positioning as done by `record-service`: the sink is made by
`MakePacketSink` (src/main.cc) and `ServiceRecorder::Start`
(src/service_recorder.hh:58-65) sets the start position unless it is 0. -/
def openAt (chunkSize numChunks startPos : Nat) (results : List Int) :
    Except Fault (Bool × St) := do
  let s ← new chunkSize numChunks results
  if startPos ≠ 0 then setPosition s startPos else .ok (true, s)

end Mirakc.RingFileSink
