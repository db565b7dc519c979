import Verif.Model.PacketSource
/-
Model of `StdoutSink` (src/packet_sink.hh:57-117).
-/
namespace Mirakc.StdoutSink

/-- `kBufferSize`, src/packet_sink.hh:96. -/
def bufferSize : Nat := 4096 * 4

/-- State of `StdoutSink` (src/packet_sink.hh:113-114) and its environment.
`buf` is the filled part `buf_[0 .. pos_)` of the buffer, so `pos_` is
`buf.length`.  `out` is everything written to file descriptor 1.  `writes` is
the oracle for `write(2)`: the results of the future calls (negative: failure,
otherwise the byte count, cut to the requested count); when the list is
exhausted every call writes everything. -/
structure St where
  buf : List UInt8 := []
  out : List UInt8 := []
  writes : List Int
deriving DecidableEq

/-- The `while` loop of `Flush` (src/packet_sink.hh:99-107); returns the result,
what has been written so far and the remaining oracle. -/
def writeLoop (buf : List UInt8) (nwritten : Nat) (out : List UInt8) :
    List Int → Bool × List UInt8 × List Int
  | [] => (true, out ++ buf.drop nwritten, [])
  | w :: ws =>
    if nwritten < buf.length then
      if w < 0 then
        (false, out, ws)
      else
        let n := min w.toNat (buf.length - nwritten)
        writeLoop buf (nwritten + n) (out ++ (buf.drop nwritten).take n) ws
    else
      (true, out, w :: ws)

/-- `Flush` (src/packet_sink.hh:98-111).  The assertion of line 108 holds by
construction of `writeLoop` (it ends with `nwritten = pos_`). -/
def flush (s : St) : Bool × St :=
  match writeLoop s.buf 0 s.out s.writes with
  | (true, out, ws) => (true, { buf := [], out := out, writes := ws })
  | (false, out, ws) => (false, { s with out := out, writes := ws })

/-- `HandlePacket` (src/packet_sink.hh:66-88).  A packet is a list of
`ts::PKT_SIZE` bytes. -/
def handlePacket (s : St) (p : List UInt8) : Except Fault (Bool × St) := do
  if s.buf.length + pktSize < bufferSize then
    .ok (true, { s with buf := s.buf ++ p })
  else
    let remaining := bufferSize - s.buf.length
    let s := { s with buf := s.buf ++ p.take remaining }
    assertThat (s.buf.length = bufferSize)
    let (ok, s) := flush s
    if ok then
      if pktSize > remaining then
        assertThat (s.buf.length = 0)
        .ok (true, { s with buf := p.drop remaining })
      else
        .ok (true, s)
    else
      .ok (false, s)

/-- `StdoutSink` as a sink; `Start` and `GetExitCode` are the defaults of
`PacketSink` (src/packet_sink.hh:18-24), `End` is src/packet_sink.hh:62-64. -/
def sink : Sink (List UInt8) St where
  start s := .ok (true, s)
  handle := handlePacket
  finish s := .ok (flush s).2
  exitCode _ := exitSuccess

/-- A new `StdoutSink`. -/
def init (writes : List Int) : St := { writes := writes }

end Mirakc.StdoutSink
