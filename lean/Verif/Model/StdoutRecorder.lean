import Verif.Model.Main
/-
record-service with an empty --file: the packets are written to the standard output, on which `PosixFile::Sync`, `Trunc`
and `Seek` abort, src/main.cc:919-933, 961-1003.  Otherwise the functions are those of Model/RingFileSink.lean and
Model/ServiceRecorder.lean.
-/
namespace Mirakc.StdoutRecorder
open Mirakc.RingFileSink (Op St bufferSize)

/-- `PosixFile::Sync`, `Trunc` and `Seek` on the standard output: the assertion at the beginning fails, src/main.cc:962,
971, 982. -/
def call (_ : Op) (_ : St) : Except Fault (Bool × St) := .error .assertFail

/-- `RingFileSink::SetPosition`, src/ring_file_sink.hh:78-95. -/
def setPosition (s : St) (pos : Nat) : Except Fault (Bool × St) := do
  assertThat (pos ≤ 2 ^ 63 - 1)
  assertThat (pos % bufferSize = 0)
  assertThat (pos < s.ringSize)
  assertThat (pos % s.chunkSize = 0)
  let (ok, s) ← call (.seek pos) s
  if ok then
    .ok (true, { s with buf := [], ringPos := pos, chunkPos := 0 })
  else
    .ok (false, s)

/-- The chunk boundary part of `Flush`, src/ring_file_sink.hh:138-152. -/
def endChunk (s : St) : Except Fault (Bool × St) := do
  let s := { s with chunkPos := s.chunkPos + bufferSize }
  assertThat (s.chunkPos ≤ s.chunkSize)
  if s.chunkPos = s.chunkSize then
    assertThat (s.ringPos ≠ 0)
    assertThat (s.ringPos % s.chunkSize = 0)
    let (ok, s) ← call .sync s
    if ok then
      .ok (true, { s with chunkPos := 0, log := s.log ++ [.notify s.ringPos] })
    else
      .ok (false, s)
  else
    .ok (true, s)

/-- The ring boundary part of `Flush`, src/ring_file_sink.hh:154-167. -/
def endRing (s : St) : Except Fault (Bool × St) := do
  if s.ringPos = s.ringSize then
    let (ok, s) ← call (.trunc s.ringSize) s
    if ok then
      let (ok, s) ← call (.seek 0) s
      if ok then
        .ok (true, { s with ringPos := 0 })
      else
        .ok (false, s)
    else
      .ok (false, s)
  else
    .ok (true, s)

/-- `Flush`, src/ring_file_sink.hh:121-168. -/
def flush (s : St) : Except Fault (Bool × St) := do
  assertThat (s.buf.length = bufferSize)
  match RingFileSink.writeLoop s.buf 0 s.log s.results with
  | (false, rs, log) => .ok (false, { s with results := rs, log := log })
  | (true, rs, log) =>
    let (ok, s) ← endChunk { s with buf := [], results := rs, log := log }
    if ok then endRing s else .ok (false, s)

/-- The loop of `HandlePacket`, src/ring_file_sink.hh:55-64. -/
def handleLoop : Nat → St → List UInt8 → Except Fault (Bool × St)
  | 0, _, _ => .error .diverge
  | fuel + 1, s, data => do
    let (n, s) ← RingFileSink.fillBuffer s data
    let (ok, s) ← if s.buf.length = bufferSize then flush s else .ok (true, s)
    if ok then
      if (data.drop n).length > 0 then handleLoop fuel s (data.drop n) else .ok (true, s)
    else
      .ok (false, { s with broken := true })

/-- `HandlePacket`, src/ring_file_sink.hh:52-68. -/
def handlePacket (s : St) (p : List UInt8) : Except Fault (Bool × St) :=
  handleLoop 3 s p

open Mirakc.ServiceRecorder (Tr Hist Item Opt)

/-- `OnRecording`, src/service_recorder.hh:283-326. -/
def onRecording (s : ServiceRecorder.St) (i : ServiceRecorder.Input) : Except Fault (Bool × ServiceRecorder.St × List Tr) := do
  let now ← s.clock.now i.nowLocal
  let (changed, eit, s1) ← ServiceRecorder.updateEit s
  let (s2, out) ← ServiceRecorder.updateEvent s1 now changed eit s.newEit
  let (ok, ring) ← handlePacket s2.ring i.bytes
  let ops ← ServiceRecorder.expand s2 i.chunkLocal (ring.log.drop s2.ring.log.length)
  .ok (ok, { s2 with ring := ring }, out ++ ops)

/-- `HandlePacket`, src/service_recorder.hh:81-105. -/
def step (o : Opt) (s : ServiceRecorder.St) (i : ServiceRecorder.Input) : Except Fault (ServiceRecorder.St × Item) := do
  let s ← ServiceRecorder.tick s i.packet
  let (s, log) ← feedDemux ServiceRecorder.St.demux (ServiceRecorder.handleTable o i.totLocal) i.packet.pid i.tables s
  if s.recording then do
    let (ok, s, out) ← onRecording s i
    .ok (s, ⟨i, log, true, out, ok⟩)
  else do
    let (s, out) ← ServiceRecorder.onPreparing o s i
    .ok (s, ⟨i, log, false, out, true⟩)

/-- `Start`, src/service_recorder.hh:56-68. -/
def start (o : Opt) (h : Hist) : Except Fault (Bool × Hist) := do
  let (ok, r) ← if o.startPos ≠ 0 then setPosition h.st.ring o.startPos else .ok (true, h.st.ring)
  let ops := (r.log.drop h.st.ring.log.length).map Tr.op
  let st := { h.st with ring := r }
  if ok then
    .ok (true, { h with st := st, trace := h.trace ++ ops ++ [.msg .start] })
  else
    .ok (false, { h with st := st, trace := h.trace ++ ops })

/-- `ServiceRecorder` as a sink, src/service_recorder.hh:56-105. -/
def sink (o : Opt) : Sink ServiceRecorder.Input Hist where
  start := start o
  handle h i := do
    let (s, it) ← step o h.st i
    .ok (it.more, { st := s, items := h.items ++ [it], trace := h.trace ++ it.out })
  finish h := .ok { h with trace := h.trace ++ [.msg (.stop h.st.ring.broken)] }
  exitCode h := RingFileSink.sink.exitCode h.st.ring

/-- The connected filters, src/main.cc:1357-1371. -/
def pipeline (c : Pipeline.Codec) (tabs : Nat → List Table) (tabs' : Nat → ServiceFilter.Out → List Table)
    (times : Nat → Int × Int × Int) (o : Opt) : Sink (List UInt8) (Nat × ServiceFilter.St × Nat × Hist) :=
  Pipeline.via (Pipeline.input c tabs) (ServiceFilter.sink { sid := o.sid }
    (Pipeline.via (Pipeline.betweenRec c tabs' times) (sink o)))

/-- record-service with an empty --file, src/main.cc:1357-1371.  The operations are those on the standard output, where
the messages are written, too. -/
def recordService (w : Main.World) (o : Opt) : Except Main.Stop Main.Ended := do
  let h0 ← (ServiceRecorder.init o w.file).mapError .fault
  let (code, _, _, _, h) ← Main.feed w (pipeline w.codec w.tables w.tables2 w.times o)
    (0, ServiceFilter.init { sid := o.sid }, 0, h0)
  .ok { code := code, docs := Main.messages h.trace, ops := Main.operations h.trace }

end Mirakc.StdoutRecorder
