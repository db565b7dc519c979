import Verif.Model.RingFileSink
/-
The tests of /repo/test/ring_file_sink_test.cc, evaluated on the model.
-/
namespace Mirakc.Tests.RingFileSink
open Mirakc.RingFileSink

/-- `kChunkSize`, ring_file_sink_test.cc:16. -/
def chunk : Nat := bufferSize * 2
/-- `kRingSize`, ring_file_sink_test.cc:17. -/
def ring : Nat := chunk * 2

/-- A null packet. -/
def null : List UInt8 := [0x47, 0x1F, 0xFF, 0x10] ++ List.replicate 184 0xFF

/-- This many packets are handed over, until one is refused. -/
def feed (p : List UInt8) : Nat → St → Except Fault St
  | 0, s => .ok s
  | n + 1, s => do
    let (ok, s) ← handlePacket s p
    if ok then feed p n s else .ok s

/-- The calls of the file and of the observer; of the bytes written only their number. -/
def brief : Op → String × Nat
  | .write b => ("Write", b.length)
  | .sync => ("Sync", 0)
  | .trunc n => ("Trunc", n)
  | .seek n => ("Seek", n)
  | .notify n => ("OnEndOfChunk", n)
  | .failed => ("failed", 0)

/-- With these results of the calls, this many packets lead to these calls and this exit code.  To save
time the model is given up to 25 packets at once. -/
def calls (results : List Int) (packets : Nat) (log : List (String × Nat)) (code : Nat) : Bool :=
  match new chunk 2 results >>= feed (List.replicate 25 null).flatten (packets / 25) >>= feed null (packets % 25) with
  | .ok s => s.log.map brief == log && sink.exitCode s == code
  | .error _ => false

/-- MaxValues, ring_file_sink_test.cc:29-38. -/
example : maxChunkSize = 0x7FFFE000 ∧ maxNumChunks = 0x7FFFFFFF ∧ maxChunkSize * maxNumChunks = 0x3FFFEFFF80002000 ∧
    (new maxChunkSize maxNumChunks []).map (·.ringSize) = .ok 0x3FFFEFFF80002000 := by decide +kernel
/-- EmptyFile, ring_file_sink_test.cc:40-61. -/
example : calls [] 0 [] exitSuccess = true := by decide +kernel
/-- OnePacket, ring_file_sink_test.cc:63-88. -/
example : calls [] 1 [] exitSuccess = true := by decide +kernel
/-- ReachBufferSize, ring_file_sink_test.cc:90-120; and with one packet less. -/
example : calls [] (bufferSize / pktSize + 1) [("Write", bufferSize)] exitSuccess = true ∧
    calls [] (bufferSize / pktSize) [] exitSuccess = true := by decide +kernel
/-- ReachChunkSize, ring_file_sink_test.cc:122-160. -/
example : calls [] (chunk / pktSize + 1)
    [("Write", bufferSize), ("Write", bufferSize), ("Sync", 0), ("OnEndOfChunk", chunk)] exitSuccess = true := by
  decide +kernel
/-- ReachRingSize, ring_file_sink_test.cc:162-233. -/
example : calls [] (ring / pktSize + 1)
    [("Write", bufferSize), ("Write", bufferSize), ("Sync", 0), ("OnEndOfChunk", chunk),
     ("Write", bufferSize), ("Write", bufferSize), ("Sync", 0), ("OnEndOfChunk", ring),
     ("Trunc", ring), ("Seek", 0)] exitSuccess = true := by
  decide +kernel
/-- FailWriteInFlush, ring_file_sink_test.cc:235-261. -/
example : calls [-1] (bufferSize / pktSize + 1) [("failed", 0)] exitFailure = true := by decide +kernel
/-- FailSyncInFlush, ring_file_sink_test.cc:263-303. -/
example : calls [8192, 8192, 0] (chunk / pktSize + 1)
    [("Write", bufferSize), ("Write", bufferSize), ("failed", 0)] exitFailure = true := by
  decide +kernel
/-- FailTruncInFlush, ring_file_sink_test.cc:305-371. -/
example : calls [8192, 8192, 1, 8192, 8192, 1, 0] (ring / pktSize + 1)
    [("Write", bufferSize), ("Write", bufferSize), ("Sync", 0), ("OnEndOfChunk", chunk),
     ("Write", bufferSize), ("Write", bufferSize), ("Sync", 0), ("OnEndOfChunk", ring),
     ("failed", 0)] exitFailure = true := by
  decide +kernel
/-- FailSeekInFlush, ring_file_sink_test.cc:373-441. -/
example : calls [8192, 8192, 1, 8192, 8192, 1, 1, -1] (ring / pktSize + 1)
    [("Write", bufferSize), ("Write", bufferSize), ("Sync", 0), ("OnEndOfChunk", chunk),
     ("Write", bufferSize), ("Write", bufferSize), ("Sync", 0), ("OnEndOfChunk", ring),
     ("Trunc", ring), ("failed", 0)] exitFailure = true := by
  decide +kernel
/-- SetPosition, ring_file_sink_test.cc:443-469.  There `Seek` returns 0, which
is not the position, and the result `false` is ignored. -/
example : ((do
      let s ← new chunk 2 [0]
      let (ok, s) ← setPosition s chunk
      .ok (ok, s.log, sink.exitCode s)) = (.ok (false, [.failed], exitSuccess) : Except Fault _)) ∧
    ((do
      let s ← new chunk 2 []
      let (ok, s) ← setPosition s chunk
      .ok (ok, s.log, sink.exitCode s)) = (.ok (true, [.seek chunk], exitSuccess) : Except Fault _)) := by decide +kernel

end Mirakc.Tests.RingFileSink
