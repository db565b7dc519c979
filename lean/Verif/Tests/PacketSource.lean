import Verif.Model.PacketSource
/-
The tests of /repo/test/packet_source_test.cc, evaluated on the model.

Files in this directory are checks of the model against the expectations that the
authors of the code recorded in their unit tests.  They are tests, not properties.
-/
namespace Mirakc.Tests.PacketSource
open Mirakc.FileSource

/-- `ts::NullPacket`. -/
def null : List UInt8 := [0x47, 0x1F, 0xFF, 0x10] ++ List.replicate 184 0xFF

/-- A number of null packets. -/
def nulls (n : Nat) : List UInt8 := (List.replicate n null).flatten

/-- A sink that counts the packets, with an exit code. -/
def mock (code : Nat) : Sink (List UInt8) Nat where
  start s := .ok (true, s)
  handle s _ := .ok (true, s + 1)
  finish := .ok
  exitCode _ := code

/-- The results of `Read` are used up, and this many packets are handed over. -/
def calls (reads : List (List UInt8)) (n : Nat) : Bool :=
  match feedLoop source (mock 0) (n + 1) (init reads) 0 with
  | .ok (t, s) => t.reads.isEmpty && s == n
  | .error _ => false

/-- EmptyFile, packet_source_test.cc:11-28. -/
example : calls [[]] 0 = true := by decide +kernel
/-- OneByteFile, packet_source_test.cc:30-48. -/
example : calls [[0], []] 0 = true := by decide +kernel
/-- OnePacketFile, packet_source_test.cc:50-70. -/
example : calls [null, []] 1 = true := by decide +kernel
/-- Resync, packet_source_test.cc:72-101. -/
example : calls [[0, 0x47, 0], nulls 5, []] 5 = true := by decide +kernel
/-- ResyncFailure, packet_source_test.cc:103-124. -/
example : calls [List.replicate (10 * 188) 0] 0 = true := by decide +kernel
/-- WrapAroundWhileResync, packet_source_test.cc:126-169, with a shorter first read. -/
example : calls [nulls 10, [0, 0x47, 0], null, nulls 4, []] 15 = true := by decide +kernel
/-- ResyncFailedWithEOF, packet_source_test.cc:171-192. -/
example : calls [[0], []] 0 = true := by decide +kernel
/-- ResyncFailedWithNoSyncByte, packet_source_test.cc:194-218. -/
example : calls [[0], List.replicate (5 * 188) 0] 0 = true := by decide +kernel
/-- Successfully, packet_source_test.cc:220-237. -/
example : feedPackets source (mock exitSuccess) 1 (init [[]]) 0 = .ok (exitSuccess, 0) := by decide +kernel
/-- Unsuccessfully, packet_source_test.cc:239-256. -/
example : feedPackets source (mock exitFailure) 1 (init [[]]) 0 = .ok (exitFailure, 0) := by decide +kernel

end Mirakc.Tests.PacketSource
