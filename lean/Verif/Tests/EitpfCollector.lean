import Verif.Tests.Helper
import Verif.Model.Documents
/-
The tests of /repo/test/eitpf_collector_test.cc, evaluated on the model.

An EIT p/f has two sections, for the present and for the following event, and one packet has
room for both.
-/
namespace Mirakc.Tests.EitpfCollector
open Mirakc.EitpfCollector

/-- The sections of an EIT p/f with the bytes of its two events. -/
def pf (nid tsid sid : UInt16) (version : Fin 32) (present following : List UInt8) : SectionInput :=
  let sect (number : UInt8) (event : List UInt8) : SectionEvent := .sect
    { tid := 0x4E, ext := sid, version := version, number := number, last := 1
      payload := [(tsid >>> 8).toUInt8, tsid.toUInt8, (nid >>> 8).toUInt8, nid.toUInt8, 1, 0x4E] ++ event }
  { packet := pk pidEit 0, events := [sect 0 present, sect 1 following] }

/-- The start times of the tests: midnight UTC (09:00:00 JST) and one second later. -/
def mjd (b : List UInt8) : Option Int :=
  if b == [0x9E, 0x8B, 0x09, 0x00, 0x00] then some 32400000
  else if b == [0x9E, 0x8B, 0x09, 0x00, 0x01] then some 32401000
  else none

/-- There are no descriptors. -/
def decoders : Documents.Decoders where
  block _ := { descs := [], extended := none }
  scrambled _ := false
  descs _ := []

/-- What a test expects of a document: section number, version, and event id, start time and duration of its
only event; the other members are the same in all tests. -/
def expected (x : Nat × Nat × Nat × Nat × Nat) : List UInt8 :=
  let (number, version, eventId, startTime, duration) := x
  Json.ascii "{\"originalNetworkId\":1,\"transportStreamId\":2,\"serviceId\":3,\"tableId\":78,\"sectionNumber\":" ++
    Json.write (.num number) ++ Json.ascii ",\"lastSectionNumber\":1,\"segmentLastSectionNumber\":1,\"versionNumber\":" ++
    Json.write (.num version) ++ Json.ascii ",\"events\":[{\"eventId\":" ++ Json.write (.num eventId) ++
    Json.ascii ",\"startTime\":" ++ Json.write (.num startTime) ++ Json.ascii ",\"duration\":" ++
    Json.write (.num duration) ++ Json.ascii ",\"scrambled\":false,\"descriptors\":[]}]}"

/-- With these options and this input, these documents are written, the exit code is `EXIT_SUCCESS`, and this
many packets are not asked for. -/
def writes (o : Opt) (is : List SectionInput) (docs : List (Nat × Nat × Nat × Nat × Nat)) (rest : Nat) : Bool :=
  match outcome (sink o) { st := {} } is with
  | .ok (c, s, n) =>
    ((s.items.flatMap (·.did)).filterMap (·.out)).map
        (fun e => (makeJsonEit mjd e).toOption.map fun j => Json.write (Documents.eitJson decoders j)) ==
      docs.map (fun x => some (expected x)) && c == exitSuccess && n == rest
  | .error _ => false

/-- NoPacket, eitpf_collector_test.cc:15-27. -/
example : writes {}
    []
    [] 0 = true := by decide +kernel

/-- PresentFollowing, eitpf_collector_test.cc:29-103. -/
example : writes { sids := [3] }
    [pf 1 2 3 1
       [0x00, 0x04, 0x9E, 0x8B, 0x09, 0x00, 0x00, 0x00, 0x00, 0x01, 0x00, 0x00]
       [0x00, 0x05, 0x9E, 0x8B, 0x09, 0x00, 0x01, 0x00, 0x00, 0x01, 0x00, 0x00],
     pf 1 2 3 2
       [0x00, 0x04, 0x9E, 0x8B, 0x09, 0x00, 0x00, 0x00, 0x00, 0x01, 0x00, 0x00]
       [0x00, 0x05, 0x9E, 0x8B, 0x09, 0x00, 0x01, 0x00, 0x00, 0x01, 0x00, 0x00]]
    [(0, 1, 4, 0, 1000),
     (1, 1, 5, 1000, 1000)] 1 = true := by decide +kernel

/-- Present, eitpf_collector_test.cc:105-163. -/
example : writes { sids := [3], following := false }
    [pf 1 2 3 1
       [0x00, 0x04, 0x9E, 0x8B, 0x09, 0x00, 0x00, 0x00, 0x00, 0x01, 0x00, 0x00]
       [0x00, 0x05, 0x9E, 0x8B, 0x09, 0x00, 0x01, 0x00, 0x00, 0x01, 0x00, 0x00],
     pf 1 2 3 2
       [0x00, 0x04, 0x9E, 0x8B, 0x09, 0x00, 0x00, 0x00, 0x00, 0x01, 0x00, 0x00]
       [0x00, 0x05, 0x9E, 0x8B, 0x09, 0x00, 0x01, 0x00, 0x00, 0x01, 0x00, 0x00]]
    [(0, 1, 4, 0, 1000)] 1 = true := by decide +kernel

/-- Following, eitpf_collector_test.cc:165-223. -/
example : writes { sids := [3], present := false }
    [pf 1 2 3 1
       [0x00, 0x04, 0x9E, 0x8B, 0x09, 0x00, 0x00, 0x00, 0x00, 0x01, 0x00, 0x00]
       [0x00, 0x05, 0x9E, 0x8B, 0x09, 0x00, 0x01, 0x00, 0x00, 0x01, 0x00, 0x00],
     pf 1 2 3 2
       [0x00, 0x04, 0x9E, 0x8B, 0x09, 0x00, 0x00, 0x00, 0x00, 0x01, 0x00, 0x00]
       [0x00, 0x05, 0x9E, 0x8B, 0x09, 0x00, 0x01, 0x00, 0x00, 0x01, 0x00, 0x00]]
    [(1, 1, 5, 1000, 1000)] 1 = true := by decide +kernel

/-- PresentFollowingStreaming, eitpf_collector_test.cc:225-342. -/
example : writes { streaming := true }
    [pf 1 2 3 1
       [0x00, 0x04, 0x9E, 0x8B, 0x09, 0x00, 0x00, 0x00, 0x00, 0x01, 0x00, 0x00]
       [0x00, 0x05, 0x9E, 0x8B, 0x09, 0x00, 0x01, 0x00, 0x00, 0x01, 0x00, 0x00],
     pf 1 2 3 1
       [0x00, 0x04, 0x9E, 0x8B, 0x09, 0x00, 0x00, 0x00, 0x00, 0x01, 0x00, 0x00]
       [0x00, 0x05, 0x9E, 0x8B, 0x09, 0x00, 0x01, 0x00, 0x00, 0x01, 0x00, 0x00],
     pf 1 2 3 2
       [0x00, 0x04, 0x9E, 0x8B, 0x09, 0x00, 0x00, 0x00, 0x00, 0x01, 0x00, 0x00]
       [0x00, 0x05, 0x9E, 0x8B, 0x09, 0x00, 0x01, 0x00, 0x00, 0x01, 0x00, 0x00]]
    [(0, 1, 4, 0, 1000),
     (1, 1, 5, 1000, 1000),
     (0, 2, 4, 0, 1000),
     (1, 2, 5, 1000, 1000)] 0 = true := by decide +kernel

/-- PresentStreaming, eitpf_collector_test.cc:344-428. -/
example : writes { streaming := true, following := false }
    [pf 1 2 3 1
       [0x00, 0x04, 0x9E, 0x8B, 0x09, 0x00, 0x00, 0x00, 0x00, 0x01, 0x00, 0x00]
       [0x00, 0x05, 0x9E, 0x8B, 0x09, 0x00, 0x01, 0x00, 0x00, 0x01, 0x00, 0x00],
     pf 1 2 3 1
       [0x00, 0x04, 0x9E, 0x8B, 0x09, 0x00, 0x00, 0x00, 0x00, 0x01, 0x00, 0x00]
       [0x00, 0x05, 0x9E, 0x8B, 0x09, 0x00, 0x01, 0x00, 0x00, 0x01, 0x00, 0x00],
     pf 1 2 3 2
       [0x00, 0x04, 0x9E, 0x8B, 0x09, 0x00, 0x00, 0x00, 0x00, 0x01, 0x00, 0x00]
       [0x00, 0x05, 0x9E, 0x8B, 0x09, 0x00, 0x01, 0x00, 0x00, 0x01, 0x00, 0x00]]
    [(0, 1, 4, 0, 1000),
     (0, 2, 4, 0, 1000)] 0 = true := by decide +kernel

/-- FollowingStreaming, eitpf_collector_test.cc:430-514. -/
example : writes { streaming := true, present := false }
    [pf 1 2 3 1
       [0x00, 0x04, 0x9E, 0x8B, 0x09, 0x00, 0x00, 0x00, 0x00, 0x01, 0x00, 0x00]
       [0x00, 0x05, 0x9E, 0x8B, 0x09, 0x00, 0x01, 0x00, 0x00, 0x01, 0x00, 0x00],
     pf 1 2 3 1
       [0x00, 0x04, 0x9E, 0x8B, 0x09, 0x00, 0x00, 0x00, 0x00, 0x01, 0x00, 0x00]
       [0x00, 0x05, 0x9E, 0x8B, 0x09, 0x00, 0x01, 0x00, 0x00, 0x01, 0x00, 0x00],
     pf 1 2 3 2
       [0x00, 0x04, 0x9E, 0x8B, 0x09, 0x00, 0x00, 0x00, 0x00, 0x01, 0x00, 0x00]
       [0x00, 0x05, 0x9E, 0x8B, 0x09, 0x00, 0x01, 0x00, 0x00, 0x01, 0x00, 0x00]]
    [(1, 1, 5, 1000, 1000),
     (1, 2, 5, 1000, 1000)] 0 = true := by decide +kernel

/-- Sids, eitpf_collector_test.cc:516-591. -/
example : writes { sids := [3], streaming := true }
    [pf 1 2 3 1
       [0x00, 0x04, 0x9E, 0x8B, 0x09, 0x00, 0x00, 0x00, 0x00, 0x01, 0x00, 0x00]
       [0x00, 0x05, 0x9E, 0x8B, 0x09, 0x00, 0x01, 0x00, 0x00, 0x01, 0x00, 0x00],
     pf 1 2 0x10 2
       [0x00, 0x04, 0x9E, 0x8B, 0x09, 0x00, 0x00, 0x00, 0x00, 0x01, 0x00, 0x00]
       [0x00, 0x05, 0x9E, 0x8B, 0x09, 0x00, 0x01, 0x00, 0x00, 0x01, 0x00, 0x00]]
    [(0, 1, 4, 0, 1000),
     (1, 1, 5, 1000, 1000)] 0 = true := by decide +kernel

end Mirakc.Tests.EitpfCollector
