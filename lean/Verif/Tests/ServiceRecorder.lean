import Verif.Tests.Helper
import Verif.Model.Documents
/-
The tests of /repo/test/service_recorder_test.cc, evaluated on the model.

EventProgress uses a mock sink whose reaction to PID 0x0FFD is to wrap around.  Here the ring file is
used, and there are five such packets, with 8000 bytes each.
-/
namespace Mirakc.Tests.ServiceRecorder
open Mirakc.ServiceRecorder

/-- The options of the tests, service_recorder_test.cc:12-18. -/
def option : Opt := { sid := 3, chunkSize := 2 * 8192, numChunks := 2 }

/-- The packet with some bytes. -/
def input (i : Mirakc.Input) : ServiceRecorder.Input :=
  { packet := i.packet, tables := i.tables, bytes := List.replicate (if i.packet.pid == 0xFFD then 8000 else 188) 0 }

/-- The events of the tests are scrambled (`CA_mode`) and have no descriptors. -/
def decoders : Documents.Decoders where
  block _ := { descs := [], extended := none }
  scrambled _ := true
  descs _ := []

/-- With this input, these messages are sent and the exit code is `EXIT_SUCCESS`; everything is
read. -/
def sends (is : List Mirakc.Input) (docs : List String) : Bool :=
  match init option (List.replicate 100 8192) with
  | .ok h =>
    match outcome (sink option) h (is.map input) with
    | .ok (c, h, n) =>
      (h.trace.filterMap fun
        | .msg m => some (Json.write (Documents.messageJson decoders m))
        | .op _ => none) == docs.map Json.ascii && c == exitSuccess && n == 0
    | .error _ => false
  | .error _ => false

/-- NoPacket, service_recorder_test.cc:20-48. -/
example : sends
    []
    ["{\"type\":\"start\"}",
     "{\"type\":\"stop\",\"data\":{\"reset\":false}}"] = true := by decide +kernel

/-- EventStart, service_recorder_test.cc:50-137. -/
example : sends
    [tab 0 0 0 (.pat { tsId := 2, pmts := ⟨[(3, 0x101)], by decide⟩ }),
     tab 1 0x101 0 (.pmt { serviceId := 3, pcrPid := 0x901, streams := ⟨[(0x301, video)], by decide⟩ }),
     tab 2 0x14 0 (.tot 1609459200000),
     pcr 0x901 0 0,
     tab 4 0x12 0 (.eit { serviceId := 3, tsId := 2, onetwId := 1, events := [{ eventId := 4, startTime := 1609459200000, duration := 1 }, { eventId := 5, startTime := 1609459201000, duration := 3600 }] }),
     pes 0x301 0]
    ["{\"type\":\"start\"}",
     "{\"type\":\"chunk\",\"data\":{\"chunk\":{\"timestamp\":1609426800000,\"pos\":0}}}",
     "{\"type\":\"event-start\",\"data\":{\"originalNetworkId\":1,\"transportStreamId\":2,\"serviceId\":3,\"event\":{\"eventId\":4,\"startTime\":1609426800000,\"duration\":1000,\"scrambled\":true,\"descriptors\":[]},\"record\":{\"timestamp\":1609426800000,\"pos\":0}}}",
     "{\"type\":\"stop\",\"data\":{\"reset\":false}}"] = true := by decide +kernel

/-- EventProgress, service_recorder_test.cc:139-276. -/
example : sends
    ([tab 0 0 0 (.pat { tsId := 2, pmts := ⟨[(3, 0x101)], by decide⟩ }),
     tab 1 0x101 0 (.pmt { serviceId := 3, pcrPid := 0x901, streams := ⟨[(0x301, video)], by decide⟩ }),
     tab 2 0x14 0 (.tot 1609459200000),
     pcr 0x901 0 0,
     tab 4 0x12 0 (.eit { serviceId := 3, tsId := 2, onetwId := 1, events := [{ eventId := 4, startTime := 1609459200000, duration := 1 }, { eventId := 5, startTime := 1609459201000, duration := 3600 }] })] ++
     List.replicate 5 (pes 0xFFD 0) ++ [pes 0x301 0])
    ["{\"type\":\"start\"}",
     "{\"type\":\"chunk\",\"data\":{\"chunk\":{\"timestamp\":1609426800000,\"pos\":0}}}",
     "{\"type\":\"event-start\",\"data\":{\"originalNetworkId\":1,\"transportStreamId\":2,\"serviceId\":3,\"event\":{\"eventId\":4,\"startTime\":1609426800000,\"duration\":1000,\"scrambled\":true,\"descriptors\":[]},\"record\":{\"timestamp\":1609426800000,\"pos\":0}}}",
     "{\"type\":\"event-update\",\"data\":{\"originalNetworkId\":1,\"transportStreamId\":2,\"serviceId\":3,\"event\":{\"eventId\":4,\"startTime\":1609426800000,\"duration\":1000,\"scrambled\":true,\"descriptors\":[]},\"record\":{\"timestamp\":1609426800000,\"pos\":16384}}}",
     "{\"type\":\"chunk\",\"data\":{\"chunk\":{\"timestamp\":1609426800000,\"pos\":16384}}}",
     "{\"type\":\"event-update\",\"data\":{\"originalNetworkId\":1,\"transportStreamId\":2,\"serviceId\":3,\"event\":{\"eventId\":4,\"startTime\":1609426800000,\"duration\":1000,\"scrambled\":true,\"descriptors\":[]},\"record\":{\"timestamp\":1609426800000,\"pos\":0}}}",
     "{\"type\":\"chunk\",\"data\":{\"chunk\":{\"timestamp\":1609426800000,\"pos\":0}}}",
     "{\"type\":\"stop\",\"data\":{\"reset\":false}}"] = true := by decide +kernel

/-- EventEnd, service_recorder_test.cc:278-415. -/
example : sends
    [tab 0 0 0 (.pat { tsId := 2, pmts := ⟨[(3, 0x101)], by decide⟩ }),
     tab 1 0x101 0 (.pmt { serviceId := 3, pcrPid := 0x901, streams := ⟨[(0x301, video)], by decide⟩ }),
     tab 2 0x14 0 (.tot 1609459200000),
     pcr 0x901 0 0,
     tab 4 0x12 0 (.eit { serviceId := 3, tsId := 2, onetwId := 1, events := [{ eventId := 4, startTime := 1609459200000, duration := 1 }, { eventId := 5, startTime := 1609459201000, duration := 1 }] }),
     pcr 0x901 0 1,
     pes 0x301 0,
     pcr 0x901 0 27000000,
     tab 8 0x12 1 (.eit { serviceId := 3, tsId := 2, onetwId := 1, events := [{ eventId := 5, startTime := 1609459201000, duration := 1 }, { eventId := 6, startTime := 1609459202000, duration := 1 }] })]
    ["{\"type\":\"start\"}",
     "{\"type\":\"chunk\",\"data\":{\"chunk\":{\"timestamp\":1609426800000,\"pos\":0}}}",
     "{\"type\":\"event-start\",\"data\":{\"originalNetworkId\":1,\"transportStreamId\":2,\"serviceId\":3,\"event\":{\"eventId\":4,\"startTime\":1609426800000,\"duration\":1000,\"scrambled\":true,\"descriptors\":[]},\"record\":{\"timestamp\":1609426800000,\"pos\":0}}}",
     "{\"type\":\"event-end\",\"data\":{\"originalNetworkId\":1,\"transportStreamId\":2,\"serviceId\":3,\"event\":{\"eventId\":4,\"startTime\":1609426800000,\"duration\":1000,\"scrambled\":true,\"descriptors\":[]},\"record\":{\"timestamp\":1609426801000,\"pos\":376}}}",
     "{\"type\":\"event-start\",\"data\":{\"originalNetworkId\":1,\"transportStreamId\":2,\"serviceId\":3,\"event\":{\"eventId\":5,\"startTime\":1609426801000,\"duration\":1000,\"scrambled\":true,\"descriptors\":[]},\"record\":{\"timestamp\":1609426801000,\"pos\":376}}}",
     "{\"type\":\"stop\",\"data\":{\"reset\":false}}"] = true := by decide +kernel

/-- EventStartBeforeEventEnd, service_recorder_test.cc:417-553. -/
example : sends
    [tab 0 0 0 (.pat { tsId := 2, pmts := ⟨[(3, 0x101)], by decide⟩ }),
     tab 1 0x101 0 (.pmt { serviceId := 3, pcrPid := 0x901, streams := ⟨[(0x301, video)], by decide⟩ }),
     tab 2 0x14 0 (.tot 1609459200000),
     pcr 0x901 0 0,
     tab 4 0x12 0 (.eit { serviceId := 3, tsId := 2, onetwId := 1, events := [{ eventId := 4, startTime := 1609459200000, duration := 1 }, { eventId := 5, startTime := 1609459201000, duration := 3600 }] }),
     pes 0x301 0,
     tab 6 0x12 1 (.eit { serviceId := 3, tsId := 2, onetwId := 1, events := [{ eventId := 6, startTime := 1609459200000, duration := 1 }, { eventId := 7, startTime := 1609459201000, duration := 3600 }] })]
    ["{\"type\":\"start\"}",
     "{\"type\":\"chunk\",\"data\":{\"chunk\":{\"timestamp\":1609426800000,\"pos\":0}}}",
     "{\"type\":\"event-start\",\"data\":{\"originalNetworkId\":1,\"transportStreamId\":2,\"serviceId\":3,\"event\":{\"eventId\":4,\"startTime\":1609426800000,\"duration\":1000,\"scrambled\":true,\"descriptors\":[]},\"record\":{\"timestamp\":1609426800000,\"pos\":0}}}",
     "{\"type\":\"event-end\",\"data\":{\"originalNetworkId\":1,\"transportStreamId\":2,\"serviceId\":3,\"event\":{\"eventId\":4,\"startTime\":1609426800000,\"duration\":1000,\"scrambled\":true,\"descriptors\":[]},\"record\":{\"timestamp\":1609426800000,\"pos\":188}}}",
     "{\"type\":\"event-start\",\"data\":{\"originalNetworkId\":1,\"transportStreamId\":2,\"serviceId\":3,\"event\":{\"eventId\":6,\"startTime\":1609426800000,\"duration\":1000,\"scrambled\":true,\"descriptors\":[]},\"record\":{\"timestamp\":1609426800000,\"pos\":188}}}",
     "{\"type\":\"stop\",\"data\":{\"reset\":false}}"] = true := by decide +kernel

/-- FirstEventAlreadyEnded, service_recorder_test.cc:555-651. -/
example : sends
    [tab 0 0 0 (.pat { tsId := 2, pmts := ⟨[(3, 0x101)], by decide⟩ }),
     tab 1 0x101 0 (.pmt { serviceId := 3, pcrPid := 0x901, streams := ⟨[(0x301, video)], by decide⟩ }),
     tab 2 0x14 0 (.tot 1609459201000),
     pcr 0x901 0 0,
     tab 4 0x12 0 (.eit { serviceId := 3, tsId := 2, onetwId := 1, events := [{ eventId := 4, startTime := 1609459200000, duration := 1 }, { eventId := 5, startTime := 1609459201000, duration := 1 }] }),
     pes 0x301 0,
     tab 6 0x12 1 (.eit { serviceId := 3, tsId := 2, onetwId := 1, events := [{ eventId := 5, startTime := 1609459201000, duration := 1 }, { eventId := 6, startTime := 1609459202000, duration := 1 }] })]
    ["{\"type\":\"start\"}",
     "{\"type\":\"chunk\",\"data\":{\"chunk\":{\"timestamp\":1609426801000,\"pos\":0}}}",
     "{\"type\":\"event-start\",\"data\":{\"originalNetworkId\":1,\"transportStreamId\":2,\"serviceId\":3,\"event\":{\"eventId\":5,\"startTime\":1609426801000,\"duration\":1000,\"scrambled\":true,\"descriptors\":[]},\"record\":{\"timestamp\":1609426801000,\"pos\":0}}}",
     "{\"type\":\"stop\",\"data\":{\"reset\":false}}"] = true := by decide +kernel

/-- UnspecifiedEventEnd, service_recorder_test.cc:653-793. -/
example : sends
    [tab 0 0 0 (.pat { tsId := 2, pmts := ⟨[(3, 0x101)], by decide⟩ }),
     tab 1 0x101 0 (.pmt { serviceId := 3, pcrPid := 0x901, streams := ⟨[(0x301, video)], by decide⟩ }),
     tab 2 0x14 0 (.tot 1609459200000),
     pcr 0x901 0 0,
     tab 4 0x12 0 (.eit { serviceId := 3, tsId := 2, onetwId := 1, events := [{ eventId := 4, startTime := 1609459200000, duration := 0 }, { eventId := 5, startTime := 1609459200000, duration := 0 }] }),
     pes 0x301 0,
     pcr 0x901 1 27000000,
     tab 7 0x14 1 (.tot 1609459201000),
     pes 0x301 1,
     tab 9 0x12 1 (.eit { serviceId := 3, tsId := 2, onetwId := 1, events := [{ eventId := 5, startTime := 1609459200000, duration := 0 }, { eventId := 6, startTime := 1609459200000, duration := 0 }] })]
    ["{\"type\":\"start\"}",
     "{\"type\":\"chunk\",\"data\":{\"chunk\":{\"timestamp\":1609426800000,\"pos\":0}}}",
     "{\"type\":\"event-start\",\"data\":{\"originalNetworkId\":1,\"transportStreamId\":2,\"serviceId\":3,\"event\":{\"eventId\":4,\"startTime\":1609426800000,\"duration\":0,\"scrambled\":true,\"descriptors\":[]},\"record\":{\"timestamp\":1609426800000,\"pos\":0}}}",
     "{\"type\":\"event-end\",\"data\":{\"originalNetworkId\":1,\"transportStreamId\":2,\"serviceId\":3,\"event\":{\"eventId\":4,\"startTime\":1609426800000,\"duration\":0,\"scrambled\":true,\"descriptors\":[]},\"record\":{\"timestamp\":1609426801000,\"pos\":752}}}",
     "{\"type\":\"event-start\",\"data\":{\"originalNetworkId\":1,\"transportStreamId\":2,\"serviceId\":3,\"event\":{\"eventId\":5,\"startTime\":1609426800000,\"duration\":0,\"scrambled\":true,\"descriptors\":[]},\"record\":{\"timestamp\":1609426801000,\"pos\":752}}}",
     "{\"type\":\"stop\",\"data\":{\"reset\":false}}"] = true := by decide +kernel

end Mirakc.Tests.ServiceRecorder
