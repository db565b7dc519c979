import Verif.Tests.Helper
import Verif.Model.Documents
/-
The tests of /repo/test/airtime_tracker_test.cc, evaluated on the model.
-/
namespace Mirakc.Tests.AirtimeTracker
open Mirakc.AirtimeTracker

/-- With these options and this input, these documents are written, the exit code is this one, and this
many packets are not asked for. -/
def writes (o : Opt) (is : List Input) (docs : List String) (code rest : Nat) : Bool :=
  match outcome (sink o) { st := {} } is with
  | .ok (c, s, n) => (s.items.flatMap fun i => i.did.map Documents.airtimeJson).map Json.write == docs.map Json.ascii && c == code && n == rest
  | .error _ => false

/-- NoPacket, airtime_tracker_test.cc:15-26. -/
example : writes { sid := 3, eid := 4 }
    []
    [] exitSuccess 0 = true := by decide +kernel

/-- Present, airtime_tracker_test.cc:28-58. -/
example : writes { sid := 3, eid := 4 }
    [tab 0 0x12 0 (.eit { serviceId := 3, tsId := 2, onetwId := 1, events := [{ eventId := 4, startTime := 32400000, duration := 1 }, { eventId := 5, startTime := 32401000, duration := 3600 }] })]
    ["{\"nid\":1,\"tsid\":2,\"sid\":3,\"eid\":4,\"startTime\":0,\"duration\":1000}"] exitSuccess 0 = true := by decide +kernel

/-- Following, airtime_tracker_test.cc:60-90. -/
example : writes { sid := 3, eid := 4 }
    [tab 0 0x12 0 (.eit { serviceId := 3, tsId := 2, onetwId := 1, events := [{ eventId := 3, startTime := 32400000, duration := 1 }, { eventId := 4, startTime := 32401000, duration := 1 }] })]
    ["{\"nid\":1,\"tsid\":2,\"sid\":3,\"eid\":4,\"startTime\":1000,\"duration\":1000}"] exitSuccess 0 = true := by decide +kernel

/-- Changes, airtime_tracker_test.cc:92-153. -/
example : writes { sid := 3, eid := 4 }
    [tab 0 0x12 0 (.eit { serviceId := 3, tsId := 2, onetwId := 1, events := [{ eventId := 3, startTime := 32400000, duration := 1 }, { eventId := 4, startTime := 32401000, duration := 1 }] }),
     tab 1 0x12 1 (.eit { serviceId := 3, tsId := 2, onetwId := 1, events := [{ eventId := 3, startTime := 32400000, duration := 2 }, { eventId := 4, startTime := 32402000, duration := 1 }] }),
     tab 2 0x12 3 (.eit { serviceId := 3, tsId := 2, onetwId := 1, events := [{ eventId := 4, startTime := 32402000, duration := 1 }, { eventId := 5, startTime := 32403000, duration := 1 }] })]
    ["{\"nid\":1,\"tsid\":2,\"sid\":3,\"eid\":4,\"startTime\":1000,\"duration\":1000}",
     "{\"nid\":1,\"tsid\":2,\"sid\":3,\"eid\":4,\"startTime\":2000,\"duration\":1000}",
     "{\"nid\":1,\"tsid\":2,\"sid\":3,\"eid\":4,\"startTime\":2000,\"duration\":1000}"] exitSuccess 0 = true := by decide +kernel

/-- EitSidUnmatched, airtime_tracker_test.cc:155-181. -/
example : writes { sid := 3, eid := 4 }
    [tab 0 0x12 0 (.eit { serviceId := 0x1000, tsId := 2, onetwId := 1, events := [{ eventId := 3, startTime := 32400000, duration := 1 }, { eventId := 4, startTime := 32401000, duration := 1 }] })]
    [] exitSuccess 0 = true := by decide +kernel

/-- EventNotFound, airtime_tracker_test.cc:183-209. -/
example : writes { sid := 3, eid := 4 }
    [tab 0 0x12 0 (.eit { serviceId := 3, tsId := 2, onetwId := 1, events := [{ eventId := 0x1000, startTime := 32400000, duration := 1 }, { eventId := 0x2000, startTime := 32401000, duration := 1 }] })]
    [] exitSuccess 0 = true := by decide +kernel

end Mirakc.Tests.AirtimeTracker
