import Verif.Tests.Helper
import Verif.Model.Documents
/-
The tests of /repo/test/pcr_synchronizer_test.cc, evaluated on the model.
-/
namespace Mirakc.Tests.PcrSynchronizer
open Mirakc.PcrSynchronizer

/-- With these options and this input, these documents are written, the exit code is this one, and this
many packets are not asked for. -/
def writes (o : Opt) (is : List Input) (docs : List String) (code rest : Nat) : Bool :=
  match outcome (sink o) { st := {} } is with
  | .ok (c, s, n) => (s.st.out.toList.map fun l => .arr (l.map Documents.clockJson)).map Json.write == docs.map Json.ascii && c == code && n == rest
  | .error _ => false

/-- NoPacket, pcr_synchronizer_test.cc:16-27. -/
example : writes {}
    []
    [] exitFailure 0 = true := by decide +kernel

/-- Successful, pcr_synchronizer_test.cc:29-103. -/
example : writes {}
    [tab 0 0 0 (.pat { tsId := 0x1234, pmts := ⟨[(1, 0x101), (2, 0x102)], by decide⟩ }),
     tab 1 0x11 0 (.sdt { tsId := 3, onetwId := 2, services := ⟨[(1, { serviceType := 1, name := "service-1" }), (2, { serviceType := 1, name := "service-2" })], by decide⟩ }),
     tab 2 0x101 0 (.pmt { serviceId := 1, pcrPid := 0x901, streams := ⟨[], by decide⟩ }),
     tab 3 0x102 0 (.pmt { serviceId := 2, pcrPid := 0x902, streams := ⟨[], by decide⟩ }),
     pcr 0x901 0 101,
     pcr 0x902 0 201,
     tab 6 0x14 0 (.tot 1546398245000),
     pcr 0x901 0 102,
     pcr 0x902 0 202,
     pcr 0x901 0 103,
     pcr 0x902 0 203]
    ["[{\"nid\":2,\"tsid\":3,\"sid\":1,\"clock\":{\"pid\":2305,\"pcr\":102,\"time\":1546365845000}},{\"nid\":2,\"tsid\":3,\"sid\":2,\"clock\":{\"pid\":2306,\"pcr\":202,\"time\":1546365845000}}]"] exitSuccess 2 = true := by decide +kernel

/-- Reset, pcr_synchronizer_test.cc:105-206. -/
example : writes {}
    [tab 0 0 0 (.pat { tsId := 0x1234, pmts := ⟨[(1, 0x101), (2, 0x102)], by decide⟩ }),
     tab 1 0x11 0 (.sdt { tsId := 3, onetwId := 2, services := ⟨[(1, { serviceType := 1, name := "service-1" }), (2, { serviceType := 1, name := "service-2" })], by decide⟩ }),
     tab 2 0x101 0 (.pmt { serviceId := 1, pcrPid := 0x901, streams := ⟨[], by decide⟩ }),
     tab 3 0x102 0 (.pmt { serviceId := 2, pcrPid := 0x902, streams := ⟨[], by decide⟩ }),
     pcr 0x901 0 101,
     pcr 0x902 0 201,
     tab 6 0x14 0 (.tot 1546398245000),
     pcr 0x901 0 102,
     tab 8 0 2 (.pat { tsId := 0x1234, pmts := ⟨[(1, 0x101), (2, 0x102)], by decide⟩ }),
     tab 9 0x11 2 (.sdt { tsId := 3, onetwId := 2, services := ⟨[(1, { serviceType := 1, name := "service-1" }), (2, { serviceType := 1, name := "service-2" })], by decide⟩ }),
     tab 10 0x101 2 (.pmt { serviceId := 1, pcrPid := 0x901, streams := ⟨[], by decide⟩ }),
     tab 11 0x102 2 (.pmt { serviceId := 2, pcrPid := 0x902, streams := ⟨[], by decide⟩ }),
     pcr 0x902 0 202,
     tab 13 0x14 1 (.tot 1546398250000),
     pcr 0x901 0 103,
     pcr 0x902 0 203]
    ["[{\"nid\":2,\"tsid\":3,\"sid\":1,\"clock\":{\"pid\":2305,\"pcr\":103,\"time\":1546365850000}},{\"nid\":2,\"tsid\":3,\"sid\":2,\"clock\":{\"pid\":2306,\"pcr\":203,\"time\":1546365850000}}]"] exitSuccess 0 = true := by decide +kernel

/-- NoPcr, pcr_synchronizer_test.cc:208-255. -/
example : writes {}
    [tab 0 0 0 (.pat { tsId := 0x1234, pmts := ⟨[(1, 0x101), (2, 0x102)], by decide⟩ }),
     tab 1 0x11 0 (.sdt { tsId := 3, onetwId := 2, services := ⟨[(1, { serviceType := 1, name := "service-1" }), (2, { serviceType := 1, name := "service-2" })], by decide⟩ }),
     tab 2 0x101 0 (.pmt { serviceId := 1, pcrPid := 0x901, streams := ⟨[], by decide⟩ }),
     tab 3 0x102 0 (.pmt { serviceId := 2, pcrPid := 0x902, streams := ⟨[], by decide⟩ }),
     tab 4 0x14 0 (.tot 1546398245000),
     pcr 0x903 0 302,
     pcr 0x903 0 303]
    [] exitFailure 0 = true := by decide +kernel

/-- InclusionList, pcr_synchronizer_test.cc:257-325. -/
example : writes { sids := [1] }
    [tab 0 0 0 (.pat { tsId := 0x1234, pmts := ⟨[(1, 0x101), (2, 0x102)], by decide⟩ }),
     tab 1 0x11 0 (.sdt { tsId := 3, onetwId := 2, services := ⟨[(1, { serviceType := 1, name := "service-1" }), (2, { serviceType := 1, name := "service-2" })], by decide⟩ }),
     tab 2 0x101 0 (.pmt { serviceId := 1, pcrPid := 0x901, streams := ⟨[], by decide⟩ }),
     tab 3 0x102 0 (.pmt { serviceId := 2, pcrPid := 0x902, streams := ⟨[], by decide⟩ }),
     pcr 0x901 0 101,
     pcr 0x902 0 201,
     tab 6 0x14 0 (.tot 1546398245000),
     pcr 0x901 0 102,
     pcr 0x902 0 202,
     pcr 0x901 0 103,
     pcr 0x902 0 203]
    ["[{\"nid\":2,\"tsid\":3,\"sid\":1,\"clock\":{\"pid\":2305,\"pcr\":102,\"time\":1546365845000}}]"] exitSuccess 3 = true := by decide +kernel

/-- ExclusionList, pcr_synchronizer_test.cc:327-395. -/
example : writes { xsids := [1] }
    [tab 0 0 0 (.pat { tsId := 0x1234, pmts := ⟨[(1, 0x101), (2, 0x102)], by decide⟩ }),
     tab 1 0x11 0 (.sdt { tsId := 3, onetwId := 2, services := ⟨[(1, { serviceType := 1, name := "service-1" }), (2, { serviceType := 1, name := "service-2" })], by decide⟩ }),
     tab 2 0x101 0 (.pmt { serviceId := 1, pcrPid := 0x901, streams := ⟨[], by decide⟩ }),
     tab 3 0x102 0 (.pmt { serviceId := 2, pcrPid := 0x902, streams := ⟨[], by decide⟩ }),
     pcr 0x901 0 101,
     pcr 0x902 0 201,
     tab 6 0x14 0 (.tot 1546398245000),
     pcr 0x901 0 102,
     pcr 0x902 0 202,
     pcr 0x901 0 103,
     pcr 0x902 0 203]
    ["[{\"nid\":2,\"tsid\":3,\"sid\":2,\"clock\":{\"pid\":2306,\"pcr\":202,\"time\":1546365845000}}]"] exitSuccess 2 = true := by decide +kernel

/-- AbnormalPcrPackets, pcr_synchronizer_test.cc:397-485. -/
example : writes {}
    [tab 0 0 0 (.pat { tsId := 0x1234, pmts := ⟨[(1, 0x101), (2, 0x102)], by decide⟩ }),
     tab 1 0x11 0 (.sdt { tsId := 3, onetwId := 2, services := ⟨[(1, { serviceType := 1, name := "service-1" }), (2, { serviceType := 1, name := "service-2" })], by decide⟩ }),
     tab 2 0x101 0 (.pmt { serviceId := 1, pcrPid := 0x901, streams := ⟨[], by decide⟩ }),
     tab 3 0x102 0 (.pmt { serviceId := 2, pcrPid := 0x902, streams := ⟨[], by decide⟩ }),
     pcr 0x901 0 101,
     pcr 0x902 0 201,
     tab 6 0x14 0 (.tot 1546398245000),
     pes 0x901 1,
     pes 0x902 1,
     badPcr 0x901 2,
     badPcr 0x902 2,
     pcr 0x901 3 102,
     pcr 0x902 3 202,
     pcr 0x901 4 103,
     pcr 0x902 4 203]
    ["[{\"nid\":2,\"tsid\":3,\"sid\":1,\"clock\":{\"pid\":2305,\"pcr\":102,\"time\":1546365845000}},{\"nid\":2,\"tsid\":3,\"sid\":2,\"clock\":{\"pid\":2306,\"pcr\":202,\"time\":1546365845000}}]"] exitSuccess 2 = true := by decide +kernel

/-- PmtSidUnmatched, pcr_synchronizer_test.cc:487-531. -/
example : writes {}
    [tab 0 0 0 (.pat { tsId := 0x1234, pmts := ⟨[(1, 0x101), (2, 0x102)], by decide⟩ }),
     tab 1 0x11 0 (.sdt { tsId := 3, onetwId := 2, services := ⟨[(1, { serviceType := 1, name := "service-1" }), (2, { serviceType := 1, name := "service-2" })], by decide⟩ }),
     tab 2 0x101 0 (.pmt { serviceId := 0x1000, pcrPid := 0xABC, streams := ⟨[], by decide⟩ }),
     tab 3 0x14 0 (.tot 1546398245000),
     pcr 0xABC 0 302]
    [] exitFailure 0 = true := by decide +kernel

/-- PmtPidUnmatched, pcr_synchronizer_test.cc:533-577. -/
example : writes {}
    [tab 0 0 0 (.pat { tsId := 0x1234, pmts := ⟨[(1, 0x101), (2, 0x102)], by decide⟩ }),
     tab 1 0x11 0 (.sdt { tsId := 3, onetwId := 2, services := ⟨[(1, { serviceType := 1, name := "service-1" }), (2, { serviceType := 1, name := "service-2" })], by decide⟩ }),
     tab 2 0x103 0 (.pmt { serviceId := 1, pcrPid := 0xABC, streams := ⟨[], by decide⟩ }),
     tab 3 0x14 0 (.tot 1546398245000),
     pcr 0xABC 0 302]
    [] exitFailure 0 = true := by decide +kernel

end Mirakc.Tests.PcrSynchronizer
