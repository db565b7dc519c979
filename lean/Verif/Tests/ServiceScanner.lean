import Verif.Tests.Helper
import Verif.Model.Documents
/-
The tests of /repo/test/service_scanner_test.cc, evaluated on the model.
-/
namespace Mirakc.Tests.ServiceScanner
open Mirakc.ServiceScanner

/-- With these options and this input, these documents are written, the exit code is this one, and this
many packets are not asked for. -/
def writes (o : Opt) (is : List Input) (docs : List String) (code rest : Nat) : Bool :=
  match outcome (sink o) { st := {} } is with
  | .ok (c, s, n) => (s.st.out.toList.map fun l => .arr (l.map Documents.serviceJson)).map Json.write == docs.map Json.ascii && c == code && n == rest
  | .error _ => false

/-- NoPacket, service_scanner_test.cc:16-27. -/
example : writes {}
    []
    [] exitFailure 0 = true := by decide +kernel

/-- Complete, service_scanner_test.cc:29-92. -/
example : writes {}
    [tab 0 0 0 (.pat { tsId := 3, pmts := ⟨[(1, 0x101), (2, 0x102)], by decide⟩ }),
     tab 1 0x10 0 (.nit { transports := [((0x1234, 2), [])] }),
     tab 2 0x11 0 (.sdt { tsId := 3, onetwId := 2, services := ⟨[(1, { serviceType := 1, name := "service-1" }), (2, { serviceType := 1, name := "service-2" })], by decide⟩ })]
    ["[{\"nid\":2,\"tsid\":3,\"sid\":1,\"name\":\"service-1\",\"type\":1,\"logoId\":-1},{\"nid\":2,\"tsid\":3,\"sid\":2,\"name\":\"service-2\",\"type\":1,\"logoId\":-1}]"] exitSuccess 0 = true := by decide +kernel

/-- NoPat, service_scanner_test.cc:94-133. -/
example : writes {}
    [tab 0 0x10 0 (.nit { transports := [((0x1234, 2), [])] }),
     tab 1 0x11 0 (.sdt { tsId := 0x1234, onetwId := 2, services := ⟨[(1, { serviceType := 1, name := "service-1" }), (2, { serviceType := 1, name := "service-2" })], by decide⟩ })]
    [] exitFailure 0 = true := by decide +kernel

/-- NoNit, service_scanner_test.cc:135-174. -/
example : writes {}
    [tab 0 0 0 (.pat { tsId := 0x1234, pmts := ⟨[(1, 0x101), (2, 0x102)], by decide⟩ }),
     tab 1 0x11 0 (.sdt { tsId := 0x1234, onetwId := 2, services := ⟨[(1, { serviceType := 1, name := "service-1" }), (2, { serviceType := 1, name := "service-2" })], by decide⟩ })]
    [] exitFailure 0 = true := by decide +kernel

/-- NoSdt, service_scanner_test.cc:176-203. -/
example : writes {}
    [tab 0 0 0 (.pat { tsId := 0x1234, pmts := ⟨[(1, 0x101), (2, 0x102)], by decide⟩ }),
     tab 1 0x10 0 (.nit { transports := [((0x1234, 2), [])] })]
    [] exitFailure 0 = true := by decide +kernel

/-- NonStandardNit, service_scanner_test.cc:205-268. -/
example : writes {}
    [tab 0 0 0 (.pat { tsId := 3, nitPid := 0x1010, pmts := ⟨[(1, 0x101), (2, 0x102)], by decide⟩ }),
     tab 1 0x1010 0 (.nit { transports := [((0x1234, 2), [])] }),
     tab 2 0x11 0 (.sdt { tsId := 3, onetwId := 2, services := ⟨[(1, { serviceType := 1, name := "service-1" }), (2, { serviceType := 1, name := "service-2" })], by decide⟩ })]
    ["[{\"nid\":2,\"tsid\":3,\"sid\":1,\"name\":\"service-1\",\"type\":1,\"logoId\":-1},{\"nid\":2,\"tsid\":3,\"sid\":2,\"name\":\"service-2\",\"type\":1,\"logoId\":-1}]"] exitSuccess 0 = true := by decide +kernel

/-- ServiceTypes, service_scanner_test.cc:270-341. -/
example : writes {}
    [tab 0 0 0 (.pat { tsId := 3, pmts := ⟨[(1, 0x101), (2, 0x102), (3, 0x103)], by decide⟩ }),
     tab 1 0x10 0 (.nit { transports := [((0x1234, 2), [])] }),
     tab 2 0x11 0 (.sdt { tsId := 3, onetwId := 2, services := ⟨[(1, { serviceType := 1, name := "service-1" }), (2, { serviceType := 2, name := "service-2" }), (3, { serviceType := 3, name := "service-3" })], by decide⟩ })]
    ["[{\"nid\":2,\"tsid\":3,\"sid\":1,\"name\":\"service-1\",\"type\":1,\"logoId\":-1},{\"nid\":2,\"tsid\":3,\"sid\":2,\"name\":\"service-2\",\"type\":2,\"logoId\":-1}]"] exitSuccess 0 = true := by decide +kernel

/-- InclusionList, service_scanner_test.cc:343-402. -/
example : writes { sids := [1] }
    [tab 0 0 0 (.pat { tsId := 3, pmts := ⟨[(1, 0x101), (2, 0x102)], by decide⟩ }),
     tab 1 0x10 0 (.nit { transports := [((0x1234, 2), [])] }),
     tab 2 0x11 0 (.sdt { tsId := 3, onetwId := 2, services := ⟨[(1, { serviceType := 1, name := "service-1" }), (2, { serviceType := 1, name := "service-2" })], by decide⟩ })]
    ["[{\"nid\":2,\"tsid\":3,\"sid\":1,\"name\":\"service-1\",\"type\":1,\"logoId\":-1}]"] exitSuccess 0 = true := by decide +kernel

/-- ExclusionList, service_scanner_test.cc:404-463. -/
example : writes { xsids := [1] }
    [tab 0 0 0 (.pat { tsId := 3, pmts := ⟨[(1, 0x101), (2, 0x102)], by decide⟩ }),
     tab 1 0x10 0 (.nit { transports := [((0x1234, 2), [])] }),
     tab 2 0x11 0 (.sdt { tsId := 3, onetwId := 2, services := ⟨[(1, { serviceType := 1, name := "service-1" }), (2, { serviceType := 1, name := "service-2" })], by decide⟩ })]
    ["[{\"nid\":2,\"tsid\":3,\"sid\":2,\"name\":\"service-2\",\"type\":1,\"logoId\":-1}]"] exitSuccess 0 = true := by decide +kernel

end Mirakc.Tests.ServiceScanner
