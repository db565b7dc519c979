import Verif.Tests.Helper
import Verif.Model.ServiceFilter
/-
The tests of /repo/test/service_filter_test.cc, evaluated on the model.
-/
namespace Mirakc.Tests.ServiceFilter
open Mirakc.ServiceFilter

/-- PID and continuity counter of a packet passed on. -/
def brief : Out → Nat × Nat
  | .orig p => (p.pid, p.content)
  | .pat _ n => (0, n % 16)

/-- A PAT passed on has one service, the selected one, service_filter_test.cc:146-147. -/
def patOk : Out → Bool
  | .orig _ => true
  | .pat t _ => t.pmts.entries.map (·.1) == [1]

/-- With these options and this input, these packets are passed on, the exit code is this one, and this
many packets are not asked for. -/
def passes (o : Opt) (is : List Input) (es : List Expect) (code rest : Nat) : Bool :=
  match outcome (sink o (mock Out)) (init o, []) is with
  | .ok (c, s, n) => all2 (fun e x => e.ok (brief x).1 (brief x).2 none) es s.2 && s.2.all patOk && c == code && n == rest
  | .error _ => false

/-- NoPacket, service_filter_test.cc:17-35. -/
example : passes { sid := 1 }
    []
    [] exitSuccess 0 = true := by decide +kernel

/-- NullPacket, service_filter_test.cc:37-59. -/
example : passes { sid := 1 }
    [pes 0x1FFF 0]
    [] exitSuccess 0 = true := by decide +kernel

/-- NoSidInPat, service_filter_test.cc:61-89. -/
example : passes { sid := 1 }
    [tab 0 0 0 (.pat { tsId := 0x1234, pmts := ⟨[(0x1234, 0x1234)], by decide⟩ })]
    [] exitFailure 0 = true := by decide +kernel

/-- ServiceStream, service_filter_test.cc:91-206. -/
example : passes { sid := 1 }
    [tab 0 0 0 (.pat { tsId := 0x1234, pmts := ⟨[(1, 0x101), (2, 0x102)], by decide⟩ }),
     tab 1 0x101 0 (.pmt { serviceId := 1, pcrPid := 0x901, streams := ⟨[(0x301, video), (0x302, audio), (0x303, data)], by decide⟩ }),
     tab 2 0x102 0 (.pmt { serviceId := 2, pcrPid := 0x902, streams := ⟨[(0x311, video), (0x312, audio), (0x313, data)], by decide⟩ }),
     tab 3 0x14 0 (.tot 1546398245000),
     pes 0x301 0,
     pes 0x302 0,
     pes 0x303 0,
     pes 0x311 0,
     pes 0x312 0,
     pes 0x313 0,
     tab 10 0x12 0 (.eit { serviceId := 1, tsId := 0x1234, onetwId := 1, events := [{ eventId := 0x1001, startTime := 1546398000000, duration := 3600 }] }),
     pes 0x301 1,
     pes 0x302 1,
     pes 0x311 1,
     pes 0x312 1]
    [{ pid := 0 },
     { pid := 0x101 },
     { pid := 0x14 },
     { pid := 0x301, cc := some 0 },
     { pid := 0x302, cc := some 0 },
     { pid := 0x303, cc := some 0 },
     { pid := 0x12 },
     { pid := 0x301, cc := some 1 },
     { pid := 0x302, cc := some 1 }] exitSuccess 0 = true := by decide +kernel

/-- ResetFilterDueToPatChanged, service_filter_test.cc:208-292. -/
example : passes { sid := 1 }
    [tab 0 0 0 (.pat { tsId := 0x1234, pmts := ⟨[(1, 0x101)], by decide⟩ }),
     tab 1 0x101 0 (.pmt { serviceId := 1, pcrPid := 0x901, streams := ⟨[(0x301, video), (0x302, audio)], by decide⟩ }),
     pes 0x301 0,
     pes 0x302 0,
     tab 4 0 1 (.pat { tsId := 0x1234, pmts := ⟨[(1, 0x102)], by decide⟩ }),
     tab 5 0x101 1 (.pmt { serviceId := 1, pcrPid := 0x901, streams := ⟨[(0x301, video), (0x302, audio)], by decide⟩ }),
     tab 6 0x102 0 (.pmt { serviceId := 1, pcrPid := 0x902, streams := ⟨[(0x303, video), (0x304, audio)], by decide⟩ }),
     pes 0x301 1,
     pes 0x302 1,
     pes 0x303 0,
     pes 0x304 0]
    [{ pid := 0 },
     { pid := 0x101 },
     { pid := 0x301 },
     { pid := 0x302 },
     { pid := 0 },
     { pid := 0x102 },
     { pid := 0x303 },
     { pid := 0x304 }] exitSuccess 0 = true := by decide +kernel

/-- ResetFilterDueToPmtChanged, service_filter_test.cc:294-367. -/
example : passes { sid := 1 }
    [tab 0 0 0 (.pat { tsId := 0x1234, pmts := ⟨[(1, 0x101)], by decide⟩ }),
     tab 1 0x101 0 (.pmt { serviceId := 1, pcrPid := 0x901, streams := ⟨[(0x301, video), (0x302, audio)], by decide⟩ }),
     pes 0x301 0,
     pes 0x302 0,
     tab 4 0x101 1 (.pmt { serviceId := 1, pcrPid := 0x901, streams := ⟨[(0x303, video), (0x304, audio)], by decide⟩ }),
     pes 0x301 1,
     pes 0x302 1,
     pes 0x303 0,
     pes 0x304 0]
    [{ pid := 0 },
     { pid := 0x101, cc := some 0 },
     { pid := 0x301 },
     { pid := 0x302 },
     { pid := 0x101, cc := some 1 },
     { pid := 0x303 },
     { pid := 0x304 }] exitSuccess 0 = true := by decide +kernel

/-- TimeLimitTot, service_filter_test.cc:369-417. -/
example : passes { sid := 1, timeLimit := some 1546398245000 }
    [tab 0 0x12 1 (.eit { serviceId := 1, tsId := 0x1234, onetwId := 1, events := [{ eventId := 0x1001, startTime := 1546398000000, duration := 3600 }] }),
     tab 1 0 0 (.pat { tsId := 0x1234, pmts := ⟨[(1, 0x101)], by decide⟩ }),
     tab 2 0x14 0 (.tot 1546398244000),
     tab 3 0x14 1 (.tot 1546398245000),
     tab 4 0x14 2 (.tot 1546398246000)]
    [{ pid := 0 },
     { pid := 0x14, cc := some 0 }] exitSuccess 1 = true := by decide +kernel

/-- Subtitle, service_filter_test.cc:419-551. -/
example : passes { sid := 1 }
    [tab 0 0 0 (.pat { tsId := 0x1234, pmts := ⟨[(1, 0x101)], by decide⟩ }),
     tab 1 0x101 0 (.pmt { serviceId := 1, pcrPid := 0x901, streams := ⟨[(0x300, (data (some 0x30))), (0x301, (data (some 0x31))), (0x302, (data (some 0x32))), (0x303, (data (some 0x33))), (0x304, (data (some 0x34))), (0x305, (data (some 0x35))), (0x306, (data (some 0x36))), (0x307, (data (some 0x37)))], by decide⟩ }),
     pes 0x300 0,
     pes 0x301 0,
     pes 0x302 0,
     pes 0x303 0,
     pes 0x304 0,
     pes 0x305 0,
     pes 0x306 0,
     pes 0x307 0]
    [{ pid := 0 },
     { pid := 0x101 },
     { pid := 0x300, cc := some 0 },
     { pid := 0x301, cc := some 0 },
     { pid := 0x302, cc := some 0 },
     { pid := 0x303, cc := some 0 },
     { pid := 0x304, cc := some 0 },
     { pid := 0x305, cc := some 0 },
     { pid := 0x306, cc := some 0 },
     { pid := 0x307, cc := some 0 }] exitSuccess 0 = true := by decide +kernel

/-- SuperimposedText, service_filter_test.cc:553-685. -/
example : passes { sid := 1 }
    [tab 0 0 0 (.pat { tsId := 0x1234, pmts := ⟨[(1, 0x101)], by decide⟩ }),
     tab 1 0x101 0 (.pmt { serviceId := 1, pcrPid := 0x901, streams := ⟨[(0x308, (data (some 0x38))), (0x309, (data (some 0x39))), (0x30A, (data (some 0x3A))), (0x30B, (data (some 0x3B))), (0x30C, (data (some 0x3C))), (0x30D, (data (some 0x3D))), (0x30E, (data (some 0x3E))), (0x30F, (data (some 0x3F)))], by decide⟩ }),
     pes 0x308 0,
     pes 0x309 0,
     pes 0x30A 0,
     pes 0x30B 0,
     pes 0x30C 0,
     pes 0x30D 0,
     pes 0x30E 0,
     pes 0x30F 0]
    [{ pid := 0 },
     { pid := 0x101 },
     { pid := 0x308, cc := some 0 },
     { pid := 0x309, cc := some 0 },
     { pid := 0x30A, cc := some 0 },
     { pid := 0x30B, cc := some 0 },
     { pid := 0x30C, cc := some 0 },
     { pid := 0x30D, cc := some 0 },
     { pid := 0x30E, cc := some 0 },
     { pid := 0x30F, cc := some 0 }] exitSuccess 0 = true := by decide +kernel

/-- PmtSidUnmatched, service_filter_test.cc:687-734. -/
example : passes { sid := 1 }
    [tab 0 0 0 (.pat { tsId := 0x1234, pmts := ⟨[(1, 0x101), (2, 0x102)], by decide⟩ }),
     tab 1 0x101 0 (.pmt { serviceId := 0, pcrPid := 0xABC, streams := ⟨[], by decide⟩ }),
     pes 0xABC 0]
    [{ pid := 0 },
     { pid := 0x101, cc := some 0 }] exitSuccess 0 = true := by decide +kernel

end Mirakc.Tests.ServiceFilter
