import Verif.Tests.Helper
import Verif.Model.StartSeeker
/-
The tests of /repo/test/start_seeker_test.cc, evaluated on the model.
-/
namespace Mirakc.Tests.StartSeeker
open Mirakc.StartSeeker

/-- With these options and this input, these packets are passed on, the exit code is this one, and this
many packets are not asked for. -/
def passes (o : Opt) (is : List Input) (es : List Expect) (code rest : Nat) : Bool :=
  match outcome (sink o (mock Packet)) (init, []) is with
  | .ok (c, s, n) => all2 (fun e (p : Packet) => e.ok p.pid p.content p.pcr) es s.2 && c == code && n == rest
  | .error _ => false

/-- NoPacket, start_seeker_test.cc:17-35. -/
example : passes { sid := 1, maxDuration := 1000, maxPackets := 0 }
    []
    [] exitSuccess 0 = true := by decide +kernel

/-- Eof, start_seeker_test.cc:37-68. -/
example : passes { sid := 1, maxDuration := 1000, maxPackets := 0 }
    [tab 0 0 0 (.pat { tsId := 0x1234, pmts := ⟨[(1, 0x101)], by decide⟩ })]
    [{ pid := 0, cc := some 0 }] exitSuccess 0 = true := by decide +kernel

/-- MaxDuration, start_seeker_test.cc:70-150. -/
example : passes { sid := 1, maxDuration := 1000, maxPackets := 0 }
    [tab 0 0 0 (.pat { tsId := 0x1234, pmts := ⟨[(1, 0x101)], by decide⟩ }),
     tab 1 0x101 0 (.pmt { serviceId := 1, pcrPid := 0x901, streams := ⟨[(0x301, video), (0x302, audio)], by decide⟩ }),
     pcr 0x901 0 0,
     pes 0x301 0,
     pes 0x302 0,
     pcr 0x901 1 27000000,
     pes 0x301 1,
     pes 0x302 1]
    [{ pid := 0, cc := some 0 },
     { pid := 0x101, cc := some 0 },
     { pid := 0x901, cc := some 0 },
     { pid := 0x301, cc := some 0 },
     { pid := 0x302, cc := some 0 },
     { pid := 0x901, cc := some 1 },
     { pid := 0x301, cc := some 1 },
     { pid := 0x302, cc := some 1 }] exitSuccess 0 = true := by decide +kernel

/-- MaxPackets, start_seeker_test.cc:152-234. -/
example : passes { sid := 1, maxDuration := 1000, maxPackets := 3 }
    [tab 0 0 0 (.pat { tsId := 0x1234, pmts := ⟨[(1, 0x101)], by decide⟩ }),
     tab 1 0x101 0 (.pmt { serviceId := 1, pcrPid := 0x901, streams := ⟨[(0x301, video), (0x302, audio)], by decide⟩ }),
     pcr 0x901 0 0,
     pes 0x301 0,
     pes 0x302 0,
     pcr 0x901 1 27000000,
     pes 0x301 1,
     pes 0x302 1]
    [{ pid := 0, cc := some 0 },
     { pid := 0x101, cc := some 0 },
     { pid := 0x901, cc := some 0 },
     { pid := 0x301, cc := some 0 },
     { pid := 0x302, cc := some 0 },
     { pid := 0x901, cc := some 1 },
     { pid := 0x301, cc := some 1 },
     { pid := 0x302, cc := some 1 }] exitSuccess 0 = true := by decide +kernel

/-- DetectVideoChange, start_seeker_test.cc:236-316. -/
example : passes { sid := 1, maxDuration := 1000, maxPackets := 0 }
    [tab 0 0 0 (.pat { tsId := 0x1234, pmts := ⟨[(1, 0x101)], by decide⟩ }),
     tab 1 0x101 0 (.pmt { serviceId := 1, pcrPid := 0x901, streams := ⟨[(0x301, video), (0x302, audio)], by decide⟩ }),
     pcr 0x901 0 0,
     pes 0x301 0,
     pes 0x302 0,
     tab 5 0 1 (.pat { tsId := 0x1234, pmts := ⟨[(1, 0x101)], by decide⟩ }),
     tab 6 0x101 1 (.pmt { serviceId := 1, pcrPid := 0x901, streams := ⟨[(0x302, audio), (0x303, video)], by decide⟩ }),
     pcr 0x901 1 27000000,
     pes 0x301 1,
     pes 0x302 1,
     pes 0x303 0]
    [{ pid := 0, cc := some 1 },
     { pid := 0x101, cc := some 1 },
     { pid := 0x901, cc := some 1 },
     { pid := 0x301, cc := some 1 },
     { pid := 0x302, cc := some 1 },
     { pid := 0x303, cc := some 0 }] exitSuccess 0 = true := by decide +kernel

/-- DetectAudioChange, start_seeker_test.cc:318-398. -/
example : passes { sid := 1, maxDuration := 1000, maxPackets := 0 }
    [tab 0 0 0 (.pat { tsId := 0x1234, pmts := ⟨[(1, 0x101)], by decide⟩ }),
     tab 1 0x101 0 (.pmt { serviceId := 1, pcrPid := 0x901, streams := ⟨[(0x301, video), (0x302, audio)], by decide⟩ }),
     pcr 0x901 0 0,
     pes 0x301 0,
     pes 0x302 0,
     tab 5 0 1 (.pat { tsId := 0x1234, pmts := ⟨[(1, 0x101)], by decide⟩ }),
     tab 6 0x101 1 (.pmt { serviceId := 1, pcrPid := 0x901, streams := ⟨[(0x301, video), (0x303, audio)], by decide⟩ }),
     pcr 0x901 1 27000000,
     pes 0x301 1,
     pes 0x302 1,
     pes 0x303 0]
    [{ pid := 0, cc := some 1 },
     { pid := 0x101, cc := some 1 },
     { pid := 0x901, cc := some 1 },
     { pid := 0x301, cc := some 1 },
     { pid := 0x302, cc := some 1 },
     { pid := 0x303, cc := some 0 }] exitSuccess 0 = true := by decide +kernel

/-- DetectMultipleAudioStreams, start_seeker_test.cc:400-481. -/
example : passes { sid := 1, maxDuration := 1000, maxPackets := 0 }
    [tab 0 0 0 (.pat { tsId := 0x1234, pmts := ⟨[(1, 0x101)], by decide⟩ }),
     tab 1 0x101 0 (.pmt { serviceId := 1, pcrPid := 0x901, streams := ⟨[(0x301, video), (0x302, audio)], by decide⟩ }),
     pcr 0x901 0 0,
     pes 0x301 0,
     pes 0x302 0,
     tab 5 0 1 (.pat { tsId := 0x1234, pmts := ⟨[(1, 0x101)], by decide⟩ }),
     tab 6 0x101 1 (.pmt { serviceId := 1, pcrPid := 0x901, streams := ⟨[(0x301, video), (0x302, audio), (0x303, audio)], by decide⟩ }),
     pcr 0x901 1 27000000,
     pes 0x301 1,
     pes 0x302 1,
     pes 0x303 0]
    [{ pid := 0, cc := some 1 },
     { pid := 0x101, cc := some 1 },
     { pid := 0x901, cc := some 1 },
     { pid := 0x301, cc := some 1 },
     { pid := 0x302, cc := some 1 },
     { pid := 0x303, cc := some 0 }] exitSuccess 0 = true := by decide +kernel

/-- AbnormalPcrPackets, start_seeker_test.cc:483-567. -/
example : passes { sid := 1, maxDuration := 1000, maxPackets := 0 }
    [tab 0 0 0 (.pat { tsId := 0x1234, pmts := ⟨[(1, 0x101)], by decide⟩ }),
     tab 1 0x101 0 (.pmt { serviceId := 1, pcrPid := 0x901, streams := ⟨[(0x301, video), (0x302, audio)], by decide⟩ }),
     pcr 0x901 0 0,
     pes 0x301 0,
     pes 0x302 0,
     pes 0x901 1,
     badPcr 0x901 2,
     tab 7 0 1 (.pat { tsId := 0x1234, pmts := ⟨[(1, 0x101)], by decide⟩ }),
     tab 8 0x101 1 (.pmt { serviceId := 1, pcrPid := 0x901, streams := ⟨[(0x301, video), (0x302, audio), (0x303, audio)], by decide⟩ }),
     pcr 0x901 3 27000000,
     pes 0x301 1,
     pes 0x302 1,
     pes 0x303 0]
    [{ pid := 0, cc := some 1 },
     { pid := 0x101, cc := some 1 },
     { pid := 0x901, cc := some 3 },
     { pid := 0x301, cc := some 1 },
     { pid := 0x302, cc := some 1 },
     { pid := 0x303, cc := some 0 }] exitSuccess 0 = true := by decide +kernel

/-- PmtSidUnmatched, start_seeker_test.cc:569-658. -/
example : passes { sid := 1, maxDuration := 1000, maxPackets := 0 }
    [tab 0 0 0 (.pat { tsId := 0x1234, pmts := ⟨[(1, 0x101)], by decide⟩ }),
     tab 1 0x101 0 (.pmt { serviceId := 1, pcrPid := 0x901, streams := ⟨[(0x301, video), (0x302, audio)], by decide⟩ }),
     pcr 0x901 0 0,
     pes 0x301 0,
     pes 0x302 0,
     tab 5 0 1 (.pat { tsId := 0x1234, pmts := ⟨[(1, 0x101)], by decide⟩ }),
     tab 6 0x101 1 (.pmt { serviceId := 0, pcrPid := 0xABC, streams := ⟨[], by decide⟩ }),
     tab 7 0x101 2 (.pmt { serviceId := 1, pcrPid := 0x901, streams := ⟨[(0x301, video), (0x302, audio), (0x303, audio)], by decide⟩ }),
     pcr 0xABC 0 0,
     pcr 0x901 1 27000000,
     pes 0x301 1,
     pes 0x302 1,
     pes 0x303 0]
    [{ pid := 0, cc := some 1 },
     { pid := 0x101, cc := some 2 },
     { pid := 0xABC, cc := some 0 },
     { pid := 0x901, cc := some 1 },
     { pid := 0x301, cc := some 1 },
     { pid := 0x302, cc := some 1 },
     { pid := 0x303, cc := some 0 }] exitSuccess 0 = true := by decide +kernel

end Mirakc.Tests.StartSeeker
