import Verif.Tests.Helper
import Verif.Model.ProgramFilter
/-
The tests of /repo/test/program_filter_test.cc, evaluated on the model.
-/
namespace Mirakc.Tests.ProgramFilter
open Mirakc.ProgramFilter

/-- PID, continuity counter and PCR of a packet passed on. -/
def brief : Out → Nat × Nat × Option Int
  | .orig p => (p.pid, p.content, p.pcr)
  | .pmt pid _ _ n => (pid, n % 16, none)

/-- With these options and this input, these packets are passed on, the exit code is this one, and this
many packets are not asked for.  Every PMT fits into one packet. -/
def passes (o : Opt) (is : List Input) (es : List Expect) (code rest : Nat) : Bool :=
  match outcome (sink (fun _ => 0) o (mock Out)) (init o, []) is with
  | .ok (c, s, n) =>
    all2 (fun e x => e.ok (brief x).1 (brief x).2.1 (brief x).2.2) es s.2 && c == code && n == rest
  | .error _ => false

/-- NoPacket, program_filter_test.cc:18-36. -/
example : passes { sid := 1, eid := 0x1001, clockPid := 0x901 }
    []
    [] exitSuccess 0 = true := by decide +kernel

/-- WaitReady, program_filter_test.cc:38-146. -/
example : passes { sid := 1, eid := 0x1001, clockPid := 0x901 }
    [tab 0 0 0 (.pat { tsId := 0x1234, pmts := ⟨[(1, 0x101), (2, 0x102)], by decide⟩ }),
     tab 1 0x101 0 (.pmt { serviceId := 1, pcrPid := 0x901, streams := ⟨[(0x301, video), (0x302, audio)], by decide⟩ }),
     tab 2 0x12 0 (.eit { serviceId := 1, tsId := 0x1234, onetwId := 1, events := [{ eventId := 0x1000, startTime := 0, duration := 1 }, { eventId := 0x1001, startTime := 1000, duration := 3600 }] }),
     pcr 0x901 0 0,
     pes 0x301 0,
     pes 0x302 0,
     pcr 0x901 1 27000000,
     pes 0x301 1,
     pes 0x302 1,
     pes 0 1,
     pes 0x101 1,
     pes 0x301 2,
     pes 0x302 2]
    [{ pid := 0, cc := some 0 },
     { pid := 0x101, cc := some 0 },
     { pid := 0x901, cc := some 1, pcr := some 27000000 },
     { pid := 0x301, cc := some 1 },
     { pid := 0x302, cc := some 1 },
     { pid := 0, cc := some 1 },
     { pid := 0x101, cc := some 1 },
     { pid := 0x301, cc := some 2 },
     { pid := 0x302, cc := some 2 }] exitSuccess 0 = true := by decide +kernel

/-- AlreadyStarted, program_filter_test.cc:148-260. -/
example : passes { sid := 1, eid := 0x1001, clockPid := 0x901 }
    [tab 0 0 0 (.pat { tsId := 0x1234, pmts := ⟨[(1, 0x101), (2, 0x102)], by decide⟩ }),
     tab 1 0x101 0 (.pmt { serviceId := 1, pcrPid := 0x901, streams := ⟨[(0x301, video), (0x302, audio)], by decide⟩ }),
     tab 2 0x12 0 (.eit { serviceId := 1, tsId := 0x1234, onetwId := 1, events := [{ eventId := 0x1001, startTime := 0, duration := 3600 }, { eventId := 0x1002, startTime := 3600000, duration := 3600 }] }),
     pcr 0x901 0 0,
     pes 0x301 0,
     pes 0x302 0,
     pes 0 1,
     pes 0x101 1,
     pcr 0x901 1 27000000,
     pes 0x301 1,
     pes 0x302 1]
    [{ pid := 0, cc := some 0 },
     { pid := 0x101, cc := some 0 },
     { pid := 0x901, cc := some 0, pcr := some 0 },
     { pid := 0x301, cc := some 0 },
     { pid := 0x302, cc := some 0 },
     { pid := 0, cc := some 1 },
     { pid := 0x101, cc := some 1 },
     { pid := 0x901, cc := some 1, pcr := some 27000000 },
     { pid := 0x301, cc := some 1 },
     { pid := 0x302, cc := some 1 }] exitSuccess 0 = true := by decide +kernel

/-- EndStreaming, program_filter_test.cc:262-395. -/
example : passes { sid := 1, eid := 0x1001, clockPid := 0x901 }
    [tab 0 0 0 (.pat { tsId := 0x1234, pmts := ⟨[(1, 0x101), (2, 0x102)], by decide⟩ }),
     tab 1 0x101 0 (.pmt { serviceId := 1, pcrPid := 0x901, streams := ⟨[(0x301, video), (0x302, audio)], by decide⟩ }),
     tab 2 0x12 0 (.eit { serviceId := 1, tsId := 0x1234, onetwId := 1, events := [{ eventId := 0x1001, startTime := 0, duration := 3600 }, { eventId := 0x1002, startTime := 3600000, duration := 3600 }] }),
     pcr 0x901 0 0,
     pes 0x301 0,
     pes 0x302 0,
     pes 0 1,
     pes 0x101 1,
     pcr 0x901 1 27000000,
     pes 0x301 1,
     pes 0x302 1,
     pcr 0x901 2 97199999999,
     pes 0x301 2,
     pes 0x302 2,
     pcr 0x901 3 97200000000,
     pes 0x301 3,
     pes 0x302 3]
    [{ pid := 0, cc := some 0 },
     { pid := 0x101, cc := some 0 },
     { pid := 0x901, cc := some 0 },
     { pid := 0x301, cc := some 0 },
     { pid := 0x302, cc := some 0 },
     { pid := 0, cc := some 1 },
     { pid := 0x101, cc := some 1 },
     { pid := 0x901, cc := some 1 },
     { pid := 0x301, cc := some 1 },
     { pid := 0x302, cc := some 1 },
     { pid := 0x901, cc := some 2 },
     { pid := 0x301, cc := some 2 },
     { pid := 0x302, cc := some 2 }] exitSuccess 2 = true := by decide +kernel

/-- UpdatePcrRange, program_filter_test.cc:397-582. -/
example : passes { sid := 1, eid := 0x1001, clockPid := 0x901 }
    [tab 0 0 0 (.pat { tsId := 0x1234, pmts := ⟨[(1, 0x101), (2, 0x102)], by decide⟩ }),
     tab 1 0x101 0 (.pmt { serviceId := 1, pcrPid := 0x901, streams := ⟨[(0x301, video), (0x302, audio)], by decide⟩ }),
     tab 2 0x12 0 (.eit { serviceId := 1, tsId := 0x1234, onetwId := 1, events := [{ eventId := 0x1001, startTime := 0, duration := 3600 }, { eventId := 0x1002, startTime := 3600000, duration := 3600 }] }),
     pcr 0x901 0 0,
     pes 0x301 0,
     pes 0x302 0,
     pes 0 1,
     pes 0x101 1,
     pcr 0x901 1 27000000,
     pes 0x301 1,
     pes 0x302 1,
     pcr 0x901 2 97199999999,
     pes 0x301 2,
     pes 0x302 2,
     tab 14 0x12 2 (.eit { serviceId := 1, tsId := 0x1234, onetwId := 1, events := [{ eventId := 0x1001, startTime := 0, duration := 7200 }, { eventId := 0x1002, startTime := 7200000, duration := 3600 }] }),
     pcr 0x901 3 97200000000,
     pes 0x301 3,
     pes 0x302 3,
     pcr 0x901 4 194399999999,
     pes 0x301 4,
     pes 0x302 4,
     pcr 0x901 5 194400000000,
     pes 0x301 5,
     pes 0x302 5]
    [{ pid := 0, cc := some 0 },
     { pid := 0x101, cc := some 0 },
     { pid := 0x901, cc := some 0 },
     { pid := 0x301, cc := some 0 },
     { pid := 0x302, cc := some 0 },
     { pid := 0, cc := some 1 },
     { pid := 0x101, cc := some 1 },
     { pid := 0x901, cc := some 1 },
     { pid := 0x301, cc := some 1 },
     { pid := 0x302, cc := some 1 },
     { pid := 0x901, cc := some 2 },
     { pid := 0x301, cc := some 2 },
     { pid := 0x302, cc := some 2 },
     { pid := 0x12, cc := some 2 },
     { pid := 0x901, cc := some 3 },
     { pid := 0x301, cc := some 3 },
     { pid := 0x302, cc := some 3 },
     { pid := 0x901, cc := some 4 },
     { pid := 0x301, cc := some 4 },
     { pid := 0x302, cc := some 4 }] exitSuccess 2 = true := by decide +kernel

/-- NoEventInEit, program_filter_test.cc:584-623. -/
example : passes { sid := 1, eid := 0x1001, clockPid := 0x901 }
    [tab 0 0 0 (.pat { tsId := 0x1234, pmts := ⟨[(1, 0x101), (2, 0x102)], by decide⟩ }),
     tab 1 0x101 0 (.pmt { serviceId := 1, pcrPid := 0x901, streams := ⟨[(0x301, video), (0x302, audio)], by decide⟩ }),
     tab 2 0x12 0 (.eit { serviceId := 1, tsId := 0x1234, onetwId := 1, events := [] })]
    [] exitRetry 0 = true := by decide +kernel

/-- NoFollowingEventInEit, program_filter_test.cc:625-666. -/
example : passes { sid := 1, eid := 0x1001, clockPid := 0x901 }
    [tab 0 0 0 (.pat { tsId := 0x1234, pmts := ⟨[(1, 0x101), (2, 0x102)], by decide⟩ }),
     tab 1 0x101 0 (.pmt { serviceId := 1, pcrPid := 0x901, streams := ⟨[(0x301, video), (0x302, audio)], by decide⟩ }),
     tab 2 0x12 0 (.eit { serviceId := 1, tsId := 0x1234, onetwId := 1, events := [{ eventId := 0x1000, startTime := 0, duration := 1 }] })]
    [] exitRetry 0 = true := by decide +kernel

/-- StartPcrUnderflow, program_filter_test.cc:668-756. -/
example : passes { sid := 1, eid := 0x1001, clockPid := 0x901, clockTime := 3 * 3600000 }
    [tab 0 0 0 (.pat { tsId := 0x1234, pmts := ⟨[(1, 0x101)], by decide⟩ }),
     tab 1 0x101 0 (.pmt { serviceId := 1, pcrPid := 0x901, streams := ⟨[(0x301, video)], by decide⟩ }),
     tab 2 0x12 0 (.eit { serviceId := 1, tsId := 0x1234, onetwId := 1, events := [{ eventId := 0x1001, startTime := 3600000, duration := 3600 }, { eventId := 0x1002, startTime := 7200000, duration := 3600 }] }),
     pcr 0x901 0 2382580377600,
     pes 0 1,
     pes 0x101 1,
     pes 0x301 0]
    [{ pid := 0, cc := some 0 },
     { pid := 0x101, cc := some 0 },
     { pid := 0x901, cc := some 0 },
     { pid := 0, cc := some 1 },
     { pid := 0x101, cc := some 1 },
     { pid := 0x301, cc := some 0 }] exitSuccess 0 = true := by decide +kernel

/-- EndPcrOverflow, program_filter_test.cc:758-844. -/
example : passes { sid := 1, eid := 0x1001, clockPid := 0x901, clockTime := 2 * 3600000 }
    [tab 0 0 0 (.pat { tsId := 0x1234, pmts := ⟨[(1, 0x101)], by decide⟩ }),
     tab 1 0x101 0 (.pmt { serviceId := 1, pcrPid := 0x901, streams := ⟨[(0x301, video)], by decide⟩ }),
     tab 2 0x12 0 (.eit { serviceId := 1, tsId := 0x1234, onetwId := 1, events := [{ eventId := 0x1001, startTime := 3600000, duration := 3600 }, { eventId := 0x1002, startTime := 7200000, duration := 3600 }] }),
     pcr 0x901 0 2479780377600,
     pes 0 1,
     pes 0x101 1,
     pes 0x301 0]
    [{ pid := 0, cc := some 0 },
     { pid := 0x101, cc := some 0 },
     { pid := 0x901, cc := some 0 },
     { pid := 0, cc := some 1 },
     { pid := 0x101, cc := some 1 },
     { pid := 0x301, cc := some 0 }] exitSuccess 0 = true := by decide +kernel

/-- PreStreaming, program_filter_test.cc:846-917. -/
example : passes { sid := 1, eid := 0x1001, clockPid := 0x901, preStreaming := true }
    [tab 0 0 0 (.pat { tsId := 0x1234, pmts := ⟨[(1, 0x101), (2, 0x102)], by decide⟩ }),
     tab 1 0x101 0 (.pmt { serviceId := 1, pcrPid := 0x901, streams := ⟨[(0x301, video), (0x302, audio)], by decide⟩ }),
     tab 2 0x12 0 (.eit { serviceId := 1, tsId := 0x1234, onetwId := 1, events := [{ eventId := 0x1001, startTime := 0, duration := 3600 }, { eventId := 0x1002, startTime := 3600000, duration := 3600 }] }),
     pcr 0x901 0 0,
     pes 0 1]
    [{ pid := 0, cc := some 0 },
     { pid := 0x101, cc := some 0 },
     { pid := 0x901, cc := some 0 },
     { pid := 0, cc := some 1 }] exitSuccess 0 = true := by decide +kernel

/-- AbnormalPcrPackets, program_filter_test.cc:919-1036. -/
example : passes { sid := 1, eid := 0x1001, clockPid := 0x901 }
    [tab 0 0 0 (.pat { tsId := 0x1234, pmts := ⟨[(1, 0x101), (2, 0x102)], by decide⟩ }),
     tab 1 0x101 0 (.pmt { serviceId := 1, pcrPid := 0x901, streams := ⟨[(0x301, video), (0x302, audio)], by decide⟩ }),
     tab 2 0x12 0 (.eit { serviceId := 1, tsId := 0x1234, onetwId := 1, events := [{ eventId := 0x1000, startTime := 0, duration := 1 }, { eventId := 0x1001, startTime := 1000, duration := 3600 }] }),
     pcr 0x901 0 0,
     pes 0x301 0,
     pes 0x302 0,
     pes 0x901 1,
     badPcr 0x901 2,
     pcr 0x901 3 27000000,
     pes 0x301 1,
     pes 0x302 1,
     pes 0 1,
     pes 0x101 1,
     pes 0x901 4,
     pes 0x301 2,
     pes 0x302 2]
    [{ pid := 0, cc := some 0 },
     { pid := 0x101, cc := some 0 },
     { pid := 0x901, cc := some 3, pcr := some 27000000 },
     { pid := 0x301, cc := some 1 },
     { pid := 0x302, cc := some 1 },
     { pid := 0, cc := some 1 },
     { pid := 0x101, cc := some 1 },
     { pid := 0x901, cc := some 4 },
     { pid := 0x301, cc := some 2 },
     { pid := 0x302, cc := some 2 }] exitSuccess 0 = true := by decide +kernel

/-- PmtSidUnmatched, program_filter_test.cc:1038-1117. -/
example : passes { sid := 1, eid := 0x1001, clockPid := 0x901 }
    [tab 0 0 0 (.pat { tsId := 0x1234, pmts := ⟨[(1, 0x101), (2, 0x102)], by decide⟩ }),
     tab 1 0x101 0 (.pmt { serviceId := 1, pcrPid := 0x901, streams := ⟨[(0x301, video), (0x302, audio)], by decide⟩ }),
     tab 2 0x12 0 (.eit { serviceId := 1, tsId := 0x1234, onetwId := 1, events := [{ eventId := 0x1001, startTime := 0, duration := 3600 }, { eventId := 0x1002, startTime := 1000, duration := 3600 }] }),
     pcr 0x901 0 0,
     tab 4 0x101 1 (.pmt { serviceId := 0, pcrPid := 0xABC, streams := ⟨[], by decide⟩ }),
     pes 0x301 0,
     pes 0x302 0]
    [{ pid := 0, cc := some 0 },
     { pid := 0x101, cc := some 0 },
     { pid := 0x901, cc := some 0, pcr := some 0 },
     { pid := 0x101, cc := some 1 },
     { pid := 0x301, cc := some 0 },
     { pid := 0x302, cc := some 0 }] exitSuccess 0 = true := by decide +kernel

/-- EitSidUnmatched, program_filter_test.cc:1119-1200. -/
example : passes { sid := 1, eid := 0x1001, clockPid := 0x901 }
    [tab 0 0 0 (.pat { tsId := 0x1234, pmts := ⟨[(1, 0x101), (2, 0x102)], by decide⟩ }),
     tab 1 0x101 0 (.pmt { serviceId := 1, pcrPid := 0x901, streams := ⟨[(0x301, video), (0x302, audio)], by decide⟩ }),
     tab 2 0x12 0 (.eit { serviceId := 1, tsId := 0x1234, onetwId := 1, events := [{ eventId := 0x1001, startTime := 0, duration := 3600 }, { eventId := 0x1002, startTime := 1000, duration := 3600 }] }),
     pcr 0x901 0 0,
     tab 4 0x12 1 (.eit { serviceId := 0, tsId := 0x1234, onetwId := 1, events := [] }),
     pes 0x301 0,
     pes 0x302 0]
    [{ pid := 0, cc := some 0 },
     { pid := 0x101, cc := some 0 },
     { pid := 0x901, cc := some 0, pcr := some 0 },
     { pid := 0x12, cc := some 1 },
     { pid := 0x301, cc := some 0 },
     { pid := 0x302, cc := some 0 }] exitSuccess 0 = true := by decide +kernel

/-- ResyncClockBeforeStreaming, program_filter_test.cc:1202-1311. -/
example : passes { sid := 1, eid := 0x1001, clockPid := 0x901 }
    [tab 0 0 0 (.pat { tsId := 0x1234, pmts := ⟨[(1, 0x101), (2, 0x102)], by decide⟩ }),
     tab 1 0x101 0 (.pmt { serviceId := 1, pcrPid := 0x902, streams := ⟨[(0x301, video), (0x302, audio)], by decide⟩ }),
     tab 2 0x12 0 (.eit { serviceId := 1, tsId := 0x1234, onetwId := 1, events := [{ eventId := 0x1000, startTime := 0, duration := 1 }, { eventId := 0x1001, startTime := 1000, duration := 3600 }] }),
     pcr 0x902 0 100000000000,
     tab 4 0x14 0 (.tot 0),
     pes 0x301 0,
     pes 0x302 0,
     tab 7 0x14 1 (.tot 3600000),
     pcr 0x902 1 100027000000,
     pes 0x301 1,
     pes 0x302 1,
     pes 0 1,
     pes 0x101 1,
     pes 0x301 2,
     pes 0x302 2]
    [{ pid := 0, cc := some 0 },
     { pid := 0x101, cc := some 0 },
     { pid := 0x902, cc := some 1 },
     { pid := 0x301, cc := some 1 },
     { pid := 0x302, cc := some 1 },
     { pid := 0, cc := some 1 },
     { pid := 0x101, cc := some 1 },
     { pid := 0x301, cc := some 2 },
     { pid := 0x302, cc := some 2 }] exitSuccess 0 = true := by decide +kernel

/-- ResyncClockWhileStreaming, program_filter_test.cc:1313-1451. -/
example : passes { sid := 1, eid := 0x1001, clockPid := 0x901 }
    [tab 0 0 0 (.pat { tsId := 0x1234, pmts := ⟨[(1, 0x101), (2, 0x102)], by decide⟩ }),
     tab 1 0x101 0 (.pmt { serviceId := 1, pcrPid := 0x901, streams := ⟨[(0x301, video), (0x302, audio)], by decide⟩ }),
     tab 2 0x12 0 (.eit { serviceId := 1, tsId := 0x1234, onetwId := 1, events := [{ eventId := 0x1001, startTime := 0, duration := 3600 }, { eventId := 0x1002, startTime := 3600000, duration := 3600 }] }),
     pcr 0x901 0 0,
     pes 0x301 0,
     pes 0x302 0,
     tab 6 0 1 (.pat { tsId := 0x1234, pmts := ⟨[(1, 0x101), (2, 0x102)], by decide⟩ }),
     tab 7 0x101 1 (.pmt { serviceId := 1, pcrPid := 0x902, streams := ⟨[(0x301, video), (0x302, audio)], by decide⟩ }),
     pcr 0x902 0 100027000000,
     pes 0x301 1,
     pes 0x302 1,
     pcr 0x902 1 197200000000,
     pes 0x301 2,
     pes 0x302 2,
     tab 14 0x14 0 (.tot 3600000),
     pcr 0x902 2 197200000001,
     pes 0x301 3,
     pes 0x302 3]
    [{ pid := 0, cc := some 0 },
     { pid := 0x101, cc := some 0 },
     { pid := 0x901, cc := some 0 },
     { pid := 0x301, cc := some 0 },
     { pid := 0x302, cc := some 0 },
     { pid := 0, cc := some 1 },
     { pid := 0x101, cc := some 1 },
     { pid := 0x902, cc := some 0 },
     { pid := 0x301, cc := some 1 },
     { pid := 0x302, cc := some 1 },
     { pid := 0x902, cc := some 1 },
     { pid := 0x301, cc := some 2 },
     { pid := 0x302, cc := some 2 },
     { pid := 0x14, cc := some 0 }] exitSuccess 2 = true := by decide +kernel

/-- PesBlackList, program_filter_test.cc:1453-1564. -/
example : passes { sid := 1, eid := 0x1001, clockPid := 0x901, videoTags := [0], audioTags := [1] }
    [tab 0 0 0 (.pat { tsId := 0x1234, pmts := ⟨[(1, 0x101)], by decide⟩ }),
     tab 1 0x101 0 (.pmt { serviceId := 1, pcrPid := 0x901, streams := ⟨[(0x301, (video (some 0))), (0x302, (audio (some 0x10)))], by decide⟩ }),
     tab 2 0x12 0 (.eit { serviceId := 1, tsId := 0x1234, onetwId := 1, events := [{ eventId := 0x1000, startTime := 0, duration := 1 }, { eventId := 0x1001, startTime := 1000, duration := 3600 }] }),
     pcr 0x901 0 0,
     pes 0x301 0,
     pes 0x302 0,
     pcr 0x901 1 27000000,
     pes 0x301 1,
     pes 0x302 1,
     pes 0 1,
     pes 0x101 1,
     pes 0x301 2,
     pes 0x302 2]
    [{ pid := 0, cc := some 0 },
     { pid := 0x101, cc := some 0 },
     { pid := 0x901, cc := some 1, pcr := some 27000000 },
     { pid := 0x301, cc := some 1 },
     { pid := 0, cc := some 1 },
     { pid := 0x101, cc := some 1 },
     { pid := 0x301, cc := some 2 }] exitSuccess 0 = true := by decide +kernel

/-- WaitUntilTimedout, program_filter_test.cc:1566-1594. -/
example : passes { sid := 1, eid := 0x1001, clockPid := 0x901, waitUntil := some 1000 }
    [tab 0 0x14 0 (.tot 0),
     tab 1 0x14 1 (.tot 1000),
     tab 2 0x14 2 (.tot 2000),
     tab 3 0x14 3 (.tot 3000)]
    [] exitRetry 1 = true := by decide +kernel

/-- ReachTimeLimitWhileStreaming, program_filter_test.cc:1596-1737. -/
example : passes { sid := 1, eid := 0x1001, clockPid := 0x901, waitUntil := some 0 }
    [tab 0 0 0 (.pat { tsId := 0x1234, pmts := ⟨[(1, 0x101), (2, 0x102)], by decide⟩ }),
     tab 1 0x101 0 (.pmt { serviceId := 1, pcrPid := 0x901, streams := ⟨[(0x301, video), (0x302, audio)], by decide⟩ }),
     tab 2 0x12 0 (.eit { serviceId := 1, tsId := 0x1234, onetwId := 1, events := [{ eventId := 0x1001, startTime := 0, duration := 3600 }, { eventId := 0x1002, startTime := 3600000, duration := 3600 }] }),
     pcr 0x901 0 0,
     pes 0x301 0,
     pes 0x302 0,
     pes 0 1,
     pes 0x101 1,
     pcr 0x901 1 27000000,
     tab 9 0x14 0 (.tot 1000),
     pes 0x301 1,
     pes 0x302 1,
     pcr 0x901 2 97199999999,
     pes 0x301 2,
     pes 0x302 2,
     pcr 0x901 3 97200000000,
     pes 0x301 3,
     pes 0x302 3]
    [{ pid := 0, cc := some 0 },
     { pid := 0x101, cc := some 0 },
     { pid := 0x901, cc := some 0 },
     { pid := 0x301, cc := some 0 },
     { pid := 0x302, cc := some 0 },
     { pid := 0, cc := some 1 },
     { pid := 0x101, cc := some 1 },
     { pid := 0x901, cc := some 1 },
     { pid := 0x14, cc := some 0 },
     { pid := 0x301, cc := some 1 },
     { pid := 0x302, cc := some 1 },
     { pid := 0x901, cc := some 2 },
     { pid := 0x301, cc := some 2 },
     { pid := 0x302, cc := some 2 }] exitSuccess 2 = true := by decide +kernel

end Mirakc.Tests.ProgramFilter
