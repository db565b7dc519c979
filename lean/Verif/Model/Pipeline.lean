import Verif.Model.ServiceFilter
import Verif.Model.ProgramFilter
import Verif.Model.ServiceRecorder
import Verif.Model.StartSeeker
import Verif.Model.StdoutSink
/-
Model of the connected commands filter-service, filter-program, record-service and
seek-start: `MakePacketSink`, src/main.cc:1296-1390, and `main`, src/main.cc:1446-1448.
-/
namespace Mirakc.Pipeline

/-- The representation of packets by bytes, which is TSDuck's: the fields read from the
bytes of a packet, its bytes, and the bytes made by the packetizers for PAT and PMT
(`Out.pat`, `Out.pmt` of the filters). -/
structure Codec where
  packet : List UInt8 → Packet
  bytes : Packet → List UInt8
  patBytes : Pat → Nat → List UInt8
  pmtBytes : Nat → Pmt → Nat → Nat → List UInt8

/-- A sink that takes packets in another representation; the first component of the
state counts the packets.  No code corresponds to it: in C++ a `ts::TSPacket` is both
bytes and fields. -/
def via {P Q σ : Type} (f : Nat → Q → P) (snk : Sink P σ) : Sink Q (Nat × σ) where
  start s := do
    let (ok, d) ← snk.start s.2
    .ok (ok, s.1, d)
  handle s q := do
    let (ok, d) ← snk.handle s.2 (f s.1 q)
    .ok (ok, s.1 + 1, d)
  finish s := do
    let d ← snk.finish s.2
    .ok (s.1, d)
  exitCode s := snk.exitCode s.2

/-- The packet number `n` read from the input, with the tables it completes. -/
def input (c : Codec) (tabs : Nat → List Table) (n : Nat) (b : List UInt8) : Input :=
  { packet := c.packet b, tables := tabs n }

/-- The bytes of a packet passed on by the service filter. -/
def outBytes (c : Codec) : ServiceFilter.Out → List UInt8
  | .orig p => c.bytes p
  | .pat t n => c.patBytes t n

/-- The fields of a packet passed on by the service filter. -/
def outPacket (c : Codec) : ServiceFilter.Out → Packet
  | .orig p => p
  | .pat t n => c.packet (c.patBytes t n)

/-- The bytes of a packet passed on by the program filter. -/
def programBytes (c : Codec) : ProgramFilter.Out → List UInt8
  | .orig p => c.bytes p
  | .pmt pid t i n => c.pmtBytes pid t i n

/-- The packet number `n` passed on by the service filter as the next filter sees it,
with the tables it completes there. -/
def between (c : Codec) (tabs : Nat → ServiceFilter.Out → List Table) (n : Nat)
    (x : ServiceFilter.Out) : Input :=
  { packet := outPacket c x, tables := tabs n x }

/-- The same for the recorder, which also reads the local time. -/
def betweenRec (c : Codec) (tabs : Nat → ServiceFilter.Out → List Table)
    (times : Nat → Int × Int × Int) (n : Nat) (x : ServiceFilter.Out) : ServiceRecorder.Input :=
  { packet := outPacket c x, bytes := outBytes c x, tables := tabs n x
    totLocal := (times n).1, nowLocal := (times n).2.1, chunkLocal := (times n).2.2 }

/-- filter-service, src/main.cc:1332-1338 (`time_limit` is never set, src/main.cc:1150-1159). -/
def filterService (c : Codec) (tabs : Nat → List Table) (sid : Nat) :
    Sink (List UInt8) (Nat × ServiceFilter.St × Nat × StdoutSink.St) :=
  via (input c tabs) (ServiceFilter.sink { sid := sid } (via (fun _ => outBytes c) StdoutSink.sink))

/-- filter-program, src/main.cc:1339-1349; both filters get the same service id. -/
def filterProgram (c : Codec) (tabs : Nat → List Table) (tabs' : Nat → ServiceFilter.Out → List Table)
    (extra : Pmt → Nat) (o : ProgramFilter.Opt) :
    Sink (List UInt8) (Nat × ServiceFilter.St × Nat × ProgramFilter.St × Nat × StdoutSink.St) :=
  via (input c tabs) (ServiceFilter.sink { sid := o.sid }
    (via (between c tabs') (ProgramFilter.sink extra o (via (fun _ => programBytes c) StdoutSink.sink))))

/-- record-service, src/main.cc:1357-1371; both filters get the same service id. -/
def recordService (c : Codec) (tabs : Nat → List Table) (tabs' : Nat → ServiceFilter.Out → List Table)
    (times : Nat → Int × Int × Int) (o : ServiceRecorder.Opt) :
    Sink (List UInt8) (Nat × ServiceFilter.St × Nat × ServiceRecorder.Hist) :=
  via (input c tabs) (ServiceFilter.sink { sid := o.sid }
    (via (betweenRec c tabs' times) (ServiceRecorder.sink o)))

/-- seek-start, src/main.cc:1379-1385. -/
def seekStart (c : Codec) (tabs : Nat → List Table) (o : StartSeeker.Opt) :
    Sink (List UInt8) (Nat × StartSeeker.St × Nat × StdoutSink.St) :=
  via (input c tabs) (StartSeeker.sink o (via (fun _ => c.bytes) StdoutSink.sink))

/-- A command on the standard input: `src->Connect(MakePacketSink(args))` and
`return src->FeedPackets()`, src/main.cc:1446-1448.  `reads` are the results of the read
operations. -/
def exec {σ : Type} (snk : Sink (List UInt8) σ) (fuel : Nat) (reads : List (List UInt8)) (s : σ) :
    Except Fault (Nat × σ) :=
  feedPackets FileSource.source snk fuel (FileSource.init reads) s

end Mirakc.Pipeline
