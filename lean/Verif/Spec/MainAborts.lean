import Verif.Spec.Main
import Verif.Spec.Aborts
import Verif.Spec.EitAborts
import Verif.Spec.PcrSyncAborts
import Verif.Spec.PesAborts
import Verif.Spec.ProgramAborts
import Verif.Spec.RecordAborts
import Verif.Spec.SeekAborts
import Verif.Model.PesPrinter
/-
Specification vocabulary: with which arguments and which input the process terminates abnormally.
-/
namespace Mirakc.Spec.Main
open Mirakc.Main Mirakc.Spec.Pipeline

/-- The packet number `n` with the tables it completes. -/
def arrival (w : World) (n : Nat) (b : List UInt8) : Input := ⟨w.codec.packet b, w.tables n⟩

/-- The packet number `n` with the sections it completes. -/
def arrivalSections (w : World) (n : Nat) (b : List UInt8) : SectionInput := ⟨w.codec.packet b, w.sections n⟩

/-- The number given for an id, as the program takes it: 16 bits of it. -/
def idOf (v : Int) : Nat := (v % 65536).toNat

/-- Standard output takes the packets: no write fails as long as packets are handed to it. -/
def Taken (w : World) (bs : List (List UInt8)) : Prop :=
  ∃ d, Accepts StdoutSink.sink (StdoutSink.init w.write) bs d

/-- With these packets, the service filter did what the history says, and asks for more. -/
def Served (w : World) (sid : Nat) (ps : List (List UInt8)) (items : List ServiceFilter.Item) : Prop :=
  ∃ s, ServiceFilter.run { sid := sid } (ServiceFilter.init { sid := sid }) (seen (arrival w) 0 ps) = .ok (s, items) ∧
    ∀ it ∈ items, it.act ≠ .stop

/-- The service filter terminates abnormally at the packet number `n`. -/
def Unservable (w : World) (sid : Nat) (items : List ServiceFilter.Item) (n : Nat) (b : List UInt8) : Prop :=
  Spec.ServiceFilter.Aborts sid none (Spec.ServiceFilter.received items) (arrival w n b)

/-- The packets before `b` went through the service filter, whose history is `items`; at `b` it
terminates abnormally, or it passes on a packet `x` after `xs`, and this is bad for what follows. -/
def Chain (w : World) (sid : Nat) (ps : List (List UInt8))
    (Fine : List ServiceFilter.Out → Prop) (Bad : List ServiceFilter.Out → ServiceFilter.Out → Prop) : Prop :=
  ∃ pre b post items, ps = pre ++ b :: post ∧ Served w sid pre items ∧ Fine (Spec.ServiceFilter.sent items) ∧
    (Unservable w sid items pre.length b ∨
     ∃ items' x, Served w sid (pre ++ [b]) items' ∧
      Spec.ServiceFilter.sent items' = Spec.ServiceFilter.sent items ++ [x] ∧ Bad (Spec.ServiceFilter.sent items) x)

/-- With these packets from the service filter, the program filter did what the history says, asks
for more, and standard output took what was written. -/
def Filtered (w : World) (o : ProgramFilter.Opt) (xs : List ServiceFilter.Out) (items : List ProgramFilter.Item) : Prop :=
  (∃ s, ProgramFilter.run w.extra o (ProgramFilter.init o) (seen (forwarded w.codec w.tables2) 0 xs) = .ok (s, items)) ∧
    (∀ it ∈ items, it.more = true) ∧ Taken w ((Spec.ProgramFilter.sent items).map (eventBytes w.codec))

/-- With these packets from the service filter, the recorder did what the history says, and goes on. -/
def Recording (w : World) (o : ServiceRecorder.Opt) (xs : List ServiceFilter.Out) (h : ServiceRecorder.Hist) : Prop :=
  ∃ code, Spec.ServiceRecorder.Recorded o w.file (seen (stored w.codec w.tables2 w.times) 0 xs) code h ∧
    Spec.ServiceRecorder.GoesOn h

/-- The process, given these arguments and these packets, terminates abnormally. -/
def Abnormal (w : World) (ps : List (List UInt8)) : Cmd → Prop
  | .scanServices .. => False
  | .syncClocks a b => ∃ x y, sidSet a = .ok x ∧ sidSet b = .ok y ∧
    StopsAt (PcrSynchronizer.sink { sids := x, xsids := y }) {}
      (fun items i => Spec.PcrSynchronizer.Unsyncable { sids := x, xsids := y } (Spec.PcrSynchronizer.log items) i)
      (seen (arrival w) 0 ps)
  | .collectEits a b timeLimit streaming onlyActual onlyOthers => ∃ o, loadEits a b timeLimit streaming onlyActual onlyOthers = .ok o ∧
    ((onlyActual = true ∧ onlyOthers = true) ∨
     StopsAt (EitCollector.sink o) {} (fun items i => Unwritable (Spec.EitCollector.Due o)
        ((Spec.EitCollector.calls items).filterMap (·.out)) (delivered [0x12, 0x14] i)) (seen (arrivalSections w) 0 ps))
  | .collectEitpf a streaming present following => ∃ o, loadEitpf a streaming present following = .ok o ∧
    StopsAt (EitpfCollector.sink o) {} (fun items i => Spec.EitpfCollector.Uncollectable o
      (Spec.EitpfCollector.written (Spec.EitCollector.calls items)) i) (seen (arrivalSections w) 0 ps)
  | .collectLogos => False
  | .filterService sid => Chain w (idOf (sid.getD 0)) ps (fun xs => Taken w (xs.map (serviceBytes w.codec))) (fun _ _ => False)
  | .filterProgram a => ∃ o, Options.loadProgramFilter a = .ok o ∧
    ∃ items, Chain w (idOf a.sid) ps (fun xs => Filtered w o xs items)
      (fun xs x => Spec.ProgramFilter.FailsAtOnce o items (forwarded w.codec w.tables2 xs.length x) ∨
        ∃ pats, Spec.ProgramFilter.FailsAtStart o items (forwarded w.codec w.tables2 xs.length x) pats ∧
          Taken w ((Spec.ProgramFilter.sent items ++ pats).map (eventBytes w.codec)))
  | .filterProgramMetadata _ => False
  | .recordService sid chunk num start => ∃ o, Options.loadRecorder sid chunk num start = .ok o ∧
    ∃ h, Chain w (idOf sid) ps (fun xs => Recording w o xs h)
      (fun xs x => Spec.ServiceRecorder.Unrecordable o.sid h.items (stored w.codec w.tables2 w.times xs.length x))
  | .trackAirtime .. => False
  | .seekStart sid dur pkts => ∃ o, Options.loadSeeker sid dur pkts = .ok o ∧
    ∃ pre b post s items d, ps = pre ++ b :: post ∧
      StartSeeker.run o StartSeeker.init (seen (arrival w) 0 pre) = .ok (s, items) ∧
      Accepts (Mirakc.Pipeline.seekStart w.codec w.tables o) (0, StartSeeker.init, 0, StdoutSink.init w.write) pre d ∧
      Spec.StartSeeker.Unseekable o items (arrival w pre.length b)
  | .printPes => StopsAt PesPrinter.sink {}
      (fun items i => Spec.PesPrinter.Unprintable (Spec.PesPrinter.log items) i.packet) (seen (arrival w) 0 ps)

/-- The sizes given are numbers of 64 bits. -/
def Representable : Cmd → Prop
  | .recordService _ chunk num _ => (-2 ^ 63 ≤ chunk ∧ chunk < 2 ^ 63) ∧ (-2 ^ 63 ≤ num ∧ num < 2 ^ 63)
  | _ => True

end Mirakc.Spec.Main
