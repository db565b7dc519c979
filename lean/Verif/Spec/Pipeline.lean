import Verif.Model.Pipeline
import Verif.Spec.Framing
import Verif.Spec.PacketLoop
import Verif.Spec.ServiceFilter
import Verif.Spec.ProgramFilter
import Verif.Spec.ServiceRecorder
import Verif.Spec.StartSeeker
/-
Specification vocabulary for connected commands.
-/
namespace Mirakc.Spec.Pipeline
open Mirakc.Pipeline (Codec)
open Mirakc.Spec.ServiceFilter (usablePat)

/-- What TSDuck guarantees about packets: 188 bytes are kept as they are; generated
packets have 188 bytes; a generated PAT packet is on PID 0 and has no PCR. -/
structure Faithful (c : Codec) : Prop where
  keep : ∀ b : List UInt8, b.length = 188 → c.bytes (c.packet b) = b
  pat : ∀ t n, (c.patBytes t n).length = 188
  pmt : ∀ pid t i n, (c.pmtBytes pid t i n).length = 188
  patPid : ∀ t n, (c.packet (c.patBytes t n)).pid = 0
  patPcr : ∀ t n, (c.packet (c.patBytes t n)).pcr = none

/-- The packet number `n` of the stream, with the tables it completes. -/
def arrived (c : Codec) (tabs : Nat → List Table) (n : Nat) (b : List UInt8) : Input := ⟨c.packet b, tabs n⟩

/-- The bytes of what the service filter passes on: a packet as it is, or a packet of a PAT. -/
def serviceBytes (c : Codec) : ServiceFilter.Out → List UInt8
  | .orig p => c.bytes p
  | .pat t n => c.patBytes t n

/-- Its fields. -/
def serviceFields (c : Codec) : ServiceFilter.Out → Packet
  | .orig p => p
  | .pat t n => c.packet (c.patBytes t n)

/-- The bytes of what the program filter passes on: a packet as it is, or a packet of a PMT. -/
def eventBytes (c : Codec) : ProgramFilter.Out → List UInt8
  | .orig p => c.bytes p
  | .pmt pid t i n => c.pmtBytes pid t i n

/-- What the program filter receives as packet number `n`. -/
def forwarded (c : Codec) (tabs : Nat → ServiceFilter.Out → List Table) (n : Nat) (x : ServiceFilter.Out) : Input :=
  ⟨serviceFields c x, tabs n x⟩

/-- What the recorder receives as packet number `n`; `times` are the local times it reads. -/
def stored (c : Codec) (tabs : Nat → ServiceFilter.Out → List Table) (times : Nat → Int × Int × Int) (n : Nat)
    (x : ServiceFilter.Out) : ServiceRecorder.Input where
  packet := serviceFields c x
  bytes := serviceBytes c x
  tables := tabs n x
  totLocal := (times n).1
  nowLocal := (times n).2.1
  chunkLocal := (times n).2.2

/-- What TSDuck guarantees about the tables found behind the service filter: a table is
completed by a packet of its PID, and a PAT found with a PAT packet is the table that the
packet was made of. -/
structure Demuxed (c : Codec) (tabs : Nat → ServiceFilter.Out → List Table) : Prop where
  source : ∀ n x, ∀ t ∈ tabs n x, t.sourcePid = (serviceFields c x).pid
  pat : ∀ n p k, ∀ t ∈ tabs n (.pat p k), ∀ pat, usablePat t = some pat → pat = p

/-- The packets number `n`, `n + 1`, … in another representation. -/
def seen {P Q : Type} (f : Nat → Q → P) : Nat → List Q → List P
  | _, [] => []
  | n, q :: qs => f n q :: seen f (n + 1) qs

/-- The sink accepts all packets but the last, which it refuses. -/
def Refuses {P σ : Type} (snk : Sink P σ) (s : σ) (ps : List P) (s' : σ) : Prop :=
  ∃ pre p s1, ps = pre ++ [p] ∧ Accepts snk s pre s1 ∧ snk.handle s1 p = .ok (false, s')

/-- The packets in a byte stream. -/
def Packets (bs : List UInt8) (ps : List (List UInt8)) : Prop :=
  ∃ offs, Frames bs 0 offs ∧ ps = offs.map (slice bs)

/-- The read results fit the buffer, `ps` are the packets of the stream, and the bound on
the number of iterations of the packet loop is not reached. -/
structure Reading (reads : List (List UInt8)) (ps : List (List UInt8)) (fuel : Nat) : Prop where
  fits : ∀ r ∈ reads, r.length ≤ 16384
  packets : Packets (streamOf reads) ps
  bound : (streamOf reads).length < fuel

/-- Some packets are dropped, packets on PID 0 are replaced by PAT packets. -/
inductive Selected (c : Codec) : List (List UInt8) → List (List UInt8) → Prop
  | nil : Selected c [] []
  | drop {b bs os} : Selected c bs os → Selected c (b :: bs) os
  | keep {b bs os} : (c.packet b).pid ≠ 0 → Selected c bs os → Selected c (b :: bs) (b :: os)
  | pat {b bs os t n} : (c.packet b).pid = 0 → Selected c bs os →
      Selected c (b :: bs) (c.patBytes t n :: os)

end Mirakc.Spec.Pipeline
