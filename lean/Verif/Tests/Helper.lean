import Verif.Model.Table
/-
Helpers for the transcription of the unit tests: /repo/test/test_helper.hh.

`TableSource` makes one packet of each table of an XML document, with the continuity
counter `test-cc`.  Here the continuity counter is the `content` of the packet.
Packets with `test-pcr` have no payload, so they complete no table.  TSDuck hands over
a table again only if its version changed, or its PID was removed from the demultiplexer and
added again.
-/
namespace Mirakc.Tests

/-- A packet of a table. -/
def pk (pid cc : Nat) : Packet := { pid := pid, pusi := true, content := cc }

/-- A packet that completes a table; `n` is the position of the packet in the stream. -/
def tab (n pid cc : Nat) (b : Body) : Input :=
  { packet := pk pid cc, tables := [{ sourcePid := pid, body := b, firstPacket := n }] }

/-- A packet that completes no table: `generic_short_table` with table id 0xFF (stuffing), or a table in
the same version as before. -/
def pes (pid cc : Nat) : Input := { packet := pk pid cc }

/-- A packet with `test-pcr`. -/
def pcr (pid cc : Nat) (x : Int) : Input := { packet := { pk pid cc with pcr := some x } }

/-- A packet with the invalid PCR: `getPCR()` is `ts::INVALID_PCR`. -/
def badPcr (pid cc : Nat) : Input := pes pid cc

/-- Elementary streams with the stream types of the tests. -/
def video (tag : Option Nat := none) : Stream := { isVideo := true, tag := tag }
def audio (tag : Option Nat := none) : Stream := { isAudio := true, tag := tag }
def data (tag : Option Nat := none) : Stream := { tag := tag }

/-- `MockSink` that takes everything and returns `EXIT_SUCCESS`. -/
def mock (Q : Type) : Sink Q (List Q) where
  start s := .ok (true, s)
  handle s x := .ok (true, s ++ [x])
  finish := .ok
  exitCode _ := exitSuccess

/-- A source that delivers a list. -/
def source (P : Type) : Source P (List P) where
  next
    | [] => .ok (none, [])
    | p :: ps => .ok (some p, ps)

/-- `FeedPackets` on a list: exit code, final state, number of packets not asked for. -/
def outcome {P σ : Type} (snk : Sink P σ) (s : σ) (is : List P) : Except Fault (Nat × σ × Nat) := do
  let (_, s) ← snk.start s
  let (rest, s) ← feedLoop (source P) snk (is.length + 1) is s
  let s ← snk.finish s
  .ok (snk.exitCode s, s, rest.length)

/-- What a test expects of a packet: PID, continuity counter and PCR, as far as checked. -/
structure Expect where
  pid : Nat
  cc : Option Nat := none
  pcr : Option Int := none

/-- The packet with this PID, continuity counter and PCR is as expected. -/
def Expect.ok (e : Expect) (pid cc : Nat) (pcr : Option Int) : Bool :=
  e.pid == pid && (e.cc.isNone || e.cc == some cc) && (e.pcr.isNone || e.pcr == pcr)

/-- The lists have the same length and the elements match. -/
def all2 {α β : Type} (f : α → β → Bool) : List α → List β → Bool
  | [], [] => true
  | a :: as, b :: bs => f a b && all2 f as bs
  | _, _ => false

end Mirakc.Tests
