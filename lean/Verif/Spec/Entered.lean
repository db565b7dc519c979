import Verif.Spec.ProgramFilter
import Verif.Spec.Received
import Verif.Spec.EventsJson
import Verif.Spec.Main
/-
Specification vocabulary for C150: filter-program started later, before the programme.
-/
namespace Mirakc.Spec.Entered
open Mirakc.Spec.ServiceFilter (usablePat validPmt)
open Mirakc.Spec.ProgramFilter
open Mirakc.Spec.EventsJson (Pairwise₂)
open Mirakc.ProgramFilter (Opt Out Item)

/-- A broadcast that does not change: all PATs say that the PMT of the service is on the PID `P`, all PMTs of the
service are `m` and come on that PID, with the PCRs on the PID given with the clock; the event is `ev` in all EITs that
list it, and nothing cancels the recording. -/
structure Steady (o : Opt) (P : Nat) (m : Pmt) (ev : Event) (T : Table → Prop) : Prop where
  pid : P ≠ 0x00 ∧ P ≠ 0x12 ∧ P ≠ 0x14 ∧ P ≠ 0x1FFF
  pat : ∀ t p, T t → usablePat t = some p → ∀ q, (o.sid, q) ∈ p.pmts.entries → q = P
  pmt : ∀ t p, T t → validPmt o.sid t = some p → p = m ∧ t.sourcePid = P
  clock : m.pcrPid = o.clockPid
  eit : ∀ t es e, T t → serviceEit o.sid t = some es → listedIn o.eid es = some e → e = ev
  calm : ∀ t, T t → ¬ Cancels o False t

/-- The stream has brought what there is to know about the programme: a PAT, after it a PMT of the service, and an EIT
that lists the event. -/
def Known (o : Opt) (ts : List Table) : Prop :=
  (∃ a b, ts = a ++ b ∧ (∃ t ∈ a, usablePat t ≠ none) ∧ ∃ u ∈ b, validPmt o.sid u ≠ none) ∧
  ∃ v ∈ ts, v.sourcePid = 0x12 ∧ ∃ es, serviceEit o.sid v = some es ∧ listedIn o.eid es ≠ none

/-- The packets are the same, except that packets of the PAT may be counted differently. -/
def Alike (p q : Packet) : Prop :=
  q.pid = p.pid ∧ q.pusi = p.pusi ∧ q.pcr = p.pcr ∧ (p.pid ≠ 0 → q = p)

/-- The same for what is passed on. -/
def AlikeOut : Out → Out → Prop
  | .orig p, .orig q => Alike p q
  | x, y => y = x

/-- The same is made of both packets. -/
def AlikeItem (x y : Item) : Prop :=
  Alike x.packet y.packet ∧ y.more = x.more ∧ Pairwise₂ AlikeOut x.outs y.outs

/-- The programme has not begun and the filter has not ended: nothing but packets of the PAT has been passed on. -/
def Waiting (items : List Item) : Prop :=
  ∀ it ∈ items, it.more = true ∧ ∀ x ∈ it.outs, ∃ p, x = .orig p ∧ p.pid = 0

/-- At the PCR `q` neither the beginning nor the end of the programme, as the clock given with the options tells them,
is reached. -/
def Early (o : Opt) (ev : Event) (q : Int) : Prop :=
  0 ≤ q ∧ q < 2 ^ 33 * 300 ∧
  ¬ ReachedNoWrap q ((o.clockPcr + 27000 * (ev.startTime - o.startMargin - o.clockTime)) % (2 ^ 33 * 300)) ∧
  ¬ ReachedNoWrap q
    ((o.clockPcr + 27000 * (ev.startTime + 1000 * ev.duration + o.endMargin - o.clockTime)) % (2 ^ 33 * 300))

/-- filter-program has read the packets `l`: behind the service filter it has received what there is to know about the
programme, which has not begun, and it has not ended. -/
def Ahead (w : Mirakc.Main.World) (o : Opt) (l : List (List UInt8)) : Prop :=
  ∀ f items, ServiceFilter.run { sid := o.sid } (ServiceFilter.init { sid := o.sid })
      (Pipeline.seen (Pipeline.arrived w.codec w.tables) 0 l) = .ok (f, items) →
    Known o (received (Pipeline.seen (Pipeline.forwarded w.codec w.tables2) 0 (ServiceFilter.sent items))) ∧
    ∀ g items2, ProgramFilter.run w.extra o (ProgramFilter.init o)
        (Pipeline.seen (Pipeline.forwarded w.codec w.tables2) 0 (ServiceFilter.sent items)) = .ok (g, items2) →
      Waiting items2

/-- The table is found behind the service filter when it reads the packets `l`. -/
def Found (w : Mirakc.Main.World) (sid : Nat) (l : List (List UInt8)) (t : Table) : Prop :=
  ∃ f items n x, ServiceFilter.run { sid := sid } (ServiceFilter.init { sid := sid })
      (Pipeline.seen (Pipeline.arrived w.codec w.tables) 0 l) = .ok (f, items) ∧
    x ∈ ServiceFilter.sent items ∧ t ∈ w.tables2 n x

/-- The same bytes, or packets of the same PAT. -/
def SameOrPat (c : Mirakc.Pipeline.Codec) (b b' : List UInt8) : Prop :=
  b' = b ∨ ∃ t i j, b = c.patBytes t i ∧ b' = c.patBytes t j

end Mirakc.Spec.Entered
