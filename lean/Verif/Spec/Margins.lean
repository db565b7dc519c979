import Verif.Spec.Pipeline
import Verif.Spec.Main
/-
Specification vocabulary for the margins of filter-program (C142, C143).
-/
namespace Mirakc.Spec.Margins
open Mirakc.ProgramFilter (Opt Out)
open Mirakc.Main (World)
open Mirakc.Pipeline (Codec)
open Mirakc.Spec.ServiceFilter (validPmt validTot)
open Mirakc.Spec.ProgramFilter (serviceEit listedIn)

/-- A time and a PCR that may be taken as simultaneous: the ones given by the options, if a PMT of the service names their
PID; or those of a TOT and of a packet.  `P` are the PCRs of the stream, `T` its tables. -/
def Clocks (o : Opt) (P : Int → Prop) (T : Table → Prop) (t0 p0 : Int) : Prop :=
  (t0 = o.clockTime ∧ p0 = o.clockPcr ∧ ∃ t pmt, T t ∧ validPmt o.sid t = some pmt ∧ pmt.pcrPid = o.clockPid) ∨
  ((∃ t, T t ∧ validTot t = some t0) ∧ P p0)

/-- An EIT describes the event. -/
def Described (o : Opt) (T : Table → Prop) (e : Event) : Prop :=
  ∃ t es, T t ∧ serviceEit o.sid t = some es ∧ listedIn o.eid es = some e

/-- The PCR does not start over between an earlier and a later point related to the event, nor is a PCR more than half
the period behind the earlier one. -/
def NoWrap (o : Opt) (P : Int → Prop) (T : Table → Prop) (early late : Event → Int) : Prop :=
  ∀ t0 p0 e q, Clocks o P T t0 p0 → Described o T e → P q →
    0 ≤ p0 + (early e - t0) * 27000 ∧ p0 + (late e - t0) * 27000 < 2 ^ 33 * 300 ∧
    2 * (q - (p0 + (early e - t0) * 27000)) < 2 ^ 33 * 300

/-- The start of the event, with a margin. -/
def startWith (m : Int) (e : Event) : Int := e.startTime - m
/-- The end of the event, with a margin. -/
def endWith (m : Int) (e : Event) : Int := e.startTime + e.duration * 1000 + m

/-- The PCRs of the stream. -/
def PcrOf (w : World) (ps : List (List UInt8)) (q : Int) : Prop := ∃ b ∈ ps, (w.codec.packet b).pcr = some q
/-- The tables of the stream behind the service filter. -/
def TableOf (w : World) (t : Table) : Prop := ∃ n x, t ∈ w.tables2 n x

/-- The bytes of a packet of PID 0 or of a PMT. -/
def Opening (c : Codec) (b : List UInt8) : Prop := (c.packet b).pid = 0 ∨ ∃ pid t i n, b = c.pmtBytes pid t i n
/-- The same bytes, or packets of a PMT on the same PID. -/
def SameOrPmt (c : Codec) (b b' : List UInt8) : Prop :=
  b = b' ∨ ∃ pid t i n t' i' n', b = c.pmtBytes pid t i n ∧ b' = c.pmtBytes pid t' i' n'

/-- Equal packets, or packets of a PMT on the same PID. -/
def Like (x y : Out) : Prop := x = y ∨ ∃ pid t i n t' i' n', x = .pmt pid t i n ∧ y = .pmt pid t' i' n'

/-- The same packet by packet. -/
def AllLike : List Out → List Out → Prop
  | [], [] => True
  | x :: xs, y :: ys => Like x y ∧ AllLike xs ys
  | _, _ => False

/-- A packet of PID 0 or of a PMT. -/
def Header : Out → Prop
  | .orig p => p.pid = 0
  | .pmt .. => True

end Mirakc.Spec.Margins
