import Verif.Model.StartSeeker
import Verif.Spec.ServiceFilter
import Verif.Spec.ProgramFilter
/-
Specification vocabulary for seek-start.
-/
namespace Mirakc.Spec.StartSeeker
open Mirakc.Spec.ServiceFilter (usablePat validPmt latest)
open Mirakc.Spec.ProgramFilter (Reached ReachedNoWrap)
open Mirakc.StartSeeker (Opt Act Item)

/-- All tables received during a piece of history. -/
def received (items : List Item) : List Table := items.flatMap (·.handled)

/-- The packets of a piece of history. -/
def packets (items : List Item) : List Packet := items.map (·.packet)

/-- The packets sent by an action. -/
def Act.out : Act → List Packet
  | .hold => []
  | .lead q l => q :: l
  | .burst l => l
  | .pass p => [p]

/-- The packets sent during a piece of history. -/
def sent (items : List Item) : List Packet := items.flatMap fun it => Act.out it.act

/-- The streams selected by `f` of the two PMTs differ, and the first has some. -/
def Differs (f : Stream → Bool) (p p' : Pmt) : Prop :=
  (∃ pid st, (pid, st) ∈ p.streams.entries ∧ f st = true) ∧
  ¬ ∀ pid, (∃ st, (pid, st) ∈ p.streams.entries ∧ f st = true) ↔
    (∃ st, (pid, st) ∈ p'.streams.entries ∧ f st = true)

/-- After the tables `rs`, the table `t` is a PMT of the service that announces other
video or audio streams than the previous one. -/
def Transition (sid : Nat) (rs : List Table) (t : Table) : Prop :=
  ∃ p p', latest (validPmt sid) rs = some p ∧ validPmt sid t = some p' ∧
    (Differs (·.isVideo) p p' ∨ Differs (·.isAudio) p p')

/-- `t` is the last transition among the tables `ts` received after `rs`. -/
def LastTransition (sid : Nat) (rs ts : List Table) (t : Table) : Prop :=
  ∃ a b, ts = a ++ t :: b ∧ Transition sid (rs ++ a) t ∧
    ∀ b1 u b2, b = b1 ++ u :: b2 → ¬ Transition sid (rs ++ a ++ t :: b1) u

/-- The history ends with a transition whose PMT starts at packet `k`, not the first. -/
def TransitionAt (o : Opt) (pre : List Item) (it : Item) (k : Nat) : Prop :=
  0 < k ∧ ∃ t, LastTransition o.sid (received pre) it.handled t ∧ t.firstPacket = k

/-- Index of the first packet of the latest usable PAT. -/
def patAt (rs : List Table) : Option Nat :=
  latest (fun t => (usablePat t).map fun _ => t.firstPacket) rs

/-- The PCR of the packet after the tables `rs`: on the PCR PID of the latest PMT. -/
def PcrOf (sid : Nat) (rs : List Table) (p : Packet) (x : Int) : Prop :=
  ∃ pmt, latest (validPmt sid) rs = some pmt ∧ pmt.pcrPid ≠ 0x1FFF ∧ p.pid = pmt.pcrPid ∧ p.pcr = some x

/-- `x` is the first PCR of the service in the history. -/
def FirstPcr (o : Opt) (items : List Item) (x : Int) : Prop :=
  ∃ pre it post, items = pre ++ it :: post ∧ PcrOf o.sid (received pre ++ it.handled) it.packet x ∧
    ∀ a j b, pre = a ++ j :: b → ∀ y, ¬ PcrOf o.sid (received a ++ j.handled) j.packet y

/-- The PCR at which the maximum duration since the PCR `x0` is reached.  The sum is one of numbers of
64 bits without sign, which makes a difference only if it is negative, for a negative duration. -/
def limit (o : Opt) (x0 : Int) : Int := (x0 + o.maxDuration * 27000) % 2 ^ 64 % (2 ^ 33 * 300)

/-- With the packet of `it`, the maximum duration since the first PCR is reached, `R`
telling when a PCR is reached. -/
def DurationOver (R : Int → Int → Prop) (o : Opt) (pre : List Item) (it : Item) : Prop :=
  ∃ x0 x, FirstPcr o pre x0 ∧ PcrOf o.sid (received pre ++ it.handled) it.packet x ∧
    R x (limit o x0)

/-- The maximum number of packets is reached with the packet of `it`. -/
def Full (o : Opt) (pre : List Item) : Prop := o.maxPackets ≠ 0 ∧ pre.length + 1 = o.maxPackets

/-- All packets are held back. -/
def Held (items : List Item) : Prop := ∀ it ∈ items, it.act = .hold

/-- TSDuck: a table starts at a packet of its PID that was already received. -/
def Placed (items : List Item) : Prop :=
  ∀ pre it post, items = pre ++ it :: post → ∀ t ∈ it.handled, t.firstPacket ≤ pre.length ∧
    ∀ p, (packets items)[t.firstPacket]? = some p → p.pid = t.sourcePid

/-- TSDuck: adding a PID to the demultiplexer starts it afresh, so a PMT of the service
starts after the packets of all PATs handled before (and it is not on PID 0). -/
def Fresh (o : Opt) (items : List Item) : Prop :=
  ∀ pre it post, items = pre ++ it :: post → ∀ t ∈ it.handled, validPmt o.sid t ≠ none →
    t.sourcePid ≠ 0 ∧ ∀ a j b, pre = a ++ j :: b → (∃ u ∈ j.handled, usablePat u ≠ none) →
      a.length < t.firstPacket

/-- A transition, or one of the limits is reached, `R` telling when a PCR is reached. -/
def Trigger (R : Int → Int → Prop) (o : Opt) (pre : List Item) (it : Item) : Prop :=
  (∃ k, TransitionAt o pre it k) ∨ Full o pre ∨ DurationOver R o pre it

/-- Neither a transition nor a limit so far. -/
def Within (R : Int → Int → Prop) (o : Opt) (items : List Item) : Prop :=
  ∀ pre it post, items = pre ++ it :: post → ¬ Trigger R o pre it

/-- Any sink, extended by a log of the packets it receives and its answers. -/
def judged {P σ : Type} (snk : Sink P σ) : Sink P (σ × List (P × Bool)) where
  start s := (snk.start s.1).map fun r => (r.1, r.2, s.2)
  handle s p := (snk.handle s.1 p).map fun r => (r.1, r.2, s.2 ++ [(p, r.1)])
  finish s := (snk.finish s.1).map fun r => (r, s.2)
  exitCode s := snk.exitCode s.1

/-- No packet after a refused one. -/
def StopsAtRefusal {P : Type} (log : List (P × Bool)) : Prop :=
  ∀ a p b, log = a ++ (p, false) :: b → b = []

/-- The maximum duration in ticks of the PCR is a number of 64 bits: 10825 years, which may be
negative. -/
def DurationFits (o : Opt) : Prop := -341606371735362 ≤ o.maxDuration ∧ o.maxDuration ≤ 341606371735362

/-- The sink never refuses a packet. -/
def Willing {P σ : Type} (snk : Sink P σ) : Prop := ∀ d p r, snk.handle d p = .ok r → r.1 = true

/-- The packets passed on one by one. -/
def passed (items : List Item) : List Packet :=
  items.filterMap fun it => match it.act with | .pass p => some p | _ => none

/-- The packets sent otherwise than one by one. -/
def bulk (items : List Item) : List Packet :=
  items.flatMap fun it => match it.act with | .pass _ => [] | a => Act.out a

/-- An input that is harmless as packet number `n`. -/
def Harmless (o : Opt) (n : Nat) (i : Input) : Prop :=
  (∀ t ∈ i.tables, t.firstPacket ≤ n ∧
    ∀ pat, usablePat t = some pat → ∃ pid, (o.sid, pid) ∈ pat.pmts.entries) ∧
  ∀ x, i.packet.pcr = some x → 0 ≤ x ∧ x < 2 ^ 33 * 300

end Mirakc.Spec.StartSeeker
