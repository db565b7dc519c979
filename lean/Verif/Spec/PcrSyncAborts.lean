import Verif.Spec.PcrSynchronizer
import Verif.Spec.Aborts
import Verif.Spec.Demux
/-
Specification of sync-clocks for arbitrary streams: which tables are looked at, and which packets
it cannot process.
-/
namespace Mirakc.Spec.PcrSynchronizer
open Mirakc.PcrSynchronizer

/-- The services that are selected and in the latest PAT, with the PIDs of their PMTs. -/
def services (o : Opt) (l : List Ev) : List (Nat × Nat) :=
  match latestPat l with
  | none => []
  | some pat => pat.pmts.entries.filter fun e => decide (Selected o e.1)

/-- The SDT says that the service is one with audio or video. -/
def saysAV (sdt : Sdt) (sid : Nat) : Bool :=
  (sdt.services.find? sid).any fun x => [0x01, 0x02, 0xA1, 0xA2, 0xA5, 0xA6, 0xAD].contains x.serviceType

/-- The number of PMTs that sync-clocks waits for: those of the services with audio or video,
counted again with every SDT since the latest PAT. -/
def expected (o : Opt) (l : List Ev) : Nat :=
  ((sdts l).map fun sdt => ((services o l).filter fun e => saysAV sdt e.1).length).sum

/-- The number of services whose PMT was received since the latest PAT. -/
def known (o : Opt) (l : List Ev) : Nat :=
  ((services o l).filter fun e => (clockPid o l e.1).isSome).length

/-- Since the latest PAT there was a PMT of a service listed, on its PID, with which the number
of services known was the number expected. -/
def Complete (o : Opt) (l : List Ev) : Prop :=
  ∃ a e b, l = a ++ e :: b ∧ b.filterMap patOf = [] ∧
    (∃ pid x, pmtOf e = some (pid, x) ∧ Listed o a x.serviceId pid) ∧ known o (a ++ [e]) = expected o (a ++ [e])

/-- Tables of this PID are looked at, for arbitrary tables:
* those on the PIDs of PMTs of services with audio or video;
* those on the PID of the SDT, after a PAT;
* those on the PID of the TOT, when the PMTs are complete;
* those on the PID of the PAT, unless a PAT was replaced that placed a PMT there. -/
def Watched (o : Opt) (l : List Ev) (pid : Nat) : Prop :=
  (∃ sid, Listed o l sid pid ∧ HasAudioVideo l sid) ∨
  (pid = 0x11 ∧ latestPat l ≠ none) ∨
  (pid = 0x14 ∧ Complete o l) ∨
  (pid = 0x00 ∧ ∀ a e b, l = a ++ e :: b → patOf e ≠ none → ∀ sid, ¬ Listed o a sid pid)

/-- The tables of the packet that are looked at, after `l`: none of a null packet. -/
def TablesOf (o : Opt) (l : List Ev) (i : Input) (ts : List Table) : Prop :=
  if i.packet.pid = 0x1FFF then ts = []
  else Handed (fun rs => Watched o (l ++ rs.map .tab)) i.packet.pid [] i.tables ts

/-- The packet cannot be processed, after `l`: it has a PCR out of range, which is the first one to
be captured for its clock, and services are selected. -/
def Unsyncable (o : Opt) (l : List Ev) (i : Input) : Prop :=
  ∃ ts, TablesOf o l i ts ∧ ¬ NothingSelected o (l ++ ts.map .tab) ∧
    Looked o (l ++ ts.map .tab) i.packet.pid ∧ (∀ v, ¬ Captured o (l ++ ts.map .tab) i.packet.pid v) ∧
    ∃ v, i.packet.pcr = some v ∧ ¬ (0 ≤ v ∧ v < 2 ^ 33 * 300)

end Mirakc.Spec.PcrSynchronizer
