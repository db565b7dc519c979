import Verif.Spec.StartSeeker
import Verif.Spec.ServiceAborts
/-
Specification vocabulary: which streams make seek-start terminate abnormally.
-/
namespace Mirakc.Spec.StartSeeker
open Mirakc.Spec.ServiceFilter (usablePat validPmt latest listed Missing)
open Mirakc.StartSeeker (Opt Act Item)

/-- No transition among the tables. -/
def Never (sid : Nat) (rs : List Table) : Prop :=
  ∀ a t b, rs = a ++ t :: b → ¬ Transition sid a t

/-- One transition among the tables. -/
def Once (sid : Nat) (rs : List Table) : Prop :=
  ∃ a t b, rs = a ++ t :: b ∧ Transition sid a t ∧
    ∀ a' t' b', rs = a' ++ t' :: b' → Transition sid a' t' → a' = a

/-- Tables of this PID are looked at after the tables `rs` were received, for arbitrary tables.
Before a transition, those on the PID of the PMT in the latest PAT; those on the PID of the PAT,
unless a PAT placed the PMT there; and those on the null PID once a PAT placed the PMT there.
After the transition none, except for those on the null PID if a PAT placed the PMT there and
the latest PAT placed it elsewhere. -/
def Looked (sid : Nat) (rs : List Table) (pid : Nat) : Prop :=
  (Never sid rs ∧
    (latest (listed sid) rs = some pid ∨
     (pid = 0x00 ∧ ∀ t ∈ rs, listed sid t ≠ some pid) ∨
     (pid = 0x1FFF ∧ ∃ t ∈ rs, listed sid t = some pid))) ∨
  (Once sid rs ∧ pid = 0x1FFF ∧ (∃ t ∈ rs, listed sid t = some pid) ∧ latest (listed sid) rs ≠ some pid)

/-- The packet makes seek-start terminate abnormally, after the given history:
* a PAT without the service is looked at;
* or all packets are held back, and the packet brings a transition, but the latest PAT starts
  at a packet not received yet (which TSDuck rules out);
* or all packets are held back, and the packet brings neither a transition nor the maximum number
  of packets, but the first PCR of the service, and the maximum duration in ticks of the PCR is not a
  number of 64 bits (undefined behaviour);
* or all packets are held back, and the packet brings neither a transition nor the maximum number
  of packets, but a PCR of the service that is not the first and is not within the period. -/
def Unseekable (o : Opt) (items : List Item) (i : Input) : Prop :=
  ∃ log, Handed (Looked o.sid) i.packet.pid (received items) i.tables log ∧
    ((∃ t ∈ log, Missing o.sid t) ∨
     (Held items ∧ (∃ k, TransitionAt o items ⟨i.packet, log, .hold⟩ k) ∧
       ∃ n, patAt (received items ++ log) = some n ∧ items.length < n) ∨
     (Held items ∧ (¬ ∃ k, TransitionAt o items ⟨i.packet, log, .hold⟩ k) ∧ ¬ Full o items ∧
       (¬ ∃ x0, FirstPcr o items x0) ∧ (∃ x, PcrOf o.sid (received items ++ log) i.packet x) ∧
       ¬ DurationFits o) ∨
     (Held items ∧ (¬ ∃ k, TransitionAt o items ⟨i.packet, log, .hold⟩ k) ∧ ¬ Full o items ∧
       (∃ x0, FirstPcr o items x0) ∧
       ∃ x, PcrOf o.sid (received items ++ log) i.packet x ∧ (x < 0 ∨ 2 ^ 33 * 300 ≤ x)))

end Mirakc.Spec.StartSeeker
