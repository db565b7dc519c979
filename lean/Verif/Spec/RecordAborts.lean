import Verif.Spec.ServiceRecorder
import Verif.Spec.ServiceAborts
/-
Specification vocabulary: which streams make record-service terminate abnormally.
-/
namespace Mirakc.Spec.ServiceRecorder
open Mirakc.ServiceRecorder (Msg Tr Item Opt Hist)
open Mirakc.Spec.ServiceFilter (latest listed Missing)

/-- Tables of this PID are looked at after the tables `rs` were received, for arbitrary tables:
those on the PID of the PMT in the latest PAT; those on the PIDs of PAT, EIT and TOT, unless a PAT
placed the PMT there; and those on the null PID once a PAT placed the PMT there. -/
def Looked (sid : Nat) (rs : List Table) (pid : Nat) : Prop :=
  latest (listed sid) rs = some pid ∨
  ((∀ t ∈ rs, listed sid t ≠ some pid) ∧ (pid = 0x00 ∨ pid = 0x12 ∨ pid = 0x14)) ∨
  (pid = 0x1FFF ∧ ∃ t ∈ rs, listed sid t = some pid)

/-- The packet makes record-service terminate abnormally, after the given history: it has a PCR of
the service that is out of range, or a PAT without the service is looked at. -/
def Unrecordable (sid : Nat) (items : List Item) (i : Mirakc.ServiceRecorder.Input) : Prop :=
  (∃ x, i.packet.pcr = some x ∧ i.packet.pid = pcrPid sid (received items) ∧ i.packet.pid ≠ 0x1FFF ∧
    ¬ (0 ≤ x ∧ x < 2 ^ 33 * 300)) ∨
  ∃ log, Handed (Looked sid) i.packet.pid (received items) i.tables log ∧ ∃ t ∈ log, Missing sid t

/-- The recording was started, and goes on after the packets of the history. -/
def GoesOn (h : Hist) : Prop := .msg .start ∈ h.trace ∧ ∀ x ∈ h.items, x.more = true

end Mirakc.Spec.ServiceRecorder
