import Verif.Spec.ServiceFilter
import Verif.Spec.Demux
/-
Specification vocabulary: which streams make filter-service terminate abnormally.
-/
namespace Mirakc.Spec.ServiceFilter

/-- The PID of the PMT of the service in a table, if it is a usable PAT that lists it. -/
def listed (sid : Nat) (t : Table) : Option Nat :=
  (usablePat t).bind fun pat => pat.pmts.entries.lookup sid

/-- Tables of this PID are looked at after the tables `rs` were received, for arbitrary tables:
those on the PID of the PMT in the latest PAT with the service; those on the PIDs of PAT, CAT and,
with a time limit, TOT, unless a PAT placed the PMT there; and those on the null PID once a PAT
placed the PMT there. -/
def Looked (sid : Nat) (limit : Option Int) (rs : List Table) (pid : Nat) : Prop :=
  latest (listed sid) rs = some pid ∨
  ((∀ t ∈ rs, listed sid t ≠ some pid) ∧ (pid = 0x00 ∨ pid = 0x01 ∨ (limit ≠ none ∧ pid = 0x14))) ∨
  (pid = 0x1FFF ∧ ∃ t ∈ rs, listed sid t = some pid)

/-- The packet makes the filter terminate abnormally, after the tables `rs` were received:
* there is no time limit, and a valid TOT is looked at;
* or the filter goes on, and a null packet is to be forwarded;
* or the filter goes on, and a packet of the PID of the PAT is to be forwarded though no usable PAT
  was received. -/
def Aborts (sid : Nat) (limit : Option Int) (rs : List Table) (i : Input) : Prop :=
  ∃ log, Handed (Looked sid limit) i.packet.pid rs i.tables log ∧
    ((limit = none ∧ ∃ t ∈ log, validTot t ≠ none) ∨
     ((∀ t ∈ log, ¬ Missing sid t ∧ ¬ OverLimit limit t) ∧ Forward sid (rs ++ log) i.packet.pid ∧
      (i.packet.pid = 0x1FFF ∨ (i.packet.pid = 0x00 ∧ latest usablePat (rs ++ log) = none))))

end Mirakc.Spec.ServiceFilter
