import Verif.Model.Table
/-
Which tables are handed over, for any rule that says which PIDs are watched.
-/
namespace Mirakc.Spec

/-- `Handed W pid rs ts log`: a packet of the PID completes the tables `ts`, after `rs` have
been handed over.  The tables `log` are handed over, one after the other: those of the PID, if
it is watched at that moment.  `W rs pid` says that the PID is watched once the tables `rs`
have been handed over. -/
inductive Handed (W : List Table → Nat → Prop) (pid : Nat) : (rs ts log : List Table) → Prop
  | nil (rs) : Handed W pid rs [] []
  | take {rs t ts log} : t.sourcePid = pid ∧ W rs pid → Handed W pid (rs ++ [t]) ts log →
      Handed W pid rs (t :: ts) (t :: log)
  | skip {rs t ts log} : ¬ (t.sourcePid = pid ∧ W rs pid) → Handed W pid rs ts log →
      Handed W pid rs (t :: ts) log

end Mirakc.Spec
