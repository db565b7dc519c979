import Verif.Model.Table
/-
The tables a command receives.
-/
namespace Mirakc.Spec

/-- All tables received with the packets; a table comes from the PID of the packet that
completes it. -/
def received (is : List Input) : List Table :=
  is.flatMap fun i => i.tables.filter (·.sourcePid == i.packet.pid)

end Mirakc.Spec
