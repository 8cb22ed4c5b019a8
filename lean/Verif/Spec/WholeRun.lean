import Verif.Model.WholeRun
import Verif.Spec.ClockedRest
import Verif.Spec.Session

/-! # All nodes of a simulator -/
namespace Ramwich.Spec

/-- The nodes are in the same state, apart from what `_monitor_queues` (noc.py:76-95) has seen. -/
def sameButMonitor (g f : FSys) : Prop :=
  g = { f with clk := { f.clk with look := g.clk.look, busy := g.clk.busy, looks := g.clk.looks } }

end Ramwich.Spec
