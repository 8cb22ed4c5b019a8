import Verif.Model.ClockedNode
import Verif.Spec.SysWork

/-! # Nothing happens any more in a node with one clock -/
namespace Ramwich
namespace Spec

/-- Nothing is done by this: time passes, `_monitor_queues` looks at the queues (noc.py:82-91), or `check_queue` finds
that the queue is not empty (router.py:116-119). These two look again after one cycle. -/
def idleAct : FAct → Bool
  | .t .tick | .recheck _ | .monitor => true
  | _ => false

/-- Nothing will ever be done again. -/
def clockedRest (cfg : SysCfg) (l : StageLat) (f : FSys) : Prop :=
  ∀ as f', f.run cfg l as = some f' → ∀ a ∈ as, idleAct a = true

/-- Actions for the programs of a node with pipelines: every operation is fed into the pipeline and then taken from a
buffer, started, finished, put into the next buffer and left behind by three stages; the monitor of every pipeline
passes three events and signals the end. -/
def clockedWork (cfg : SysCfg) (i : SysInit) : Nat :=
  programWork cfg i + ((List.range cfg.net.tiles).map fun t =>
    ((List.range cfg.cores).map fun k => 16 * (i.prog t k).length + 4).sum).sum

/-- `Tile.run` of every tile has returned (tile.py:122): then `Node.run` returns and the simulation stops
(node.py:42, ramwich.py:195-199). -/
def allReturned (cfg : SysCfg) (f : FSys) : Prop := ∀ t < cfg.net.tiles, f.active t ≠ none

end Spec
end Ramwich
