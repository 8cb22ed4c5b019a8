import Verif.Spec.SysRest

/-! # How much there is to do in a program -/
namespace Ramwich.Spec

/-- Actions for an operation of a core: starting and ending it; a load or store has one more and a request to the
controller, which is taken from the queue and dispatched at most twice, served and answered. -/
def coreOpWork : CoreOp → Nat
  | .load .. => 3 + 6
  | .store .. => 3 + 6
  | _ => 2

/-- Actions for an operation of a tile. Send: starting, getting the data and ending, a request, and for every row
two of the tile process and six of the send thread. Recv: starting, writing and ending, a request, and for every
row three. Halt: starting, waiting for the cores, three for the router, stopping the controller. -/
def tileOpWork : TileOp → Nat
  | .send _ _ _ vec => 3 + 6 + 8 * vec.toNat
  | .receive _ _ _ vec => 3 + 6 + 3 * vec.toNat
  | .halt => 6

/-- Actions for the programs of a node. -/
def programWork (cfg : SysCfg) (i : SysInit) : Nat :=
  ((List.range cfg.net.tiles).map fun t =>
    ((i.ops t).map tileOpWork).sum +
    ((List.range cfg.cores).map fun k => ((i.prog t k).map coreOpWork).sum).sum).sum

/-- The action is not merely that time passes. -/
def _root_.Ramwich.SysAct.isWork : SysAct → Bool
  | .ctrl _ .tick => false
  | _ => true

end Ramwich.Spec
