import Verif.Spec.ClockedRest
import Verif.Spec.TimedNetwork

/-! # How long the programs of a node can take -/
namespace Ramwich
namespace Spec

/-- The cycles that an operation of a core needs in the execution stage, without waiting for other requests of the
DRAM: a load or store of `vec` words accesses the DRAM and the registers. -/
def coreOpCycles (cfg : SysCfg) : CoreOp → Nat
  | .load _ _ _ vec => (cfg.edramLat * vec).toNat + (cfg.dataMemLat * vec).toNat
  | .store _ _ _ vec => (cfg.dataMemLat * vec).toNat + (cfg.edramLat * vec.toNat).toNat
  | op =>
    match cfg.execLat op with
    | .ok d => d.toNat
    | .error _ => 0

/-- The cycles that an operation of a tile needs: a Send reads the DRAM and, for every one of `vec` packets, there is
a call of `add_send_packet` and the way through the network; a Recv writes to the DRAM; at a Halt `check_queue` may find
out one cycle late that all packets have been sent. -/
def tileOpCycles (cfg : SysCfg) : TileOp → Nat
  | .send _ _ _ vec => (cfg.edramLat * vec).toNat + vec.toNat * (cfg.dataMemLat.toNat + cfg.net.lat)
  | .receive _ _ _ vec => (cfg.edramLat * vec.toNat).toNat
  | .halt => 1

/-- The operations of a program up to the first `hlt`. -/
def upToHlt : List CoreOp → List CoreOp
  | [] => []
  | op :: ops => if isHlt op then [op] else op :: upToHlt ops

/-- The cycles that the programs of a node need if everything happens one after the other. -/
def programCycles (cfg : SysCfg) (l : StageLat) (i : SysInit) : Nat :=
  ((List.range cfg.net.tiles).map fun t =>
    ((i.ops t).map (tileOpCycles cfg)).sum +
      ((List.range cfg.cores).map fun k =>
        ((upToHlt (i.prog t k)).map fun op => l.fetch + l.decode + coreOpCycles cfg op).sum).sum).sum

end Spec
end Ramwich
