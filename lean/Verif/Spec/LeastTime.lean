import Verif.Spec.ClockedNode
import Verif.Spec.ClockedTime
import Verif.Spec.Ledger
import Verif.Spec.TimedSystem
import Verif.Spec.EndToEnd

/-! # How long the programs of a node take at least

Sums over the texts of the programs, as in `Spec/ClockedTime`, but for what cannot happen at the same time. -/
namespace Ramwich.Spec

/-- A core fetches and decodes its first operation and executes all of them, up to the first `hlt`, one after the other. -/
def coreLeast (cfg : SysCfg) (l : StageLat) (prog : List CoreOp) : Int :=
  (l.fetch + l.decode : Int) + ((upToHlt prog).map cfg.minCycles).sum

/-- A tile process executes its operations one after the other. A Send of `vec` rows reads the DRAM and puts `vec` packets
into the send queue. From then on, the router needs the latency of the network for each of these packets and for each of the
later ones; the tile waits for them at its Halt. A Recv writes to the DRAM. -/
def tileLeast (cfg : SysCfg) : List TileOp → Nat
  | [] => 0
  | .send _ _ _ vec :: ops =>
    (cfg.edramLat * vec).toNat +
      max (if vec ≤ 0 then 0 else (vec.toNat + packetsOf ops) * cfg.net.lat) (vec.toNat * cfg.dataMemLat.toNat + tileLeast cfg ops)
  | .receive _ _ _ vec :: ops => (cfg.edramLat * vec.toNat).toNat + tileLeast cfg ops
  | .halt :: ops => tileLeast cfg ops

/-- The DRAM of a tile answers one request after the other, those of the cores and those of the tile process, and needs
`edram_lat` cycles for every row. -/
def dramLeast (cfg : SysCfg) (progs : List (List CoreOp)) (ops : List TileOp) : Int :=
  cfg.edramLat * (rowsOf (traffic progs ops).1 + rowsOf (traffic progs ops).2)

/-! ## From the files -/

/-- The latencies of a configuration. (They depend neither on the activation functions nor on the noise.) -/
def latenciesOf (c : Config) : SysCfg :=
  c.sysCfg ⟨fun _ x => x, fun _ x => x⟩ fun _ _ _ _ _ => ⟨fun _ _ _ => 0, fun _ _ _ => 0⟩

/-- The largest of some numbers, but at least 0. -/
def largest (xs : List Int) : Int := xs.foldl max 0

/-- The least time of core `k` of tile `t` of node `a`. -/
def fileCoreLeast (c : Config) (ps : List Placed) (a t k : Nat) : Int :=
  coreLeast (latenciesOf c) c.stageLat (coreProgram ps a t k)

/-- The least time of tile `t` of node `a`: its own operations, and the slowest of its cores, for which it waits at its Halt. -/
def fileTileLeast (c : Config) (ps : List Placed) (a t : Nat) : Int :=
  largest ((tileLeast (latenciesOf c) (tileProgram ps a t) : Int) ::
    (List.range c.numCoresPerTile).map (fileCoreLeast c ps a t))

/-- The least time of node `a`: the slowest tile and the slowest DRAM. -/
def fileLeast (c : Config) (ps : List Placed) (a : Nat) : Int :=
  largest ((List.range c.numTilesPerNode).map fun t => max (fileTileLeast c ps a t)
    (dramLeast (latenciesOf c) ((List.range c.numCoresPerTile).map (coreProgram ps a t)) (tileProgram ps a t)))

end Ramwich.Spec
