import Verif.Model.Core
import Verif.Model.DramController
import Verif.Model.Network

/-! # The objects of `ramwich.py`, `node.py`, `tile.py` and their `reset`

The state that lives between runs. What happens during a run is in `Model/System.lean`. -/
namespace Ramwich

/-- `Core` objects (core.py:23-48): the components and the attributes of the object itself. -/
structure CoreObj where
  core : Core
  operations : List CoreOp := []
  activeCycles : Int := 0
  deriving DecidableEq, Repr

/-- `Router` objects between runs (router.py:65-75). `senderAlive`: the process `send_process` has not
ended; it is only read when `is_running` holds. -/
structure RouterObj where
  running : Bool := false
  senderAlive : Bool := false
  stats : RouterStats := {}
  deriving DecidableEq, Repr

/-- `Tile` objects (tile.py:21-38). `edram` and the `dram` of the controller are one object, here
`ctrl.mem`. -/
structure TileObj where
  id : Nat
  ctrl : Ctrl
  router : RouterObj := {}
  cores : List CoreObj
  operations : List TileOp := []
  activeCycles : Int := 0
  deriving DecidableEq, Repr

/-- `Node` objects with their `Network` (node.py:16-22, noc.py:35-53). -/
structure NodeObj where
  id : Nat
  tiles : List TileObj
  queueBusyCycles : Int := 0
  isTracking : Bool := false
  deriving DecidableEq, Repr

/-- `RAMwich` objects (ramwich.py:22-43). -/
structure Sim where
  config : Config
  nodes : List NodeObj
  deriving DecidableEq, Repr

/-- core.py:23-48 -/
def CoreObj.new (c : Config) : CoreObj := { core := Core.new c }

/-- `DRAMController.__init__` with a new DRAM (dram_controller.py:90-108, memory.py:155-163). -/
def Ctrl.new (size : Nat) : Ctrl := { mem := Memory.new size, valid := List.replicate size false }

/-- tile.py:21-38 -/
def TileObj.new (c : Config) (id : Nat) : TileObj :=
  { id := id
    ctrl := Ctrl.new c.tileConfig.edramSize
    cores := (List.range c.numCoresPerTile).map fun _ => CoreObj.new c }

/-- node.py:16-22 -/
def NodeObj.new (c : Config) (id : Nat) : NodeObj :=
  { id := id, tiles := (List.range c.numTilesPerNode).map (TileObj.new c) }

/-- `_build_architecture` (ramwich.py:45-53). -/
def Sim.new (c : Config) : Sim := { config := c, nodes := (List.range c.numNodes).map (NodeObj.new c) }

/-- `for x in xs: x.reset()` and similar loops: the first exception stops, earlier changes stay
(tile.py:132-133, node.py:49-50, ramwich.py:208-212). -/
def forEach {α : Type} (f : α → Res α Unit) : List α → Res (List α) Unit
  | [] => (.ok (), [])
  | x :: xs =>
    match f x with
    | (.error e, x') => (.error e, x' :: xs)
    | (.ok _, x') => let r := forEach f xs; (r.1, x' :: r.2)

/-- `Core.reset` (core.py:159-164) leaves `operations` and `active_cycles` alone. -/
def CoreObj.reset (c : CoreObj) : Res CoreObj Unit :=
  let r := c.core.reset
  (r.1, { c with core := r.2 })

/-- `Router.reset` (router.py:209-212, 97-104): interrupting a process that has ended raises
RuntimeError, after `is_running` was cleared and before the statistics are. -/
def RouterObj.reset (r : RouterObj) : Res RouterObj Unit :=
  if r.running then
    if r.senderAlive then (.ok (), { r with running := false, senderAlive := false, stats := {} })
    else (.error .runtimeError, { r with running := false })
  else (.ok (), { r with stats := {} })

/-- `Tile.reset` (tile.py:126-133). The DRAM is reset twice (line 128 and dram_controller.py:290). -/
def TileObj.reset (t : TileObj) : Res TileObj Unit :=
  let t := { t with ctrl := { t.ctrl with mem := t.ctrl.mem.reset } }
  let t := { t with ctrl := t.ctrl.reset }
  match t.router.reset with
  | (.error e, r) => (.error e, { t with router := r })
  | (.ok _, r) =>
    let cs := forEach CoreObj.reset t.cores
    (cs.1, { t with router := r, cores := cs.2 })

/-- `Node.reset` (node.py:47-50): the tiles, not the network. -/
def NodeObj.reset (n : NodeObj) : Res NodeObj Unit :=
  let r := forEach TileObj.reset n.tiles
  (r.1, { n with tiles := r.2 })

/-- `RAMwich.reset` (ramwich.py:208-212). The new `Environment` is not part of this state: a run creates
its simpy objects itself. -/
def Sim.reset (s : Sim) : Res Sim Unit :=
  let r := forEach NodeObj.reset s.nodes
  (r.1, { s with nodes := r.2 })

end Ramwich
