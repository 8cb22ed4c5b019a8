import Verif.Model.Simulator
import Verif.Model.System

/-! # Runs of the objects

How a run starts from the objects and what it leaves in them. -/
namespace Ramwich

/-- `DRAMController.run` (dram_controller.py:110-122): nothing when it is running already; `pending_reads`
is kept. The ghost variables of the model start anew. -/
def Ctrl.begin (c : Ctrl) (now : Nat) : Ctrl :=
  if c.running then c
  else { Ctrl.started c.mem c.valid now with pending := c.pending, stats := c.stats }

/-- `Router.run` (router.py:77-95): nothing when it is running already. -/
def RouterObj.begin (r : RouterObj) : RouterObj :=
  if r.running then r else { r with running := true, senderAlive := true }

/-- `Node.run`, `Tile.run`, `Core.run` (node.py:31-45, tile.py:103-124, core.py:127-152) in a new
`Environment`: the transition system of `Model/System.lean` with the state found in the objects. The routers
create new queues and buffers, so this is only meant for nodes whose routers do not run (`Router.run`
returns at once otherwise). The components of `c` fill the places beyond the lists, where nothing runs. -/
def NodeObj.start (c : Config) (n : NodeObj) : Sys :=
  { tile := fun t =>
      let x := n.tiles.getD t (TileObj.new c t)
      { ctrl := x.ctrl.begin 0
        core := fun k =>
          let y := x.cores.getD k (CoreObj.new c)
          { core := y.core, prog := y.operations }
        ops := x.operations }
    net := { stats := fun t => (n.tiles.getD t (TileObj.new c t)).router.stats } }

/-- Times that a run leaves in the objects and that are not part of `Sys`: `active_cycles` of tiles and
cores (tile.py:124, core.py:152) and the tracking of the network (noc.py:55-90). -/
structure RunTimes where
  tile : Nat → Int
  core : Nat → Nat → Int
  busy : Int
  tracking : Bool

/-- The objects of a node when the simulation stops in state `y`. The send process of a router ends only by
an exception or when the router is stopped
(tile.py:122, core.py:155, router.py:184-188, dram_controller.py:222-275). -/
def NodeObj.afterRun (n : NodeObj) (y : Sys) (times : RunTimes) : NodeObj :=
  { n with
    tiles := n.tiles.mapIdx fun t x =>
      { x with
        ctrl := (y.tile t).ctrl
        router :=
          { running := decide (y.net.stopper t ≠ .stopped)
            senderAlive := y.net.crashed.isNone && decide (y.net.stopper t ≠ .stopped)
            stats := y.net.stats t }
        cores := x.cores.mapIdx fun k o =>
          { o with core := ((y.tile t).core k).core, activeCycles := times.core t k }
        activeCycles := times.tile t }
    queueBusyCycles := times.busy
    isTracking := times.tracking }

end Ramwich
