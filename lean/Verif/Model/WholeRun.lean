import Verif.Model.Run
import Verif.Model.NodeRun

/-! # `RAMwich.run`: all nodes of the simulator in one simpy environment

Every node is a process of its own (`Model/ClockedNode.lean`); all of them share the clock `env.now`. There is nothing
else that they share: a router can only reach the routers of its node (C40). -/
namespace Ramwich

open Pipeline (upd)

/-- The simulator while it runs. `left a`: when `Node.run` of node `a` has returned (node.py:42-45). Since then
`_monitor_queues` of its network does not run any more: `stop_tracking` has interrupted it (noc.py:70-77). -/
structure Whole where
  node : Nat → FSys
  left : Nat → Option Nat := fun _ => none
  /-- `env.now` -/
  now : Nat := 0

/-- `node.run` of every node at time 0 (ramwich.py:193-195, node.py:35-40). -/
def Whole.start (i : Nat → SysInit) : Whole := { node := fun a => (i a).fstart }

/-- All processes that `Node.run` waits for have returned (node.py:42). -/
def FSys.tilesDone (cfg : SysCfg) (f : FSys) : Bool := (List.range cfg.net.tiles).all fun t => (f.active t).isSome

/-- Nothing is left to do in a node at the current time, except perhaps for `_monitor_queues` and `Node.run`
(the processes of node.py:31-45 without noc.py:79-96). -/
def FSys.still (cfg : SysCfg) (l : StageLat) (f : FSys) : Bool :=
  (List.range cfg.net.tiles).all (f.clk.routerQuiet cfg.net cfg.dataMemLat f.ts.sys.net f.ts.now) &&
    ((List.range cfg.net.tiles).all fun t => (f.other cfg l (.tile t)).isNone) &&
    (List.range cfg.net.tiles).all (f.ts.tileQuiet cfg l)

/-- Nothing is left to do for node `a` at the current time: either `_monitor_queues` has looked (noc.py:79-93) and
`Node.run` still waits for tiles, or `Node.run` has returned. -/
def Whole.nodeQuiet (cfg : Nat → SysCfg) (l : StageLat) (w : Whole) (a : Nat) : Bool :=
  (w.node a).still (cfg a) l &&
    ((w.left a).isSome ||
      !(w.node a).tilesDone (cfg a) &&
        ((w.node a).clk.monitor (cfg a).net (w.node a).ts.sys.net (w.node a).ts.now).isNone)

/-- `AllOf(self.env, processes)` has been triggered: `env.run` returns at the current time (ramwich.py:198-199). -/
def Whole.over (nodes : Nat) (w : Whole) : Bool := (List.range nodes).all fun a => (w.left a).isSome

/-- Some process has raised an exception: `env.run` raises it (ramwich.py:199). -/
def Whole.raised (nodes : Nat) (w : Whole) : Bool := (List.range nodes).any fun a => (w.node a).ts.sys.crashed.isSome

/-- The clock of a node advances (`env.now`, ramwich.py:199). -/
def FSys.pass (cfg : SysCfg) (f : FSys) : FSys :=
  { f with ts := { f.ts with
      sys := { f.ts.sys with tile := fun t => if t < cfg.net.tiles then (f.ts.sys.tile t).tick else f.ts.sys.tile t }
      pipe := fun t k => if cfg.hasCore t k then { f.ts.pipe t k with now := f.ts.now + 1 } else f.ts.pipe t k
      now := f.ts.now + 1 } }

/-- The events of the simulator (ramwich.py:195-199). -/
inductive WAct
  /-- a process of node `a` other than `Node.run` acts -/
  | node (a : Nat) (x : FAct)
  /-- `Node.run` of node `a` returns -/
  | leave (a : Nat)
  /-- time passes: simpy goes on to the next time when no event is left at the current one -/
  | tick
  deriving DecidableEq, Repr

/-- One event; `none` if it cannot happen. When all nodes have returned, events of the current time may still be processed
before `env.run` returns (it stops when it processes the event of `AllOf`), but no later ones
(ramwich.py:195-199). -/
def Whole.act (nodes : Nat) (cfg : Nat → SysCfg) (l : StageLat) (w : Whole) (e : WAct) : Option Whole :=
  if w.raised nodes then none
  else match e with
    | .node a x =>
      if a < nodes then
        match x with
        | .t .tick => none
        | .monitor => if (w.left a).isSome then none
          else ((w.node a).act (cfg a) l .monitor).map fun f => { w with node := upd w.node a f }
        | x => ((w.node a).act (cfg a) l x).map fun f => { w with node := upd w.node a f }
      else none
    | .leave a =>
      if a < nodes ∧ w.left a = none ∧ (w.node a).tilesDone (cfg a) = true then
        some { w with left := upd w.left a (some w.now) }
      else none
    | .tick =>
      if w.over nodes = false ∧ (List.range nodes).all (w.nodeQuiet cfg l) = true then
        some { w with node := fun a => if a < nodes then (w.node a).pass (cfg a) else w.node a, now := w.now + 1 }
      else none

/-- A sequence of events; `none` if one of them cannot happen (ramwich.py:195-199). -/
def Whole.run (nodes : Nat) (cfg : Nat → SysCfg) (l : StageLat) : Whole → List WAct → Option Whole
  | w, [] => some w
  | w, e :: es => (w.act nodes cfg l e).bind fun w => Whole.run nodes cfg l w es

/-- What the clocks of a run leave in the objects of node `n`: `active_cycles` of the tiles (tile.py:122) and of the cores
(core.py:154), `queue_busy_cycles` (noc.py:89-90; it starts from what it was before, C50), `is_tracking`
(noc.py:67, 75). -/
def NodeObj.timesOf (n : NodeObj) (f : FSys) (stopped : Bool) : RunTimes :=
  { tile := fun t => match f.active t with
      | some c => c
      | none => ((n.tiles[t]?).map fun x => x.activeCycles).getD 0
    core := fun t k => match (f.ts.pipe t k).doneAt with
      | some c => c
      | none => ((n.tiles[t]?.bind fun x => x.cores[k]?).map fun o => o.activeCycles).getD 0
    busy := n.queueBusyCycles + f.clk.busy
    tracking := !stopped }

/-- The simulator after `env.run`, with the nodes as they are in `w` (ramwich.py:199). -/
def Sim.afterWhole (s : Sim) (w : Whole) : Sim :=
  { s with nodes := s.nodes.mapIdx fun a n =>
      n.afterRun (w.node a).ts.sys (n.timesOf (w.node a) (w.left a).isSome) }

end Ramwich
