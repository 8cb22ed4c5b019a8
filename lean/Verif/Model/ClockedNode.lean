import Verif.Model.TimedSystem
import Verif.Model.TimedNetwork

/-! # A node with one clock for everything

`Model/TimedSystem.lean` has the clock of the cores and the DRAM controllers and lets the routers and the tile
processes act at any time; `Model/TimedNetwork.lean` has the clock of the routers and lets their users act at
any time. Here all processes of a node have the same clock (`env.now`): the tile processes, too, act as soon as
what they wait for has happened. Time passes only when no process can do anything at the current time. -/
namespace Ramwich

open Pipeline (upd)

/-- What an action of the node does to the routers: the send thread and a pending `get` act by themselves; a tile
process calls `add_send_packet` (tile.py:62), continues after it, calls `read_packet` (tile.py:73), continues
after it, and calls `stop_after_all_packets_sent` and waits for it (tile.py:95). -/
def Sys.netOf (cfg : SysCfg) (s : Sys) : SysAct → Option NetAct
  | .thread t => some (.thread t)
  | .take t => some (.take t)
  | .tile t =>
    match (s.tile t).phase with
    | .sending target (row :: _) => if cfg.dataMemLat < 0 then none else some (.send t target row)
    | .adding .. => some (.added t)
    | .recving _ source _ vec got => if got.length < vec then some (.startRead t source) else none
    | .recvWait .. =>
      match s.net.reader t with
      | .got .. => some (.readDone t)
      | _ => none
    | .haltCores =>
      match s.net.stopper t with
      | .stopped => none
      | _ => if s.coresHalted cfg t then some (.halt t) else none
    | .haltRouter =>
      match s.net.stopper t with
      | .stopped => none
      | _ => some (.stopStep t)
    | _ => none
  | _ => none

/-- A node with its clock. `starts t` and `ends t` (ghost histories): when the operations of tile process `t` have
been started and have ended (tile.py:115-120). -/
structure FSys where
  ts : TSys
  clk : NetClock := {}
  starts : Nat → List Nat := fun _ => []
  ends : Nat → List Nat := fun _ => []
  /-- `active_cycles`, once `Tile.run` has set it (tile.py:122; `start_time` is 0) -/
  active : Nat → Option Nat := fun _ => none

/-- `Node.run` at time 0 (node.py:31-40). -/
def SysInit.fstart (i : SysInit) : FSys :=
  { ts := i.tstart, active := fun t => if (i.ops t).isEmpty then some 0 else none }

/-- The routers' part of an action at the current time: `none` if it cannot happen now
(router.py:106-207; simpy takes the earliest event). -/
def FSys.netPart (cfg : SysCfg) (f : FSys) (b : SysAct) : Option NetClock :=
  match f.ts.sys.netOf cfg b with
  | none => some f.clk
  | some na => f.clk.step cfg.net cfg.dataMemLat f.ts.sys.net f.ts.now na

/-- The phase is the one between two operations (tile.py:115-116). -/
def TilePhase.isReady : TilePhase → Bool
  | .ready => true
  | _ => false

/-- The times of the operations of tile process `t` after an action of it. After the last one `Tile.run` sets
`active_cycles` (tile.py:115-122). -/
def FSys.mark (f : FSys) (t : Nat) (old new : TileSt) : FSys :=
  match old.phase.isReady, new.phase.isReady with
  | true, false => { f with starts := upd f.starts t (f.starts t ++ [f.ts.now]) }
  | false, true => { f with
      ends := upd f.ends t (f.ends t ++ [f.ts.now])
      active := if new.ops.isEmpty then upd f.active t (some f.ts.now) else f.active }
  | _, _ => f

/-- An action of a controller, a router or a tile process
(dram_controller.py:199-275, router.py:106-207, tile.py:47-124). -/
def FSys.other (cfg : SysCfg) (l : StageLat) (f : FSys) (b : SysAct) : Option FSys :=
  match f.ts.act cfg l (.other b), f.netPart cfg b with
  | some ts, some k =>
    if ts.sys.crashed.isSome then some { f with ts := ts }
    else
      let f' := { f with ts := ts, clk := k }
      match b with
      | .tile t => some (f'.mark t (f.ts.sys.tile t) (ts.sys.tile t))
      | _ => some f'
  | _, _ => none

/-- Nothing is left to do at the current time. (`TSys.tick` looks at the controllers and the cores.)
(simpy takes the earliest event: ramwich.py:199) -/
def FSys.quiet (cfg : SysCfg) (l : StageLat) (f : FSys) : Bool :=
  f.clk.quiet cfg.net cfg.dataMemLat f.ts.sys.net f.ts.now &&
    (List.range cfg.net.tiles).all fun t => (f.other cfg l (.tile t)).isNone

/-- The actions of a node with a clock (the processes of node.py:31-45). -/
inductive FAct
  /-- an action of a controller, a pipeline, a core, a router or a tile process, or the passing of time -/
  | t (a : TAct)
  /-- `check_queue` of tile `i` finds packets in the queue (router.py:116-119) -/
  | recheck (i : Nat)
  /-- a round of `_monitor_queues` (noc.py:82-91) -/
  | monitor
  deriving DecidableEq, Repr

/-- One action; `none` if it cannot happen (the processes of node.py:31-45). -/
def FSys.act (cfg : SysCfg) (l : StageLat) (f : FSys) (a : FAct) : Option FSys :=
  if f.ts.sys.crashed.isSome then none
  else match a with
    | .t a =>
      match a with
      | .tick => if f.quiet cfg l then (f.ts.act cfg l .tick).map fun ts => { f with ts := ts } else none
      | .other b => f.other cfg l b
      | a => (f.ts.act cfg l a).map fun ts => { f with ts := ts }
    | .recheck i =>
      if i < cfg.net.tiles then (f.clk.recheck f.ts.sys.net f.ts.now i).map fun k => { f with clk := k } else none
    | .monitor => (f.clk.monitor cfg.net f.ts.sys.net f.ts.now).map fun k => { f with clk := k }

/-- A sequence of actions; `none` if one of them cannot happen (`env.run`, ramwich.py:199). -/
def FSys.run (cfg : SysCfg) (l : StageLat) : FSys → List FAct → Option FSys
  | f, [] => some f
  | f, a :: as => (f.act cfg l a).bind fun f => FSys.run cfg l f as

end Ramwich
