import Verif.Model.Core
import Verif.Model.Ops
import Verif.Model.DramController
import Verif.Model.Network

/-! # A node running its program (`tile.py`, `core.py`, `visitor.py` 138-257, `node.py`)

One node: tiles with their cores, DRAM controllers and routers. Nodes do not interact (each has its own
`Network`, node.py:16-20). The processes of a node run interleaved; one action of this transition
system is the code of one process between two `yield`s, and any enabled action may come next. All
latencies of cores and tile processes are therefore arbitrary: every schedule of the simulator, for
every setting of the latencies, is a run of the model. The clocks of the controllers (`Ctrl.now`) are
not synchronised for the same reason.

The fetch and decode stages of a core have no effect besides time; the pipeline delivers the operations
to the execute stage in program order, one at a time, and nothing after a `hlt`
(`Model/Pipeline.lean`, C24-C27). Hence a core is here a process that executes its operations in order; C61
proves that a node with the pipelines (`Model/TimedSystem.lean`) does nothing else.

Latencies are taken from `SysCfg` and not from the configuration inside `Core`, so that one program can be
compared under different latencies; `Core.execute` does not use the latter.

`log` fields are ghost histories: what a process has done and the data it has seen. -/
namespace Ramwich

open Pipeline (upd)

/-- The parameters of a node (config.py:610-624). -/
structure SysCfg where
  net : NetConfig
  /-- `num_cores_per_tile` -/
  cores : Nat
  /-- `tile_config.edram_lat` -/
  edramLat : Int
  /-- `core_config.dataMem_lat` -/
  dataMemLat : Int
  /-- `CoreExecutionTimingVisitor` (visitor.py:95-135) -/
  execLat : CoreOp → Except PyErr Int
  fl : FloatActs
  /-- read noise of the `n`-th operation of core `k` of tile `t` (rram_xbar.py:88: every call draws from
  a fresh generator) -/
  noise : Nat → Nat → Nat → Nat → Nat → Noise

/-- What an executed operation of a core did: the DRAM address and the data of a load or store (0 and
`[]` otherwise) and the core afterwards. A load is recorded when its data has arrived, with the core as
it will be when the registers are written (visitor.py:145-257). -/
structure CoreEv where
  op : CoreOp
  addr : Int
  data : List I32
  after : Core

/-- Control state of the execute stage of a core (visitor.py:145-257). -/
inductive CorePhase
  /-- about to execute the next operation -/
  | ready
  /-- in the `timeout` of an operation without DRAM access -/
  | timing
  /-- a load waits for its `read_event` -/
  | loadWait (id : Nat) (addr dest read width vec : Int)
  /-- a load has its data, in the `timeout` before the register write (visitor.py:166-173) -/
  | loadGot (dest : Int) (data : List I32)
  /-- a store has read its data, in the `timeout` before the request (visitor.py:195-198) -/
  | storeDelay (addr : Int) (data : List I32) (rows : Nat)
  /-- a store waits for its `write_event` -/
  | storeWait (id : Nat)
  /-- in the `timeout` of a `hlt` -/
  | halting
  /-- the core process has returned -/
  | halted
  deriving DecidableEq, Repr

/-- A core process. `prog`: the operations after the current one (core.py:127-152). -/
structure CoreSt where
  core : Core
  prog : List CoreOp
  phase : CorePhase := .ready
  log : List CoreEv := []

/-- What a tile process did (tile.py:47-101). -/
inductive TileEv
  /-- the data of a Send has been read -/
  | sent (addr target width vec : Int) (rows : List (List I32))
  /-- `read_packet(source)` has returned -/
  | row (source : Int) (data : List I32)
  /-- a Recv has all its rows and submits its write -/
  | received (addr source width vec : Int) (rows : List (List I32))
  | halted
  deriving DecidableEq, Repr

/-- Control state of a tile process (tile.py:47-124). -/
inductive TilePhase
  /-- about to start the next operation -/
  | ready
  /-- line 54 -/
  | sendWait (id : Nat) (addr target width vec : Int)
  /-- the loop of lines 60-62, with the rows not sent yet -/
  | sending (target : Int) (todo : List (List I32))
  /-- line 62, waiting for `add_send_packet` -/
  | adding (target : Int) (todo : List (List I32))
  /-- the loop of lines 71-81, with the rows received so far -/
  | recving (addr source width vec : Int) (got : List (List I32))
  /-- line 73, waiting for `read_packet` -/
  | recvWait (addr source width vec : Int) (got : List (List I32))
  /-- line 84 -/
  | recvWrite (id : Nat)
  /-- lines 92-93 -/
  | haltCores
  /-- line 95 -/
  | haltRouter
  deriving DecidableEq, Repr

/-- A tile (tile.py:21-38). -/
structure TileSt where
  ctrl : Ctrl
  core : Nat → CoreSt
  ops : List TileOp
  phase : TilePhase := .ready
  log : List TileEv := []

/-- A node (node.py:13-22). -/
structure Sys where
  tile : Nat → TileSt
  net : Net := {}
  crashed : Option PyErr := none

/-- What a node starts with: contents and validity of the DRAMs, the cores with their weights, the
programs (node.py:13-22 after ramwich.py:45-179). -/
structure SysInit where
  mem : Nat → Memory
  valid : Nat → List Bool
  core : Nat → Nat → Core
  prog : Nat → Nat → List CoreOp
  ops : Nat → List TileOp

/-- `Node.run`, `Tile.run` up to line 113, `Core.run` (node.py, tile.py:103-113, core.py:127-152). -/
def SysInit.start (i : SysInit) : Sys :=
  { tile := fun t => {
      ctrl := Ctrl.started (i.mem t) (i.valid t) 0
      core := fun k => { core := i.core t k, prog := i.prog t k }
      ops := i.ops t } }

/-- The value of a triggered `read_event` (tile.py:54-55, visitor.py:162-166). -/
def readAnswer (id : Nat) : List Answer → Option (List I32)
  | [] => none
  | .read r _ d :: as => if r.id = id then some d else readAnswer id as
  | .wrote .. :: as => readAnswer id as

/-- A `write_event` has been triggered (tile.py:84, visitor.py:207). -/
def wroteAnswer (id : Nat) : List Answer → Bool
  | [] => false
  | .wrote r _ :: as => decide (r.id = id) || wroteAnswer id as
  | .read .. :: as => wroteAnswer id as

/-- `data.reshape((vec, width))` for `vec * width` words (tile.py:58). -/
def reshape (vec width : Nat) (data : List I32) : List (List I32) :=
  (List.range vec).map fun i => (data.drop (i * width)).take width

/-- An exception leaves a process
(simpy: an exception of a process of node.py:31-45 leaves `env.run`, ramwich.py:199). -/
def Sys.crash (s : Sys) (e : PyErr) : Sys := { s with crashed := some e }

/-- The tile changes (attributes of tile.py:21-38). -/
def Sys.setTile (s : Sys) (t : Nat) (x : TileSt) : Sys := { s with tile := upd s.tile t x }

/-- The core process changes (attributes of core.py:23-48). -/
def Sys.setCore (s : Sys) (t k : Nat) (x : CoreSt) : Sys :=
  s.setTile t { s.tile t with core := upd (s.tile t).core k x }

/-- The controller of tile `t` acts; then the rest of the state changes by `f`, unless the action raised
(dram_controller.py:110-275). -/
def Sys.ctrlAct (cfg : SysCfg) (s : Sys) (t : Nat) (a : CtrlAct) (f : Sys → Sys) : Option Sys :=
  ((s.tile t).ctrl.act cfg.edramLat a).map fun c =>
    let s' := s.setTile t { s.tile t with ctrl := c }
    match c.crashed with
    | some e => s'.crash e
    | none => f s'

/-- The routers act; then the rest of the state changes by `f`, unless the action raised
(router.py:106-207). -/
def Sys.netAct (cfg : SysCfg) (s : Sys) (a : NetAct) (f : Sys → Sys) : Option Sys :=
  (s.net.act cfg.net a).map fun n =>
    let s' := { s with net := n }
    match n.crashed with
    | some e => s'.crash e
    | none => f s'

/-- Tile process `t` continues in the given phase (tile.py:47-124). -/
def Sys.setPhase (s : Sys) (t : Nat) (p : TilePhase) : Sys := s.setTile t { s.tile t with phase := p }

/-- Tile process `t` continues in the given phase, having done something to be recorded (tile.py:47-124). -/
def Sys.logPhase (s : Sys) (t : Nat) (e : TileEv) (p : TilePhase) : Sys :=
  s.setTile t { s.tile t with phase := p, log := (s.tile t).log ++ [e] }

/-- A `timeout` with this delay raises (simpy, for the timeouts of visitor.py:80-257). -/
def badDelay : Except PyErr Int → Option PyErr
  | .error e => some e
  | .ok d => if d < 0 then some .valueError else none

/-- The execute stage starts an operation (visitor.py:145-257). -/
def Sys.coreStart (cfg : SysCfg) (s : Sys) (t k : Nat) (op : CoreOp) (rest : List CoreOp) : Option Sys :=
  let x := (s.tile t).core k
  match op with
  | .load dest read width vec =>
    match x.core.loadAddress read with
    | (.error e, _) => some (s.crash e)
    | (.ok addr, c) =>
      s.ctrlAct cfg t (.submit k addr (.read width vec)) fun s' =>
        s'.setCore t k { x with
          core := c, prog := rest
          phase := .loadWait (s.tile t).ctrl.submitted.length addr dest read width vec }
  | .store dest read width vec =>
    match x.core.storeRequest dest read width vec with
    | (.error e, _) => some (s.crash e)
    | (.ok (addr, data), c) =>
      match badDelay (.ok (cfg.dataMemLat * vec)) with
      | some e => some (s.crash e)
      | none => some (s.setCore t k {
          core := c, prog := rest
          phase := .storeDelay addr data vec.toNat
          log := x.log ++ [⟨op, addr, data, c⟩] })
  | _ =>
    match x.core.execute cfg.fl (cfg.noise t k x.log.length) op with
    | (.error e, _) => some (s.crash e)
    | (.ok (), c) =>
      match badDelay (cfg.execLat op) with
      | some e => some (s.crash e)
      | none => some (s.setCore t k {
          core := c
          prog := if op = .hlt then [] else rest
          phase := if op = .hlt then .halting else .timing
          log := x.log ++ [⟨op, 0, [], c⟩] })

/-- Next action of core `k` of tile `t` (visitor.py:145-257). -/
def Sys.coreStep (cfg : SysCfg) (s : Sys) (t k : Nat) : Option Sys :=
  let x := (s.tile t).core k
  match x.phase with
  | .ready =>
    match x.prog with
    | [] => none
    | op :: rest => s.coreStart cfg t k op rest
  | .timing => some (s.setCore t k { x with phase := .ready })
  | .loadWait id addr dest read width vec =>
    match readAnswer id (s.tile t).ctrl.answers with
    | none => none
    | some data =>
      match badDelay (.ok (cfg.dataMemLat * vec)) with
      | some e => some (s.crash e)
      | none => some (s.setCore t k { x with
          phase := .loadGot dest data
          log := x.log ++ [⟨.load dest read width vec, addr, data, (x.core.loadFinish dest data).2⟩] })
  | .loadGot dest data =>
    match x.core.loadFinish dest data with
    | (.error e, _) => some (s.crash e)
    | (.ok (), c) => some (s.setCore t k { x with core := c, phase := .ready })
  | .storeDelay addr data rows =>
    s.ctrlAct cfg t (.submit k addr (.write data rows)) fun s' =>
      s'.setCore t k { x with phase := .storeWait (s.tile t).ctrl.submitted.length }
  | .storeWait id =>
    if wroteAnswer id (s.tile t).ctrl.answers then some (s.setCore t k { x with phase := .ready }) else none
  | .halting => some (s.setCore t k { x with phase := .halted })
  | .halted => none

/-- The core process has returned (core.py:153-157). -/
def CorePhase.isHalted : CorePhase → Bool
  | .halted => true
  | _ => false

/-- `env.all_of(self.core_processes)` (tile.py:93). -/
def Sys.coresHalted (cfg : SysCfg) (s : Sys) (t : Nat) : Bool :=
  (List.range cfg.cores).all fun k => ((s.tile t).core k).phase.isHalted

/-- A tile process starts an operation (tile.py:115-116). -/
def Sys.tileStart (cfg : SysCfg) (s : Sys) (t : Nat) (op : TileOp) (rest : List TileOp) : Option Sys :=
  let x := s.tile t
  match op with
  | .send addr target width vec =>
    s.ctrlAct cfg t (.submit (-1) addr (.read width vec)) fun s' =>
      s'.setTile t { s'.tile t with
        ops := rest, phase := .sendWait x.ctrl.submitted.length addr target width vec }
  | .receive addr source width vec =>
    if width < 0 ∨ vec < 0 then some (s.crash .valueError)
    else some (s.setTile t { x with ops := rest, phase := .recving addr source width vec [] })
  | .halt => some (s.setTile t { x with ops := rest, phase := .haltCores })

/-- Next action of tile process `t` (tile.py:47-124). A negative `dataMem_lat` raises in `add_send_packet`
(router.py:155); that the packet is in the queue then does not matter any more. -/
def Sys.tileStep (cfg : SysCfg) (s : Sys) (t : Nat) : Option Sys :=
  let x := s.tile t
  match x.phase with
  | .ready =>
    match x.ops with
    | [] => none
    | op :: rest => s.tileStart cfg t op rest
  | .sendWait id addr target width vec =>
    match readAnswer id x.ctrl.answers with
    | none => none
    | some data =>
      if width < 0 ∨ vec < 0 then some (s.crash .valueError)
      else
        let rows := reshape vec.toNat width.toNat data
        some (s.logPhase t (.sent addr target width vec rows) (.sending target rows))
  | .sending target todo =>
    match todo with
    | [] => some (s.setPhase t .ready)
    | row :: rows =>
      match badDelay (.ok cfg.dataMemLat) with
      | some e => some (s.crash e)
      | none => s.netAct cfg (.send t target row) fun s' => s'.setPhase t (.adding target rows)
  | .adding target todo => s.netAct cfg (.added t) fun s' => s'.setPhase t (.sending target todo)
  | .recving addr source width vec got =>
    if got.length < vec then
      s.netAct cfg (.startRead t source) fun s' => s'.setPhase t (.recvWait addr source width vec got)
    else
      s.ctrlAct cfg t (.submit (-1) addr (.write got.flatten vec.toNat)) fun s' =>
        s'.logPhase t (.received addr source width vec got) (.recvWrite x.ctrl.submitted.length)
  | .recvWait addr source width vec got =>
    match s.net.reader t with
    | .got _ data =>
      s.netAct cfg (.readDone t) fun s' =>
        s'.logPhase t (.row source data)
          (if (data.length : Int) = width then .recving addr source width vec (got ++ [data]) else .ready)
    | _ => none
  | .recvWrite id => if wroteAnswer id x.ctrl.answers then some (s.setPhase t .ready) else none
  | .haltCores =>
    if s.coresHalted cfg t then
      match s.net.stopper t with
      | .stopped => some (s.setPhase t .haltRouter)
      | _ => s.netAct cfg (.halt t) fun s' => s'.setPhase t .haltRouter
    else none
  | .haltRouter =>
    match s.net.stopper t with
    | .stopped => s.ctrlAct cfg t .stop fun s' => s'.logPhase t .halted .ready
    | _ => s.netAct cfg (.stopStep t) id

/-- The actions of a node: of a controller (its handler, its request threads, its clock), of a send
thread, of a pending `get` of a router, of a core, of a tile process (the processes of node.py:31-45). -/
inductive SysAct
  | ctrl (t : Nat) (a : CtrlAct)
  | thread (t : Nat)
  | take (t : Nat)
  | core (t k : Nat)
  | tile (t : Nat)
  deriving DecidableEq, Repr

/-- One action; `none` if it cannot happen (the processes of node.py:31-45). -/
def Sys.act (cfg : SysCfg) (s : Sys) (a : SysAct) : Option Sys :=
  if s.crashed.isSome then none
  else match a with
    | .ctrl t a =>
      match a with
      | .submit .. => none
      | .stop => none
      | a => if t < cfg.net.tiles then s.ctrlAct cfg t a id else none
    | .thread t => s.netAct cfg (.thread t) id
    | .take t => s.netAct cfg (.take t) id
    | .core t k => if t < cfg.net.tiles ∧ k < cfg.cores then s.coreStep cfg t k else none
    | .tile t => if t < cfg.net.tiles then s.tileStep cfg t else none

/-- A sequence of actions; `none` if one of them cannot happen (`env.run`, ramwich.py:199). -/
def Sys.run (cfg : SysCfg) : Sys → List SysAct → Option Sys
  | s, [] => some s
  | s, a :: as => (s.act cfg a).bind fun s => Sys.run cfg s as

end Ramwich
