import Verif.Model.System
import Verif.Model.TimedPipeline

/-! # A node with the pipelines of its cores and the clock of simpy

The node of `Model/System.lean`, where a core executed its operations one after the other; here the
operations go through the pipeline of the core (core.py:127-152, pipeline.py), and there is one clock. The
clock advances when no controller, pipeline or core can do anything at the current time (simpy takes the
earliest event). The routers and the tile processes may act at any time: their latencies are arbitrary.

In `sys` the field `prog` of the cores is not used (it is empty). -/
namespace Ramwich

open Pipeline

/-- `op.type == "hlt"` (pipeline.py:39). -/
def isHlt : CoreOp → Bool
  | .hlt => true
  | _ => false

/-- The latencies of the fetch and decode stages, `core_config.instrnMem_lat` and `dataMem_lat`
(visitor.py:73-92). -/
structure StageLat where
  fetch : Nat
  decode : Nat
  deriving DecidableEq, Repr

/-- How long the stages take. The execution stage is dealt with below (visitor.py:80-82, 91-93). -/
def StageLat.lat (l : StageLat) (i _ : Nat) : Option Nat :=
  match i with
  | 0 => some l.fetch
  | 1 => some l.decode
  | _ => none

/-- A node with pipelines and a clock. `due t k`: the end of the `timeout` in which the execution stage of
core `k` of tile `t` is (core.py:127-157). -/
structure TSys where
  sys : Sys
  pipe : Nat → Nat → Timed CoreOp
  due : Nat → Nat → Option Nat := fun _ _ => none
  now : Nat := 0

/-- `Node.run` at time 0 (node.py:31-40). -/
def SysInit.tstart (i : SysInit) : TSys :=
  { sys := { i with prog := fun _ _ => [] }.start
    pipe := fun t k => Timed.init (i.prog t k) 0 }

/-- Update of a function of two arguments (assignment to an attribute of a core, core.py:23-48). -/
def upd2 {β : Type} (f : Nat → Nat → β) (t k : Nat) (b : β) : Nat → Nat → β := upd f t (upd (f t) k b)

/-- The core changes (pipeline.py:27-44). -/
def TSys.setPipe (s : TSys) (sys : Sys) (t k : Nat) (p : Timed CoreOp) (due : Option Nat) : TSys :=
  { s with sys := sys, pipe := upd2 s.pipe t k p, due := upd2 s.due t k due }

/-- The end of a `timeout` that starts now (`env.timeout`, as at visitor.py:170, 198). -/
def TSys.after (s : TSys) : Except PyErr Int → Option Nat
  | .ok d => some (s.now + d.toNat)
  | .error _ => none

/-- The `timeout` in which the execution stage is after starting an operation (visitor.py:145-257). -/
def TSys.startDue (cfg : SysCfg) (s : TSys) : CoreOp → Option Nat
  | .load .. => none
  | .store _ _ _ vec => s.after (.ok (cfg.dataMemLat * vec))
  | op => s.after (cfg.execLat op)

/-- The stages other than the execution stage act, or the latter gets an operation or goes round its loop, or
the monitor acts (pipeline.py). -/
def TSys.pipeAct (l : StageLat) (s : TSys) (t k : Nat) (a : PAct) : Option TSys :=
  match a with
  | .start 2 => none
  | .finish 2 => none
  | a => ((s.pipe t k).move isHlt 3 l.lat a).map fun p => { s with pipe := upd2 s.pipe t k p }

/-- The execution stage calls the visitor (pipeline.py:34, visitor.py:145-257). -/
def TSys.exec (cfg : SysCfg) (l : StageLat) (s : TSys) (t k : Nat) : Option TSys :=
  match (s.pipe t k).st.ctl 2, (s.pipe t k).start l.lat 2 with
  | .got op, some p =>
    (s.sys.coreStart cfg t k op []).map fun sys =>
      if sys.crashed.isSome then { s with sys := sys }
      else s.setPipe sys t k p (s.startDue cfg op)
  | _, _ => none

/-- The core is in a `timeout` that ends now (the timeouts of visitor.py:145-257). -/
def TSys.expired (s : TSys) (t k : Nat) : Bool := decide (s.due t k = some s.now)

/-- Within a load: the data has arrived (visitor.py:160-170). Within a store: the delay before the request is
over (visitor.py:195-208). -/
def TSys.mid (cfg : SysCfg) (s : TSys) (t k : Nat) : Option TSys :=
  match ((s.sys.tile t).core k).phase with
  | .loadWait _ _ _ _ _ vec =>
    (s.sys.coreStep cfg t k).map fun sys =>
      if sys.crashed.isSome then { s with sys := sys }
      else s.setPipe sys t k (s.pipe t k) (s.after (.ok (cfg.dataMemLat * vec)))
  | .storeDelay .. =>
    if s.expired t k then
      (s.sys.coreStep cfg t k).map fun sys =>
        if sys.crashed.isSome then { s with sys := sys } else s.setPipe sys t k (s.pipe t k) none
    else none
  | _ => none

/-- The event of the operation fires: its `timeout` is over, or the data of a load has been written to the
registers (visitor.py:172-173), or the write request of a store has been answered (visitor.py:207). -/
def TSys.fin (cfg : SysCfg) (s : TSys) (t k : Nat) : Option TSys :=
  match ((s.sys.tile t).core k).phase with
  | .timing | .loadGot .. =>
    if s.expired t k then
      match s.sys.coreStep cfg t k, (s.pipe t k).finish 3 2 with
      | some sys, some p =>
        some (if sys.crashed.isSome then { s with sys := sys } else s.setPipe sys t k p none)
      | _, _ => none
    else none
  | .storeWait _ =>
    match s.sys.coreStep cfg t k, (s.pipe t k).finish 3 2 with
    | some sys, some p =>
      some (if sys.crashed.isSome then { s with sys := sys } else s.setPipe sys t k p none)
    | _, _ => none
  | .halting =>
    if s.expired t k then ((s.pipe t k).finish 3 2).map fun p => s.setPipe s.sys t k p none
    else none
  | _ => none

/-- `done_event` has been triggered and the core process returns (core.py:152-154). -/
def TSys.ret (cfg : SysCfg) (s : TSys) (t k : Nat) : Option TSys :=
  match ((s.sys.tile t).core k).phase with
  | .halting =>
    if (s.pipe t k).st.done then
      (s.sys.coreStep cfg t k).map fun sys => { s with sys := sys }
    else none
  | _ => none

/-- Nothing is left to do for a core at the current time (pipeline.py:27-44, visitor.py:145-257). -/
def TSys.coreQuiet (cfg : SysCfg) (l : StageLat) (s : TSys) (t k : Nat) : Bool :=
  (s.pipe t k).quiet isHlt 3 l.lat && (s.exec cfg l t k).isNone && (s.mid cfg t k).isNone &&
    (s.fin cfg t k).isNone && (s.ret cfg t k).isNone

/-- Nothing is left to do for a tile at the current time (dram_controller.py:199-275, pipeline.py:27-44). -/
def TSys.tileQuiet (cfg : SysCfg) (l : StageLat) (s : TSys) (t : Nat) : Bool :=
  (s.sys.tile t).ctrl.quiescent && (List.range cfg.cores).all (s.coreQuiet cfg l t)

/-- The core exists (node.py:20, tile.py:34). -/
def SysCfg.hasCore (cfg : SysCfg) (t k : Nat) : Bool := decide (t < cfg.net.tiles) && decide (k < cfg.cores)

/-- The clock of a controller advances (`env.now` of the timeouts of dram_controller.py:233, 257). -/
def TileSt.tick (x : TileSt) : TileSt := { x with ctrl := { x.ctrl with now := x.ctrl.now + 1 } }

/-- The clock advances (simpy takes the earliest event: `env.run`, ramwich.py:199). -/
def TSys.tick (cfg : SysCfg) (l : StageLat) (s : TSys) : Option TSys :=
  if (List.range cfg.net.tiles).all (s.tileQuiet cfg l) then
    some { s with
      sys := { s.sys with tile := fun t => if t < cfg.net.tiles then (s.sys.tile t).tick else s.sys.tile t }
      pipe := fun t k => if cfg.hasCore t k then { s.pipe t k with now := s.now + 1 } else s.pipe t k
      now := s.now + 1 }
  else none

/-- The actions of a node with a clock (the processes of node.py:31-45). -/
inductive TAct
  | tick
  | pipe (t k : Nat) (a : PAct)
  | exec (t k : Nat)
  | mid (t k : Nat)
  | fin (t k : Nat)
  | ret (t k : Nat)
  /-- an action of a controller, a router or a tile process -/
  | other (a : SysAct)
  deriving DecidableEq, Repr

/-- One action; `none` if it cannot happen (the processes of node.py:31-45). -/
def TSys.act (cfg : SysCfg) (l : StageLat) (s : TSys) (a : TAct) : Option TSys :=
  if s.sys.crashed.isSome then none
  else match a with
    | .tick => s.tick cfg l
    | .pipe t k a => if cfg.hasCore t k then s.pipeAct l t k a else none
    | .exec t k => if cfg.hasCore t k then s.exec cfg l t k else none
    | .mid t k => if cfg.hasCore t k then s.mid cfg t k else none
    | .fin t k => if cfg.hasCore t k then s.fin cfg t k else none
    | .ret t k => if cfg.hasCore t k then s.ret cfg t k else none
    | .other a =>
      match a with
      | .core .. => none
      | .ctrl _ .tick => none
      | a => (s.sys.act cfg a).map fun sys => { s with sys := sys }

/-- A sequence of actions; `none` if one of them cannot happen (`env.run`, ramwich.py:199). -/
def TSys.run (cfg : SysCfg) (l : StageLat) : TSys → List TAct → Option TSys
  | s, [] => some s
  | s, a :: as => (s.act cfg l a).bind fun s => TSys.run cfg l s as

end Ramwich
