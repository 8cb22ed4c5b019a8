import Verif.Model.Core
import Verif.Model.MvmuApi
import Verif.Spec.Core

/-! # The methods of `Core` as one operation type

Used to speak about every state a core can reach. A call that raises keeps the state the method
leaves behind. -/
namespace Ramwich

open Spec

/-- Calls on a core: register access (core.py:81-125), an instruction (visitor.py:215-257),
`load_weights` on one unit (mvmu.py:73-97 through core.py:53-60), `reset` (core.py:159-164). -/
inductive CoreCall
  | write (start : Int) (data : List I32)
  | read (start length : Int)
  | exec (op : CoreOp) (e : MvmErrors)
  | load (unit : Int) (weights : List (List ℚ))
  | reset

/-- Noise arguments of the model from the errors of the specification (the draws of rram_xbar.py:88-90). -/
def noiseOf (e : MvmErrors) : Nat → Nat → Noise := fun n i => { pos := e.pos n i, neg := e.neg n i }

/-- `core.get_mvmu(i).load_weights(w)` (ramwich.py:124-126). -/
def Core.loadWeights (c : Core) (i : Int) (w : List (List ℚ)) : Res Core Unit :=
  match c.getMvmu i with
  | .error e => (.error e, c)
  | .ok m =>
    match m.loadWeights w with
    | .error e => (.error e, c)
    | .ok m' => (.ok (), { c with mvmus := c.mvmus.set i.toNat m' })

/-- One call: its answer and the core afterwards
(core.py:81-125, 159-164, visitor.py:215-257, mvmu.py:73-97). -/
def Core.call (c : Core) (fl : FloatActs) : CoreCall → Res Core (List I32)
  | .write start data => let r := c.writeToRegister start data; (r.1.map fun _ => [], r.2)
  | .read start length => c.readFromRegister start length
  | .exec op e => let r := c.execute fl (noiseOf e) op; (r.1.map fun _ => [], r.2)
  | .load i w => let r := c.loadWeights i w; (r.1.map fun _ => [], r.2)
  | .reset => let r := c.reset; (r.1.map fun _ => [], r.2)

/-- The core after a history of calls, whatever they answered (any caller of the methods of core.py). -/
def Core.after (c : Core) (fl : FloatActs) (hist : List CoreCall) : Core :=
  hist.foldl (fun c k => (c.call fl k).2) c

/-- The answers to a sequence of calls (any caller of the methods of core.py). -/
def Core.answers (c : Core) (fl : FloatActs) : List CoreCall → List (Except PyErr (List I32))
  | [] => []
  | k :: ks => (c.call fl k).1 :: Core.answers (c.call fl k).2 fl ks

/-- Executing a list of instructions, stopping at the first exception (the order in which a
core's pipeline executes them, see the pipeline model) (core.py:149-150, pipeline.py:27-44). -/
def Core.executeAll (c : Core) (fl : FloatActs) : List (CoreOp × MvmErrors) → Res Core Unit
  | [] => (.ok (), c)
  | (op, e) :: ops => Res.andThen (c.execute fl (noiseOf e) op) fun c _ => Core.executeAll c fl ops

/-- Contents of input register `i` of unit `m` (inreg.py:21). -/
def Core.inputAt (c : Core) (m i : Nat) : Int :=
  match c.mvmus[m]? with
  | some u => (u.inreg.registers.getD i 0).toInt
  | none => 0

/-- Contents of output register `i` of unit `m` (before scaling) (outreg.py:20). -/
def Core.outputAt (c : Core) (m i : Nat) : Int :=
  match c.mvmus[m]? with
  | some u => (u.outreg.registers.getD i 0).toInt
  | none => 0

/-- Contents of cache word `i` (memory.py:87). -/
def Core.cacheAt (c : Core) (i : Nat) : Int := (c.cache.cells.getD i 0).toInt

end Ramwich
