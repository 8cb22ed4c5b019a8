import Verif.Model.Mvmu
import Verif.Spec.Unit

/-! # The public methods of `MVMU` as one operation type

The methods are those of `Model/Mvmu`. A call that raises leaves the unit as it was: `load_weights`,
`write_to_inreg` and `read_from_outreg` test their arguments before they change anything
(mvmu.py:77-80, inreg.py:34-37, outreg.py:70-71), `reset` fails in its first line (mvmu.py:221) and
`execute_mvm` is only used here where it does not raise. -/
namespace Ramwich

open Spec

/-- Keep the state when a call raises (a caller of mvmu.py that catches the exception). -/
def keep {α : Type} (m : Mvmu) (f : α → List Int) : Except PyErr (α × Mvmu) → Except PyErr (List Int) × Mvmu
  | .ok (a, m') => (.ok (f a), m')
  | .error e => (.error e, m)

/-- `MVMU.load_weights`, `write_to_inreg`, `execute_mvm`, `read_from_outreg`, `reset`
(mvmu.py:73-230). Values are handed over as `int32` arrays. -/
def Mvmu.call (m : Mvmu) : UnitOp → Except PyErr (List Int) × Mvmu
  | .load w => keep m (fun _ : Unit => []) ((m.loadWeights w).map fun m => ((), m))
  | .write start values =>
      keep m (fun _ : Unit => [])
        ((m.writeToInreg start (values.map (BitVec.ofInt 32))).map fun m => ((), m))
  | .mvm ep en =>
      keep m (fun _ : Unit => [])
        ((m.executeMvm fun i => { pos := ep i, neg := en i }).map fun m => ((), m))
  | .read start length => keep m (fun v : List I32 => v.map BitVec.toInt) (m.readFromOutreg start length)
  | .reset => keep m (fun _ : Unit => []) (m.reset.map fun m => ((), m))

/-- Answers to a sequence of calls (any caller of the methods of mvmu.py). -/
def Mvmu.run : Mvmu → List UnitOp → List (Except PyErr (List Int))
  | _, [] => []
  | m, op :: ops => (m.call op).1 :: (m.call op).2.run ops

/-- The unit after a sequence of calls (any caller of the methods of mvmu.py). -/
def Mvmu.exec (m : Mvmu) (ops : List UnitOp) : Mvmu := ops.foldl (fun m op => (m.call op).2) m

end Ramwich
