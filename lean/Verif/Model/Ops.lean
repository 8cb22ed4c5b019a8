import Verif.Model.Py

/-! # `src/ramwich/ops.py`

The `node`, `tile` and `core` fields of an operation only select the unit it is given to
(`Model/Loader`), they are not part of these types. `Set.is_address` and `VFU.imm` are never read by
the simulator and are left out. -/
namespace Ramwich

/-- `VFUOpType` (ops.py:77). -/
inductive VfuOp
  | and | or | not | add | sub | mul | div | min | max | sig | tanh | relu
  deriving DecidableEq, Repr

/-- `CoreOpType` (ops.py:26-97, 132). -/
inductive CoreOp
  | load (dest read width vec : Int)
  | store (dest read width vec : Int)
  | set (dest imm vec : Int)
  | copy (dest read vec : Int)
  | mvm (xbar : List Int)
  | vfu (opcode : VfuOp) (dest read1 : Int) (read2 : Option Int) (vec : Int)
  | hlt
  deriving DecidableEq, Repr

/-- `TileOpType` (ops.py:100-126, 133). -/
inductive TileOp
  | send (memAddr targetTile width vec : Int)
  | receive (memAddr sourceTile width vec : Int)
  | halt
  deriving DecidableEq, Repr

end Ramwich
