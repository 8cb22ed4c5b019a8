import Verif.Model.Config
import Verif.Model.Ops

/-! # `src/ramwich/blocks/vfu.py` -/
namespace Ramwich

/-- `VFUStats` counters (vfu.py:19-23). -/
structure VfuStats where
  mulOperations : Nat := 0
  divOperations : Nat := 0
  actOperations : Nat := 0
  otherOperations : Nat := 0
  totalOperations : Nat := 0
  deriving DecidableEq, Repr

/-- The float computations of `_handle_sig` and `_handle_tanh` (vfu.py:170-186) as unknown functions
of the number of fraction bits and the element. -/
structure FloatActs where
  sig : Nat → I32 → I32
  tanh : Nat → I32 → I32

/-- Operand of `calculate`: a Python int or an `int32` array (vfu.py:95-139). -/
inductive Operand
  | int (v : Int)
  | arr (v : List I32)
  deriving DecidableEq, Repr

/-- `np.array([v], dtype=np.int32)` for ints (vfu.py:100-101, 105-106); numpy raises OverflowError
when the int does not fit. -/
def Operand.toArray : Operand → Except PyErr (List I32)
  | .int v => if -2 ^ 31 ≤ v ∧ v < 2 ^ 31 then .ok [BitVec.ofInt 32 v] else .error .overflowError
  | .arr v => .ok v

/-- numpy broadcasting of two one-dimensional arrays (vfu.py:95-139). -/
def broadcast2 (f : I32 → I32 → I32) (a b : List I32) : Except PyErr (List I32) :=
  if a.length = b.length then .ok (List.zipWith f a b)
  else match a, b with
    | _, [y] => .ok (a.map fun x => f x y)
    | [x], _ => .ok (b.map fun y => f x y)
    | _, _ => .error .valueError

/-- The opcodes that take one operand (vfu.py:119). -/
def VfuOp.unary : VfuOp → Bool
  | .not | .sig | .tanh | .relu => true
  | _ => false

/-- Elements of the unary handlers (vfu.py:147-148, 170-189). -/
def vfuUnary (fl : FloatActs) (frac : Nat) : VfuOp → I32 → I32
  | .not, a => ~~~a
  | .sig, a => fl.sig frac a
  | .tanh, a => fl.tanh frac a
  | .relu, a => if (0 : I32).sle a then a else 0
  | _, a => a

/-- Elements of the binary handlers (vfu.py:141-168): `int32` arithmetic wraps around; `>>` is
arithmetic; `//` rounds toward minus infinity (numpy maps the overflowing case `-2^31 // -1` to
`-2^31`). -/
def vfuBinary (frac : Nat) : VfuOp → I32 → I32 → I32
  | .and, a, b => a &&& b
  | .or, a, b => a ||| b
  | .add, a, b => a + b
  | .sub, a, b => a - b
  | .mul, a, b => (a * b).sshiftRight frac
  | .div, a, b => BitVec.ofInt 32 ((a <<< frac).toInt.fdiv b.toInt)
  | .min, a, b => if a.sle b then a else b
  | .max, a, b => if a.sle b then b else a
  | _, a, _ => a

/-- `_update_stats` with the operation classes of `calculate` (vfu.py:110-116, 191-200). -/
def VfuStats.update (s : VfuStats) (opcode : VfuOp) (length : Nat) : VfuStats :=
  let s := { s with totalOperations := s.totalOperations + length }
  match opcode with
  | .mul => { s with mulOperations := s.mulOperations + length }
  | .div => { s with divOperations := s.divOperations + length }
  | .sig | .tanh => { s with actOperations := s.actOperations + length }
  | _ => { s with otherOperations := s.otherOperations + length }

/-- `np.clip(result, min_value, max_value)` (vfu.py:69-70, 137). The bounds are Python ints; clipping
an `int32` by bounds of opposite signs stays in `int32`. -/
def vfuClip (width : Nat) (x : I32) : I32 :=
  BitVec.ofInt 32 (npClip x.toInt (-1 * 2 ^ width) (2 ^ width - 1))

/-- The handler call of `calculate` (vfu.py:118-131), including the zero test of `_handle_div`. -/
def vfuHandle (fl : FloatActs) (frac : Nat) (opcode : VfuOp) (a : List I32) (b : Option (List I32)) :
    Except PyErr (List I32) :=
  if opcode.unary then .ok (a.map (vfuUnary fl frac opcode))
  else match b with
    | none => .error .valueError
    | some b =>
      if opcode = .div ∧ b.any (fun y => y == 0) then .error .zeroDivisionError
      else broadcast2 (vfuBinary frac opcode) a b

/-- Conversion of the second operand with its length test (vfu.py:105-108). -/
def vfuSecond (length : Nat) : Option Operand → Except PyErr (Option (List I32))
  | none => .ok none
  | some (.arr v) => .ok (some v)
  | some (.int v) =>
      match (Operand.int v).toArray with
      | .error e => .error e
      | .ok b => if b.length ≠ length then .error .valueError else .ok (some b)

/-- `VFU.calculate` (vfu.py:95-139). -/
def VfuStats.calculate (s : VfuStats) (fl : FloatActs) (d : DataConfig) (opcode : VfuOp)
    (a : Operand) (b : Option Operand := none) : Res VfuStats (List I32) :=
  match a.toArray with
  | .error e => (.error e, s)
  | .ok a =>
    match vfuSecond a.length b with
    | .error e => (.error e, s)
    | .ok b =>
      match vfuHandle fl d.activationFracBits opcode a b with
      | .error e => (.error e, s)
      | .ok r => (.ok (r.map (vfuClip d.activationWidth)), s.update opcode a.length)

end Ramwich
