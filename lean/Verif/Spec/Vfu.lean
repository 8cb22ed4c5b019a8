import Verif.Model.Ops
import Verif.Spec.Unit
import Mathlib.Data.Int.Bitwise

/-! # Specification of the vector functional unit, in integer arithmetic -/
namespace Ramwich.Spec

/-- Nearest value in `[-2^width, 2^width - 1]`. -/
def clampTo (width : Nat) (v : Int) : Int := max (-2 ^ width) (min v (2 ^ width - 1))

/-- The mathematical result of an opcode on fixed-point numbers with `frac` fraction bits, before
clamping; `none` for the opcodes computed in floating point. -/
def vfuMath (frac : Nat) : VfuOp → Int → Int → Option Int
  | .and, a, b => some (Int.land a b)
  | .or, a, b => some (Int.lor a b)
  | .not, a, _ => some (-a - 1)
  | .add, a, b => some (a + b)
  | .sub, a, b => some (a - b)
  | .mul, a, b => some (Int.fdiv (a * b) (2 ^ frac))
  | .div, a, b => some (Int.fdiv (a * 2 ^ frac) b)
  | .min, a, b => some (min a b)
  | .max, a, b => some (max a b)
  | .relu, a, _ => some (max 0 a)
  | .sig, _, _ => none
  | .tanh, _, _ => none

/-- The intermediate integers that the unit computes in 32 bits. -/
def vfuIntermediates (frac : Nat) : VfuOp → Int → Int → List Int
  | .add, a, b => [a + b]
  | .sub, a, b => [a - b]
  | .mul, a, b => [a * b]
  | .div, a, b => [a * 2 ^ frac, Int.fdiv (a * 2 ^ frac) b]
  | _, _, _ => []

/-- Fits in a 32-bit signed integer. -/
def fits32 (v : Int) : Prop := -2 ^ 31 ≤ v ∧ v < 2 ^ 31

instance (v : Int) : Decidable (fits32 v) := by unfold fits32; infer_instance

/-- What the unit computes in all cases: 32-bit wrap-around of the intermediates. -/
def vfuValue (sig tanh : Int → Int) (frac : Nat) : VfuOp → Int → Int → Int
  | .and, a, b => Int.land a b
  | .or, a, b => Int.lor a b
  | .not, a, _ => -a - 1
  | .add, a, b => wrap32 (a + b)
  | .sub, a, b => wrap32 (a - b)
  | .mul, a, b => Int.fdiv (wrap32 (a * b)) (2 ^ frac)
  | .div, a, b => wrap32 (Int.fdiv (wrap32 (a * 2 ^ frac)) b)
  | .min, a, b => min a b
  | .max, a, b => max a b
  | .relu, a, _ => max 0 a
  | .sig, a, _ => sig a
  | .tanh, a, _ => tanh a

/-- Opcodes that ignore a second operand. -/
def vfuIsUnary (op : VfuOp) : Bool := op = .not ∨ op = .sig ∨ op = .tanh ∨ op = .relu

/-- Elementwise result of a vector operation on operands of equal length. -/
def vfuVector (sig tanh : Int → Int) (frac width : Nat) (op : VfuOp) (a : List Int)
    (b : Option (List Int)) : Except PyErr (List Int) :=
  if vfuIsUnary op then .ok (a.map fun x => clampTo width (vfuValue sig tanh frac op x 0))
  else match b with
    | none => .error .valueError
    | some b =>
      if op = .div ∧ 0 ∈ b then .error .zeroDivisionError
      else .ok (List.zipWith (fun x y => clampTo width (vfuValue sig tanh frac op x y)) a b)

end Ramwich.Spec
