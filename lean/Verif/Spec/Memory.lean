import Verif.Model.Py

/-! # Specification of a word memory -/
namespace Ramwich.Spec

/-- Requests to a memory. -/
inductive MemOp
  | read (start length batch : Int)
  | write (start : Int) (values : List I32) (batch : Int)
  deriving DecidableEq

/-- The request lies inside a memory of `size` words. -/
def MemOp.inRange (size : Nat) : MemOp → Bool
  | .read start length _ => decide (0 ≤ start ∧ start + length ≤ size ∧ 0 < length)
  | .write start values _ => decide (0 ≤ start ∧ start + values.length ≤ size)

/-- The value that a request stores at address `a`, if any. -/
def MemOp.stores (size : Nat) (a : Nat) : MemOp → Option I32
  | .read _ _ _ => none
  | .write start values b =>
      if (MemOp.write start values b).inRange size ∧ start ≤ a ∧ (a : Int) < start + values.length then
        values[a - start.toNat]?
      else none

/-- The value of address `a` after a history (oldest first): the last value stored there, 0 if
none. -/
def lastStored (size : Nat) (ops : List MemOp) (a : Nat) : I32 :=
  ((ops.filterMap (MemOp.stores size a)).getLast?).getD 0

/-- What a request answers after a history. -/
def memAnswer (size : Nat) (ops : List MemOp) : MemOp → Except PyErr (List I32)
  | .read start length _ =>
      if start < 0 ∨ start + length > size then .error .indexError
      else if length ≤ 0 then .error .valueError
      else .ok ((List.range length.toNat).map fun i => lastStored size ops (start.toNat + i))
  | .write start values _ =>
      if start < 0 ∨ start + values.length > size then .error .indexError else .ok []

/-- Sum of a quantity over the accepted requests of a history. -/
def total (size : Nat) (f : MemOp → Int) (ops : List MemOp) : Int :=
  ((ops.filter (MemOp.inRange size)).map f).sum

/-- `batch` of reads. -/
def MemOp.readBatch : MemOp → Int
  | .read _ _ b => b
  | _ => 0
/-- Words read. -/
def MemOp.readLen : MemOp → Int
  | .read _ l _ => l
  | _ => 0
/-- `batch` of writes. -/
def MemOp.writeBatch : MemOp → Int
  | .write _ _ b => b
  | _ => 0
/-- Words written. -/
def MemOp.writeLen : MemOp → Int
  | .write _ v _ => v.length
  | _ => 0

end Ramwich.Spec
