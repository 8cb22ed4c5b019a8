import Verif.Lemmas.Lists
import Mathlib.Data.BitVec

/-! # Machine integer facts -/
namespace Ramwich

theorem setWidth_ofInt (a : Int) : (BitVec.ofInt 64 a).setWidth 32 = BitVec.ofInt 32 a := by
  apply BitVec.eq_of_toNat_eq
  rw [BitVec.toNat_setWidth, BitVec.toNat_ofInt, BitVec.toNat_ofInt]
  norm_num
  omega

theorem ofInt_shiftLeft (w s : Nat) (a : Int) :
    BitVec.ofInt w a <<< s = BitVec.ofInt w (2 ^ s * a) := by
  rw [BitVec.shiftLeft_eq_mul_twoPow, Int.mul_comm, BitVec.ofInt_mul]
  congr 1
  apply BitVec.eq_of_toNat_eq
  rw [BitVec.toNat_twoPow, BitVec.toNat_ofInt]
  norm_cast

theorem ofInt_sum (w n : Nat) (f : Nat → Int) :
    ((List.range n).map fun k => BitVec.ofInt w (f k)).sum
      = BitVec.ofInt w (∑ k ∈ Finset.range n, f k) := by
  induction n with
  | zero => simp
  | succ n ih =>
    rw [List.range_succ, List.map_append, List.sum_append, ih, Finset.sum_range_succ,
      BitVec.ofInt_add]
    simp

/-- Shift, add and truncation of the shift-and-add unit, as integer arithmetic modulo `2^32`. -/
theorem sna_value (n i : Nat) (s : Nat → Nat) (v : Nat → Int) (c : I32) :
    ((((List.range n).map fun k => BitVec.ofInt 64 (v k) <<< s k).sum <<< i)
        + c.signExtend 64).setWidth 32
      = c + BitVec.ofInt 32 (2 ^ i * ∑ k ∈ Finset.range n, 2 ^ s k * v k) := by
  simp only [ofInt_shiftLeft, ofInt_sum]
  rw [BitVec.signExtend, ← BitVec.ofInt_add, setWidth_ofInt, BitVec.ofInt_add, BitVec.ofInt_toInt,
    BitVec.add_comm]

theorem ofInt_toInt_mul (a t : Int) :
    BitVec.ofInt 32 (a * (BitVec.ofInt 32 t).toInt) = BitVec.ofInt 32 (a * t) := by
  rw [BitVec.ofInt_mul, BitVec.ofInt_toInt, ← BitVec.ofInt_mul]

end Ramwich
