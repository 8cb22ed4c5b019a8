import Verif.Spec.Accuracy

/-! # What tests/test_mvm.py compares -/
namespace Ramwich.Spec

/-- Element `r` of `expected_output`: the product of the matrix of the file with the vector times `2^-8`
(tests/test_mvm.py:31). -/
def expectedDot (size : Nat) (W : List (List ℚ)) (x : List Int) (r : Nat) : ℚ :=
  ∑ j ∈ Finset.range size, (W.getD r []).getD j 0 * ((x.getD j 0 : ℚ) / 2 ^ 8)

/-- The sum of the inputs, as numbers with 8 fraction bits. -/
def inputSum (size : Nat) (x : List Int) : ℚ := ∑ j ∈ Finset.range size, (x.getD j 0 : ℚ) / 2 ^ 8

/-- Output register `r` of a unit that executes a product with these weights, inputs and errors, as an integer. -/
def registerValue (p : UnitParams) (W : Nat → Nat → ℚ) (e : MvmErrors) (x : List Int) (r : Nat) : Int :=
  wrap32 ((p.analog (e.pos 0) (e.neg 0)).mvmValue p.storage p.frac p.size p.res p.width p.adcBits W (fun j => x.getD j 0) r)

end Ramwich.Spec
