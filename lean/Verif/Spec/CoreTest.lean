import Verif.Spec.TileTest

/-! # tests/test_core_features.py -/
namespace Ramwich.Spec

/-- The weights that the test loads: one matrix into each core of tile 2 (tests/test_core_features.py:93-98). -/
def coreTestWeights (mat0 mat1 : List (List ℚ)) : Nat → Nat → List (Nat × List (List ℚ))
  | 2, 0 => [(0, mat0)]
  | 2, 1 => [(0, mat1)]
  | _, _ => []

/-- The node of the test when `env.run()` is called (tests/test_core_features.py:17-54): the operations of the cores of tile 2 are
those of the tile test, no tile has operations, the activation is in the DRAM of tile 2 and valid, the weights are
loaded. Simplification: the test runs tile 2 only; here the cores of the other tiles run too, with the program `hlt`, which does
nothing to tile 2. -/
structure coreTest (mat0 mat1 : List (List ℚ)) (activation : List Int) (i : SysInit) : Prop where
  prog : i.prog = tileFixedProg
  ops : i.ops = fun _ => []
  lists : i.ok
  size : ∀ t < 3, (i.mem t).size = tileTestBuilt.tileConfig.edramSize
  words : ∀ j < 128, wordsOf (i.mem 2) j = activation.getD j 0
  valid : ∀ t < 3, ∀ a, (i.valid t).getD a false = decide (t = 2 ∧ a < 128)
  core : ∀ t < 3, ∀ k < 2, ∃ fl, i.core t k =
    (Core.new tileTestBuilt).after fl ((coreTestWeights mat0 mat1 t k).map fun w => .load w.1 w.2)

/-- The matrices and the activation have the sizes of the test (tests/test_core_features.py:44, 95-96). -/
def coreTestSizes (mat0 mat1 : List (List ℚ)) (activation : List Int) : Prop :=
  activation.length = 128 ∧ ∀ m ∈ [mat0, mat1], m.length = 128 ∧ ∀ row ∈ m, row.length = 128

/-- Entry of a matrix. -/
def entry (m : List (List ℚ)) (r c : Nat) : ℚ := (m.getD r []).getD c 0

/-- What one bit before and seven bits after the point hold of an integer weight: its parity, with its sign. -/
def parity (w : Int) : Int := w.sign * (w.natAbs % 2 : Nat)

/-- The two layers for integers: products with the parities of the weights, each clipped to 0..255. -/
def parityOutput (m0 m1 : Nat → Nat → Int) (x : Nat → Int) : List Int :=
  (List.range 128).map fun r => min 255 (max 0 (∑ j ∈ Finset.range 128, parity (m1 r j) *
    min 255 (max 0 (∑ c ∈ Finset.range 128, parity (m0 j c) * x c))))

/-- Not all 128 weights of a row are odd and of the same sign. -/
def mixedRows (m : Nat → Nat → Int) : Prop :=
  ∀ r < 128, (∃ j < 128, parity (m r j) ≠ 1) ∧ ∃ j < 128, parity (m r j) ≠ -1

end Ramwich.Spec
