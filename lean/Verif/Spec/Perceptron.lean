import Verif.Spec.Dataflow
import Verif.Spec.Mnist

/-! # What the example of the repository computes -/
namespace Ramwich.Spec

/-- The saturating sum of blocks: the second block plus the first, the third plus that, and so on. -/
def CoreParams.sumUp (p : CoreParams) : List (List Int) → List Int
  | [] => []
  | x :: xs => xs.foldl (fun acc y => p.plus y acc) x

/-- A layer of a perceptron. The outputs come in blocks of the sizes `sizes`; the block number `j` is the sum over all
input blocks `x` (number `i`) of the products of `x` with a matrix of its own: matrix number `first + j * (number of input
blocks) + i`. The first `n` elements of the product of `x` with matrix number `g` are `mul g x n`. -/
def CoreParams.layer (p : CoreParams) (mul : Nat → List Int → Nat → List Int) (first : Nat) (sizes : List Nat)
    (xs : List (List Int)) : List (List Int) :=
  sizes.zipIdx.map fun (n, j) => p.sumUp (xs.zipIdx.map fun (x, i) => mul (first + j * xs.length + i) x n)

/-- The perceptron: 784 inputs (in blocks of 128, the last one of 16), hidden layers of 1024, 512 and 200 rectified
linear neurons, 10 outputs. Its 98 matrices are numbered from 0 layer by layer. -/
def CoreParams.perceptron (p : CoreParams) (mul : Nat → List Int → Nat → List Int) (image : List Int) : List Int :=
  let x := (List.range 7).map fun i => (image.drop (128 * i)).take 128
  let h₁ := (p.layer mul 0 (List.replicate 8 128) x).map p.rectified
  let h₂ := (p.layer mul 56 (List.replicate 4 128) h₁).map p.rectified
  let h₃ := (p.layer mul 88 [128, 72] h₂).map p.rectified
  (p.layer mul 96 [10] h₃).flatten

/-- Matrix number `g` is in unit `g % 6` of core `g / 6 % 8` of tile `2 + g / 48`: six units in a core, eight cores in a
tile, from tile 2 on. `weights t k m` are the weights of unit `m` of core `k` of tile `t`; `errors t k n` are the
conductance errors when operation `n` of that core is executed, which for matrix `g` is the first `mvm` of its unit. -/
def mnistMul (p : CoreParams) (weights : Nat → Nat → Nat → Nat → Nat → ℚ) (errors : Nat → Nat → Nat → MvmErrors)
    (g : Nat) (x : List Int) (n : Nat) : List Int :=
  let t := 2 + g / 48
  let k := g / 6 % 8
  let m := g % 6
  p.product (weights t k m) (errors t k ((mnistProg t k).findIdx (· = .mvm [(m : Int)]))) x n

end Ramwich.Spec
