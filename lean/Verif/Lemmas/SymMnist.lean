import Verif.Lemmas.SymNode
import Verif.Spec.Perceptron

/-! # The formula of the example of the repository -/
namespace Ramwich

open Spec

/-- `sumUp` for formulas. -/
def Val.sumUp : List Val → Val
  | [] => .input 0 0
  | x :: xs => xs.foldl (fun acc y => .add y acc) x

/-- `layer` for formulas. -/
def Val.layer (mul : Nat → Val → Nat → Val) (first : Nat) (sizes : List Nat) (xs : List Val) : List Val :=
  sizes.zipIdx.map fun (n, j) => Val.sumUp (xs.zipIdx.map fun (x, i) => mul (first + j * xs.length + i) x n)

def mnistBlocks : List Val := (List.range 7).map fun i => .input (128 * i) (min 128 (784 - 128 * i))

/-- `perceptron` for formulas. -/
def Val.perceptron (mul : Nat → Val → Nat → Val) : List Val :=
  let h₁ := (Val.layer mul 0 (List.replicate 8 128) mnistBlocks).map .relu
  let h₂ := (Val.layer mul 56 (List.replicate 4 128) h₁).map .relu
  let h₃ := (Val.layer mul 88 [128, 72] h₂).map .relu
  Val.layer mul 96 [10] h₃

/-- `mnistMul` for formulas. -/
def Val.mnistMul (g : Nat) (x : Val) (n : Nat) : Val :=
  let t := 2 + g / 48
  let k := g / 6 % 8
  let m := g % 6
  .mvm t k ((mnistProg t k).findIdx (· = .mvm [(m : Int)])) m x n

def mnistInput : Known := (List.range 7).map fun i => ((0, 128 * i, min 128 (784 - 128 * i)), .input (128 * i) (min 128 (784 - 128 * i)))

/-- An order in which the blocks of the DRAMs can be evaluated. -/
def mnistFacts : List Fact :=
  [.move 0 3 0, .store 3 1 1, .move 0 3 1, .store 3 1 2, .move 0 3 2, .store 3 0 1, .move 0 3 3, .store 3 0 2,
   .move 0 3 4, .store 3 0 3, .move 0 3 5, .store 3 0 4, .move 0 3 6, .store 3 0 0, .store 3 0 5, .store 3 1 0,
   .move 3 2 0, .move 3 2 1, .move 3 2 2, .move 3 2 3, .move 3 2 4, .move 3 2 5, .store 2 0 0, .store 2 1 0,
   .store 2 2 0, .store 2 3 0, .store 2 4 0, .store 2 5 0, .store 2 7 0, .move 2 3 0, .store 3 0 6, .move 3 2 6,
   .store 2 1 1, .store 2 2 1, .store 2 3 1, .store 2 4 1, .store 2 5 1, .store 2 6 0, .move 2 3 1, .move 2 3 2,
   .move 2 3 3, .move 2 3 4, .move 2 3 5, .move 2 3 6, .store 3 1 3, .store 3 2 0, .store 3 2 1, .store 3 3 0,
   .store 3 4 0, .store 3 5 0, .store 3 5 1, .store 3 6 0, .store 3 6 1, .store 3 7 0, .store 3 7 1, .move 3 4 0,
   .move 3 4 1, .store 4 0 0, .move 4 1 0]

set_option maxRecDepth 10000 in
theorem mnist_formula : ((learnAll (coreParamsOf mnistBuilt id id).place mnistProg mnistOps mnistInput mnistFacts).bind
    fun known => known.lookup (1, 0, 10)) = (Val.perceptron Val.mnistMul).head? := by decide +kernel

end Ramwich
