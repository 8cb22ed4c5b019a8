import Verif.Spec.EndToEnd
import Verif.Spec.Dataflow

/-! # Weights and activations of files -/
namespace Ramwich.Spec

/-- The arrays of a file of weights; none without a file. -/
def arraysIn : NpzFile → List (String × NpzArray)
  | .arrays ws => ws
  | _ => []

/-- The array as a matrix with `n` rows and columns. -/
def squareOf (n : Nat) : NpzArray → Option (List (List ℚ))
  | .matrix rows => if rows.length = n ∧ ∀ row ∈ rows, row.length = n then some rows else none
  | .other => none

/-- The matrices of the file for unit `m` of core `k` of tile `t` of node `a`, in the order of the file. -/
noncomputable def matricesIn (uni : Char → Option Nat) (c : Config) (w : NpzFile) (a t k m : Nat) : List (List (List ℚ)) :=
  (arraysFor uni a t k m (arraysIn w)).filterMap (squareOf c.mvmuConfig.xbarSize)

/-- The matrices of the file for the units of core `k` of tile `t` of node `a`. -/
noncomputable def coreMatrices (uni : Char → Option Nat) (c : Config) (w : NpzFile) (a t k : Nat) :
    List (Nat × List (List ℚ)) :=
  (List.range c.numMvmusPerCore).flatMap fun m => (matricesIn uni c w a t k m).map fun rows => (m, rows)

/-- The weights that the file gives to unit `m` of core `k` of tile `t` of node `a`: the last matrix of its size, or
zeros. -/
noncomputable def weightsIn (uni : Char → Option Nat) (c : Config) (w : NpzFile) (a t k m : Nat) : Nat → Nat → ℚ :=
  match (matricesIn uni c w a t k m).getLast? with
  | some rows => fun r j => (rows.getD r []).getD j 0
  | none => fun _ _ => 0

/-- The ids in the keys of the file have at most 4300 digits. -/
def shortIds (uni : Char → Option Nat) (w : NpzFile) : Prop :=
  ∀ e ∈ arraysIn w, ∀ a b c d l, isWeightKey uni e.1 a b c d l → l ≤ 4300

/-- The fixed-point number for `x` with `f` fraction bits, rounded towards zero. -/
def fixedPoint (f : Nat) (x : ℚ) : Int := if 0 ≤ x then ⌊x * 2 ^ f⌋ else ⌈x * 2 ^ f⌉

/-- The fixed-point number fits into a word. -/
def inRange (f : Nat) (x : ℚ) : Prop := -2 ^ 31 - 1 < x * 2 ^ f ∧ x * 2 ^ f < 2 ^ 31

/-- Transfers and lengths of the operations of node `a`: the core operations have positive lengths, and the rows that one
tile sends to another are as many and as wide as those that the other receives from it. -/
structure paired (c : Config) (ps : List Placed) (a : Nat) : Prop where
  positive : ∀ t < c.numTilesPerNode, ∀ k < c.numCoresPerTile, ∀ op ∈ upToHlt (coreProgram ps a t k), CoreOp.positive op
  matched : ∀ src < c.numTilesPerNode, ∀ dst < c.numTilesPerNode,
    rowWidths (sendShapes dst (tileProgram ps a src)) = rowWidths (recvShapes src (tileProgram ps a dst))

end Ramwich.Spec
