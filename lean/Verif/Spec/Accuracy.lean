import Verif.Spec.Perceptron
import Verif.Spec.FileNode

/-! # The perceptron in rational numbers

The network that the MNIST example stands for: no fixed-point numbers, no crossbars, no converters. Only the saturation of
the sums is kept. -/
namespace Ramwich.Spec

/-- Saturation of numbers with `frac` fraction bits to `width` bits and a sign. -/
def saturatedTo (width frac : Nat) (v : ℚ) : ℚ := max (-2 ^ width / 2 ^ frac) (min v ((2 ^ width - 1) / 2 ^ frac))

/-- The second number plus the first, the third plus that, and so on, with saturation. -/
def satSum (sat : ℚ → ℚ) : List ℚ → ℚ
  | [] => 0
  | x :: xs => xs.foldl (fun acc y => sat (y + acc)) x

/-- A layer as in `CoreParams.layer`: element `r` of output block `j` is the sum over the input blocks `i` of the products
of row `r` of matrix `first + j * blocks + i` with the block. -/
def exactLayer (sat : ℚ → ℚ) (size : Nat) (w : Nat → Nat → Nat → ℚ) (first blocks : Nat) (sizes : List Nat)
    (x : Nat → Nat → ℚ) (j r : Nat) : ℚ :=
  if r < sizes.getD j 0 then
    satSum sat ((List.range blocks).map fun i => ∑ c ∈ Finset.range size, w (first + j * blocks + i) r c * x i c)
  else 0

/-- Rectified linear neurons. -/
def exactRelu (sat : ℚ → ℚ) (x : Nat → Nat → ℚ) (i c : Nat) : ℚ := sat (max 0 (x i c))

/-- The blocks of the image and of the hidden layers. -/
def exactInput (image : List ℚ) (i c : Nat) : ℚ := image.getD (128 * i + c) 0
def exactHidden₁ (sat : ℚ → ℚ) (w : Nat → Nat → Nat → ℚ) (image : List ℚ) : Nat → Nat → ℚ :=
  exactRelu sat (exactLayer sat 128 w 0 7 (List.replicate 8 128) (exactInput image))
def exactHidden₂ (sat : ℚ → ℚ) (w : Nat → Nat → Nat → ℚ) (image : List ℚ) : Nat → Nat → ℚ :=
  exactRelu sat (exactLayer sat 128 w 56 8 (List.replicate 4 128) (exactHidden₁ sat w image))
def exactHidden₃ (sat : ℚ → ℚ) (w : Nat → Nat → Nat → ℚ) (image : List ℚ) : Nat → Nat → ℚ :=
  exactRelu sat (exactLayer sat 128 w 88 4 [128, 72] (exactHidden₂ sat w image))

/-- The outputs of the perceptron. -/
def exactOutput (sat : ℚ → ℚ) (w : Nat → Nat → Nat → ℚ) (image : List ℚ) (r : Nat) : ℚ :=
  exactLayer sat 128 w 96 2 [10] (exactHidden₃ sat w image) 0 r

/-! ## When a unit computes its product exactly -/

/-- The weight that is stored: a multiple of `2^-frac`. -/
def roundedWeight (frac : Nat) (w : ℚ) : ℚ := fixedWeight frac w / 2 ^ frac

/-- The weights fit into the cells, no converter can saturate because the positive and the negative weights of every row
give at most the largest number of the converter in every slice, and the conductance errors of a row are together smaller
than half a step of the converter. -/
structure exactUnit (p : UnitParams) (W : Nat → Nat → ℚ) (e : MvmErrors) : Prop where
  fit : ∀ r < p.size, ∀ j < p.size, magnitude p.frac (W r j) < 2 ^ slicePos p.storage p.storage.length
  adc : ∀ r < p.size, ∀ k < p.storage.length, isRram p.storage k = true →
    ∑ j ∈ Finset.range p.size, (if 0 < W r j then level p.storage p.frac (W r j) k else 0) < 2 ^ p.adcBits ∧
    ∑ j ∈ Finset.range p.size, (if W r j < 0 then level p.storage p.frac (W r j) k else 0) < 2 ^ p.adcBits
  noise : p.hasNoise = true → ∀ err ∈ [e.pos 0, e.neg 0], ∀ i, ∀ r < p.size, ∀ k < p.storage.length,
    isRram p.storage k = true →
    ∑ j ∈ Finset.range p.size, |err i (rramRank p.storage k) r j| < p.gmax / (2 ^ bitsOf p.storage k - 1) / 2

/-! ## Bounds -/

/-- The error of a layer whose inputs have the error `δ`: `norm` bounds the sums of the absolute values of the rows,
`inputs` the sum of the absolute values of the exact inputs; `ρ` bounds the error of the weights, and each of the `blocks`
products is rounded down to a multiple of `2^-frac`. -/
def layerError (frac : Nat) (norm δ ρ inputs : ℚ) (blocks : Nat) : ℚ := norm * δ + ρ * inputs + blocks / 2 ^ frac

/-- The weights of matrix `g` and the conductance errors of its product, as in `mnistMul`. -/
def mnistWeights (weights : Nat → Nat → Nat → Nat → Nat → ℚ) (g : Nat) : Nat → Nat → ℚ :=
  weights (2 + g / 48) (g / 6 % 8) (g % 6)
def mnistErrors (errors : Nat → Nat → Nat → MvmErrors) (g : Nat) : MvmErrors :=
  errors (2 + g / 48) (g / 6 % 8) ((mnistProg (2 + g / 48) (g / 6 % 8)).findIdx (· = .mvm [((g % 6 : Nat) : Int)]))

/-- `norm ℓ` bounds the rows of the (rounded) weights `w` of layer `ℓ`, `inputs ℓ` the inputs of that layer in the exact
network with the weights `u`. -/
structure networkBounds (sat : ℚ → ℚ) (w u : Nat → Nat → Nat → ℚ) (image : List ℚ) (norm inputs : Nat → ℚ) : Prop where
  norm₁ : ∀ j < 8, ∀ r < 128, ∑ i ∈ Finset.range 7, ∑ c ∈ Finset.range 128, |roundedWeight 8 (w (0 + j * 7 + i) r c)| ≤ norm 1
  norm₂ : ∀ j < 4, ∀ r < 128, ∑ i ∈ Finset.range 8, ∑ c ∈ Finset.range 128, |roundedWeight 8 (w (56 + j * 8 + i) r c)| ≤ norm 2
  norm₃ : ∀ j < 2, ∀ r < 128, ∑ i ∈ Finset.range 4, ∑ c ∈ Finset.range 128, |roundedWeight 8 (w (88 + j * 4 + i) r c)| ≤ norm 3
  norm₄ : ∀ r < 128, ∑ i ∈ Finset.range 2, ∑ c ∈ Finset.range 128, |roundedWeight 8 (w (96 + i) r c)| ≤ norm 4
  inputs₁ : ∑ i ∈ Finset.range 7, ∑ c ∈ Finset.range 128, |exactInput image i c| ≤ inputs 1
  inputs₂ : ∑ i ∈ Finset.range 8, ∑ c ∈ Finset.range 128, |exactHidden₁ sat u image i c| ≤ inputs 2
  inputs₃ : ∑ i ∈ Finset.range 4, ∑ c ∈ Finset.range 128, |exactHidden₂ sat u image i c| ≤ inputs 3
  inputs₄ : ∑ i ∈ Finset.range 2, ∑ c ∈ Finset.range 128, |exactHidden₃ sat u image i c| ≤ inputs 4

/-- The error of the outputs. The pixels are cut off to multiples of 1/256. -/
def outputError (norm inputs : Nat → ℚ) (ρ : ℚ) : ℚ :=
  let e₁ := layerError 8 (norm 1) (1 / 256) ρ (inputs 1) 7
  let e₂ := layerError 8 (norm 2) e₁ ρ (inputs 2) 8
  let e₃ := layerError 8 (norm 3) e₂ ρ (inputs 3) 4
  layerError 8 (norm 4) e₃ ρ (inputs 4) 2

end Ramwich.Spec
