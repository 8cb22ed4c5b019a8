import Verif.Spec.Mvm

/-! # Abstract matrix-vector unit

What a user of one MVMU sees: a weight matrix, a vector of inputs, a vector of outputs. Everything
is ordinary integer arithmetic. -/
namespace Ramwich.Spec

/-- What can be done with a matrix-vector unit. `mvm` carries the conductance errors of that
execution (read noise). -/
inductive UnitOp
  | load (weights : List (List ℚ))
  | write (start : Int) (values : List Int)
  | mvm (errPos errNeg : Nat → Nat → Nat → Nat → ℚ)
  | read (start length : Int)
  | reset

/-- Fixed parameters of a unit. -/
structure UnitParams where
  storage : List BitConfig
  frac : Nat
  size : Nat
  res : Nat
  width : Nat
  adcBits : Nat
  gmin : ℚ
  gmax : ℚ
  hasNoise : Bool

/-- State of the abstract unit. -/
structure UnitState where
  weights : Nat → Nat → ℚ := fun _ _ => 0
  inputs : Nat → Int := fun _ => 0
  outputs : Nat → Int := fun _ => 0

/-- Two's complement 32-bit value of an integer. -/
def wrap32 (v : Int) : Int := Int.bmod v (2 ^ 32)

/-- Analog parameters of one execution. -/
def UnitParams.analog (p : UnitParams) (errPos errNeg : Nat → Nat → Nat → Nat → ℚ) : Analog where
  gmin := p.gmin
  gmax := p.gmax
  errPos := fun i k r j => if p.hasNoise then errPos i k r j else 0
  errNeg := fun i k r j => if p.hasNoise then errNeg i k r j else 0

/-- The answer to an operation and the next state. -/
def UnitParams.step (p : UnitParams) (s : UnitState) : UnitOp → Except PyErr (List Int) × UnitState
  | .load w =>
      if w.length = p.size ∧ (∀ row ∈ w, row.length = p.size) then
        (.ok [], { s with weights := fun r j => (w.getD r []).getD j 0 })
      else (.error .valueError, s)
  | .write start values =>
      if 0 ≤ start ∧ start + values.length ≤ p.size then
        (.ok [], { s with
          inputs := fun j =>
            if start ≤ j ∧ (j : Int) < start + values.length then
              wrap32 (values.getD (j - start.toNat) 0)
            else s.inputs j })
      else (.error .indexError, s)
  | .mvm ep en =>
      (.ok [], { s with
        outputs := fun r => wrap32 ((p.analog ep en).mvmValue p.storage p.frac p.size p.res p.width
          p.adcBits s.weights s.inputs r)
        inputs := fun j => s.inputs j / 2 ^ (p.res * numSlices p.width p.res) })
  | .read start length =>
      if length ≤ 0 then (.ok [], s)
      else if 0 ≤ start ∧ start + length ≤ p.size then
        (.ok ((List.range length.toNat).map fun i => s.outputs (start.toNat + i) / 2 ^ p.frac), s)
      else (.error .valueError, s)
  | .reset =>
      if ∃ b ∈ p.storage, b ≠ .sram then
        (.ok [], { s with inputs := fun _ => 0, outputs := fun _ => 0 })
      else (.error .attributeError, s)

/-- Answers to a sequence of operations, oldest first. -/
def UnitParams.run (p : UnitParams) : UnitState → List UnitOp → List (Except PyErr (List Int))
  | _, [] => []
  | s, op :: ops => (p.step s op).1 :: p.run (p.step s op).2 ops

/-- The state after a sequence of operations. -/
def UnitParams.exec (p : UnitParams) (s : UnitState) (ops : List UnitOp) : UnitState :=
  ops.foldl (fun s op => (p.step s op).2) s

/-- Parameters of the abstract unit for a configuration. -/
def paramsOf (c : MVMUConfig) (d : DataConfig) : UnitParams where
  storage := d.storageConfig
  frac := d.weightFracBits
  size := c.xbarSize
  res := c.dacResolution
  width := d.activationWidth
  adcBits := c.adcResolution
  gmin := c.conductanceMin
  gmax := c.conductanceMax
  hasNoise := c.hasNoise

/-- A configuration the simulator can run: the flags that are derived are not set by hand, converter
resolutions have an entry in the latency tables when analog crossbars are present, and electrical
parameters make sense. -/
structure Simulable (c : Config) : Prop where
  rramFlag : c.mvmuConfig.haveRramXbar = false
  sramFlag : c.mvmuConfig.haveSramXbar = false
  resPos : 0 < c.mvmuConfig.dacResolution
  resLt : c.mvmuConfig.dacResolution < 32
  dacTable : (∃ b ∈ c.dataConfig.storageConfig, b ≠ .sram) →
    c.mvmuConfig.dacResolution ∈ [1, 2, 4, 8, 16]
  adcTable : (∃ b ∈ c.dataConfig.storageConfig, b ≠ .sram) →
    c.mvmuConfig.adcResolution ∈ [1, 2, 4, 8, 16]
  gminNonneg : 0 ≤ c.mvmuConfig.conductanceMin
  gminLt : c.mvmuConfig.conductanceMin < c.mvmuConfig.conductanceMax
  vddPos : 0 < c.mvmuConfig.vdd

end Ramwich.Spec
