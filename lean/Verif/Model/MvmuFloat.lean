import Verif.Model.MvmuApi
import Mathlib.Data.Int.Log

/-! # The matrix-vector unit in float64

`Model/Mvmu.lean` computes with exact rationals. Here every float64 operation of the Python code is rounded: the
weights (data_convert.py), the DAC, the crossbars, the step and the quotients of the ADC. What is integer
arithmetic in the code (SRAM crossbars, shift-and-add, registers) and all counters are taken from
`Model/Mvmu.lean`. -/
namespace Ramwich

open Spec

/-- The float64 nearest to `x`, ties to even: 53 significant bits. The range of exponents is not bounded, i.e.
overflow (above `2^1024`) and gradual underflow (below `2^-1022`) are not modelled
(numpy float64 in mvmu.py, dac.py, rram_xbar.py, adc.py). -/
def f64 (x : ℚ) : ℚ :=
  if x = 0 then 0
  else
    let e := Int.log 2 |x|
    (roundHalfEven (x * 2 ^ (52 - e)) : ℚ) * 2 ^ (e - 52)

/-- In which order `np.einsum` adds the products of one row (rram_xbar.py:91-95): numpy does not say; with
vector instructions there are several accumulators that start at 0, and products may be added with one
rounding (`fma`). -/
inductive SumPlan
  | zero
  | term (j : Nat)
  | add (a b : SumPlan)
  | fma (j : Nat) (a : SumPlan)
  deriving DecidableEq, Repr

/-- The positions whose products are added (rram_xbar.py:91-95). -/
def SumPlan.terms : SumPlan → List Nat
  | .zero => []
  | .term j => [j]
  | .add a b => a.terms ++ b.terms
  | .fma j a => j :: a.terms

/-- The greatest number of roundings on the way of a product into the sum (rram_xbar.py:91-95). -/
def SumPlan.depth : SumPlan → Nat
  | .zero => 0
  | .term _ => 1
  | .add a b => max a.depth b.depth + 1
  | .fma _ a => a.depth + 1

/-- The sum (rram_xbar.py:91-95). -/
def SumPlan.eval (row v : List ℚ) : SumPlan → ℚ
  | .zero => 0
  | .term j => f64 (row.getD j 0 * v.getD j 0)
  | .add a b => f64 (a.eval row v + b.eval row v)
  | .fma j a => f64 (row.getD j 0 * v.getD j 0 + a.eval row v)

/-- The plans of one `execute_mvm`, by slice, crossbar and row, for the positive and the negative crossbars
(rram_xbar.py:91-95, mvmu.py:141-155). -/
structure Plans where
  pos : Nat → Nat → Nat → SumPlan
  neg : Nat → Nat → Nat → SumPlan

/-- `np.einsum("ikj,j->ik", mats, v)` (rram_xbar.py:91-95). -/
def einsumF (plan : Nat → Nat → SumPlan) (mats : List (List (List ℚ))) (v : List ℚ) : List (List ℚ) :=
  mats.mapIdx fun k mat => mat.mapIdx fun r row => (plan k r).eval row v

/-- `int_to_conductance` (data_convert.py:1-4). -/
def intToConductanceF (intData bits : Nat) (gmin gmax : ℚ) : Except PyErr ℚ :=
  if ¬ intData < 2 ^ bits then .error .assertionError
  else if bits = 0 then .error .zeroDivisionError
  else
    let step := f64 (f64 (gmax - gmin) / (2 ^ bits - 1))
    .ok (f64 (gmin + f64 (intData * step)))

/-- `float_to_fixed` (data_convert.py:7-12). -/
def floatToFixedF (floatVal : ℚ) (fractionalBits : Nat) : Int :=
  roundHalfEven (f64 (floatVal * 2 ^ fractionalBits))

/-- One iteration of the crossbar loop of `load_weights` (mvmu.py:98-120). -/
def Mvmu.loadStepF (m : Mvmu) (signs : List (List Int)) (intWeights : List (List Nat))
    (acc : LoadAcc) (k : Nat) : Except PyErr LoadAcc := do
  let xbarInt ← vectorize (fun v => extractBits v (m.cfg.storedBit.getD k 0)
    (m.cfg.storedBit.getD (k + 1) 0)) intWeights
  if m.cfg.isXbarRram.getD k false then
    let cond ← vectorize (fun v => intToConductanceF v (m.cfg.bitsPerCell.getD k 0)
      m.cfg.conductanceMin m.cfg.conductanceMax) xbarInt
    .ok { acc with
      rram := acc.rram.set acc.rramIdx
        (List.zipWith (List.zipWith fun (s : Int) (g : ℚ) => f64 ((s : ℚ) * g)) signs cond)
      rramIdx := acc.rramIdx + 1 }
  else
    .ok { acc with
      sram := acc.sram.set acc.sramIdx
        (List.zipWith (List.zipWith fun (s : Int) (v : Nat) => s * (v : Int)) signs xbarInt)
      sramIdx := acc.sramIdx + 1 }

/-- `MVMU.load_weights` (mvmu.py:73-126). -/
def Mvmu.loadWeightsF (m : Mvmu) (weights : List (List ℚ)) : Except PyErr Mvmu :=
  if ¬ shape2 weights m.cfg.xbarSize m.cfg.xbarSize then .error .valueError
  else do
    let signs := weights.map fun r => r.map npSign
    let intWeights := weights.map fun r => r.map fun w =>
      (floatToFixedF |w| m.data.weightFracBits).toNat
    let acc ← (List.range m.cfg.numXbarPerMvmu).foldlM (m.loadStepF signs intWeights)
      { rram := zeros3 m.cfg.numRramXbarPerMvmu m.cfg.xbarSize m.cfg.xbarSize
        sram := zeros3 m.cfg.numSramXbarPerMvmu m.cfg.xbarSize m.cfg.xbarSize }
    let rram ← m.loadRram acc.rram
    let sram ← m.loadSram acc.sram
    .ok { m with rram := rram, sram := sram }

/-- `DACArray.convert` (dac.py:51-70). -/
def dacConvertF (cfg : MVMUConfig) (st : DACStats) (digital : List I32) :
    Except PyErr (List ℚ × DACStats) :=
  if digital.length ≠ cfg.xbarSize then .error .valueError
  else
    let maxValue : Nat := (1 <<< cfg.dacResolution) - 1
    let analog := digital.map fun x =>
      let fraction : ℚ := f64 ((x.toInt : ℚ) / maxValue)
      f64 (npClip fraction 0 1 * cfg.vdd)
    match cfg.dacLat with
    | none => .error .typeError
    | some lat => .ok (analog, { st with
        conversions := st.conversions + cfg.xbarSize
        activeCycles := st.activeCycles + lat })

/-- `xbar + noise` elementwise (rram_xbar.py:89-90). -/
def addNoiseF (x : List (List (List ℚ))) (noise : Nat → Nat → Nat → ℚ) : List (List (List ℚ)) :=
  x.mapIdx fun k mat => mat.mapIdx fun r row => row.mapIdx fun j g => f64 (g + noise k r j)

/-- `RRAMXbarArray.execute_mvm` (rram_xbar.py:65-100). -/
def RRAMXbar.executeMvmF (cfg : MVMUConfig) (x : RRAMXbar) (noise : Noise) (pos neg : Nat → Nat → SumPlan)
    (input : List ℚ) : Except PyErr ((List (List ℚ) × List (List ℚ)) × RRAMXbar) :=
  if input.length ≠ cfg.xbarSize then .error .valueError
  else
    let posMat := if cfg.hasNoise then addNoiseF x.posXbar noise.pos else x.posXbar
    let negMat := if cfg.hasNoise then addNoiseF x.negXbar noise.neg else x.negXbar
    .ok ((einsumF pos posMat input, einsumF neg negMat input),
      { x with mvmOperations := x.mvmOperations + cfg.numRramXbarPerMvmu * 2 })

/-- `ADCArray.current_step` (adc.py:68-75). -/
def MVMUConfig.currentStepF (cfg : MVMUConfig) (bits : Nat) : ℚ :=
  f64 (f64 (cfg.vdd / (2 ^ cfg.dacResolution - 1)) *
    f64 (f64 (cfg.conductanceMax - cfg.conductanceMin) / (2 ^ bits - 1)))

/-- `int_values` before clipping, for one ADC (adc.py:93-98). -/
def adcIntF (step pos neg : ℚ) : Int := roundHalfEven (f64 (pos / step)) - roundHalfEven (f64 (neg / step))

/-- `ADCArray.convert` (adc.py:80-117). The statistic `conversion_errors` is not modelled here (it keeps its
value); nothing reads it. -/
def adcConvertF (cfg : MVMUConfig) (st : ADCStats) (pos neg : List (List ℚ)) :
    Except PyErr (List (List Int) × ADCStats) :=
  if ¬ (shape2 pos cfg.numRramXbarPerMvmu cfg.numAdcPerXbar ∧
        shape2 neg cfg.numRramXbarPerMvmu cfg.numAdcPerXbar) then .error .valueError
  else
    let steps := cfg.xbarBits.map cfg.currentStepF
    let ints := adcZip adcIntF steps pos neg
    let overflow := (ints.map fun r => r.countP fun v => v > cfg.adcMax ∨ v < -cfg.adcMax).sum
    let clipped := ints.map fun r => r.map fun v => npClip v (-cfg.adcMax) cfg.adcMax
    match cfg.adcLat with
    | none => .error .typeError
    | some lat => .ok (clipped, {
        conversions := st.conversions + cfg.adcSize
        overflowTimes := st.overflowTimes + overflow
        conversionErrors := st.conversionErrors
        activeCycles := st.activeCycles + lat })

/-- RRAM part of the column loop: MUX selection and ADC conversion (mvmu.py:165-171). -/
def Mvmu.rramColumnF (m : Mvmu) (xo : XbarOut) (j : Nat) : Except PyErr (List (List Int) × Mvmu) :=
  if m.cfg.haveRramXbar then do
    let p ← muxSelect 0 m.cfg m.cfg.numRramXbarPerMvmu m.muxPosSelections xo.pos j
    let n ← muxSelect 0 m.cfg m.cfg.numRramXbarPerMvmu m.muxNegSelections xo.neg j
    let out ← adcConvertF m.cfg m.adcStats p.1 n.1
    .ok (out.1, { m with muxPosSelections := p.2, muxNegSelections := n.2, adcStats := out.2 })
  else .ok ([], m)

/-- Body of the column loop of `execute_mvm` (mvmu.py:163-201). In a unit with both kinds of crossbars the
numbers pass through a float64 array (mvmu.py:187-191); they are integers below `2^32`, hence exact. -/
def Mvmu.columnStepF (i : Nat) (xo : XbarOut) (m : Mvmu) (j : Nat) : Except PyErr Mvmu := do
  let r ← m.rramColumnF xo j
  let s ← r.2.sramColumn xo j
  let calcOut ← selectOutputs m.cfg r.1 s.1
  s.2.accumulate calcOut i j

/-- RRAM part of one bit slice: DAC, crossbars, sample-and-hold (mvmu.py:146-155). -/
def Mvmu.rramSliceF (m : Mvmu) (noise : Noise) (pos neg : Nat → Nat → SumPlan) (slice : List I32) :
    Except PyErr ((List (List ℚ) × List (List ℚ)) × Mvmu) :=
  if m.cfg.haveRramXbar then do
    let volts ← dacConvertF m.cfg m.dacStats slice
    let out ← m.rram.executeMvmF m.cfg noise pos neg volts.1
    .ok (out.1, { m with
      dacStats := volts.2
      rram := out.2
      snhPosSamples := m.snhPosSamples + m.cfg.numRramXbarPerMvmu * m.cfg.xbarSize
      snhNegSamples := m.snhNegSamples + m.cfg.numRramXbarPerMvmu * m.cfg.xbarSize })
  else .ok (([], []), m)

/-- Body of the bit-slice loop of `execute_mvm` (mvmu.py:141-201). -/
def Mvmu.sliceStepF (noise : Nat → Noise) (plans : Plans) (m : Mvmu) (i : Nat) : Except PyErr Mvmu := do
  let slice := m.inreg.read m.cfg.dacResolution
  let r ← { m with inreg := slice.2 }.rramSliceF (noise i) (plans.pos i) (plans.neg i) slice.1
  let s ← r.2.sramSlice slice.1
  (List.range m.cfg.numColumnsPerAdc).foldlM
    (Mvmu.columnStepF i { pos := r.1.1, neg := r.1.2, sram := s.1 }) s.2

/-- `MVMU.execute_mvm` (mvmu.py:128-201). -/
def Mvmu.executeMvmF (m : Mvmu) (noise : Nat → Noise) (plans : Plans) : Except PyErr Mvmu :=
  if m.cfg.dacResolution = 0 then .error .zeroDivisionError
  else if 32 ≤ m.cfg.dacResolution then .error .overflowError
  else
    (List.range m.numIterations).foldlM (Mvmu.sliceStepF noise plans)
      { m with outreg := m.outreg.cleanCells }

/-- The methods of `MVMU` (mvmu.py:73-230) in float64. -/
def Mvmu.callF (m : Mvmu) (plans : Plans) : UnitOp → Except PyErr (List Int) × Mvmu
  | .load w => keep m (fun _ : Unit => []) ((m.loadWeightsF w).map fun m => ((), m))
  | .mvm ep en =>
      keep m (fun _ : Unit => [])
        ((m.executeMvmF (fun i => { pos := ep i, neg := en i }) plans).map fun m => ((), m))
  | op => m.call op

/-- Answers to a sequence of calls (any caller of the methods of mvmu.py). -/
def Mvmu.runF : Mvmu → List (UnitOp × Plans) → List (Except PyErr (List Int))
  | _, [] => []
  | m, op :: ops => (m.callF op.2 op.1).1 :: (m.callF op.2 op.1).2.runF ops

/-- The unit after a sequence of calls (any caller of the methods of mvmu.py). -/
def Mvmu.execF (m : Mvmu) (ops : List (UnitOp × Plans)) : Mvmu := ops.foldl (fun m op => (m.callF op.2 op.1).2) m

end Ramwich
