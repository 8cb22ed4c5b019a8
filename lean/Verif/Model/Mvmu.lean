import Verif.Model.Config
import Verif.Model.DataConvert
import Verif.Model.Memory

/-! # The matrix-vector unit: `src/ramwich/mvmu.py` and the blocks it is made of

Floats are exact rationals; `np.random` noise is an argument (an arbitrary pair of arrays added to
the crossbars on every read). When a call raises, the state of the unit afterwards is not modelled
(the calls of this file are shown never to raise on a well-formed unit). Energy and area numbers are
not modelled, every counter is. -/
namespace Ramwich

/-- `InputRegisterArray` (inreg.py:10-24). -/
structure InReg where
  size : Nat
  registers : List I32
  stats : MemoryStats := {}
  deriving DecidableEq, Repr

/-- inreg.py:16-24 -/
def InReg.new (size : Nat) : InReg := { size := size, registers := List.replicate size 0 }

/-- `InputRegisterArray.write` (inreg.py:26-47), array argument. -/
def InReg.write (r : InReg) (value : List I32) (start : Int) : Except PyErr InReg :=
  let length : Int := value.length
  if start < 0 ∨ start + length > r.size then .error .indexError
  else .ok { r with
    registers := pySliceSet r.registers start.toNat value
    stats := r.stats.addWrite 1 length }

/-- `InputRegisterArray.read` (inreg.py:49-63): the low `bits` bits of every register, then an
arithmetic shift right. -/
def InReg.read (r : InReg) (bits : Nat) : List I32 × InReg :=
  (r.registers.map fun x => x &&& BitVec.ofNat 32 ((1 <<< bits) - 1),
   { r with
     registers := r.registers.map fun x => x.sshiftRight bits
     stats := r.stats.addRead 1 r.size })

/-- `InputRegisterArray.clean_cells` (inreg.py:65-73). -/
def InReg.cleanCells (r : InReg) : InReg :=
  { r with
    registers := List.replicate r.registers.length 0
    stats := r.stats.addWrite 1 r.size }

/-- `InputRegisterArray.reset` (inreg.py:80-83). -/
def InReg.reset (r : InReg) : InReg :=
  { r with registers := List.replicate r.registers.length 0, stats := {} }

/-- `OutputRegisterArray` (outreg.py:10-23). -/
structure OutReg where
  size : Nat
  registers : List I32
  stats : MemoryStats := {}
  deriving DecidableEq, Repr

/-- outreg.py:15-23 -/
def OutReg.new (size : Nat) : OutReg := { size := size, registers := List.replicate size 0 }

/-- numpy fancy assignment `registers[indices] = value`: pairs are written from left to right
(outreg.py:47). -/
def scatter {α : Type} (xs : List α) (indices : List Nat) (value : List α) : List α :=
  (indices.zip value).foldl (fun acc p => acc.set p.1 p.2) xs

/-- numpy fancy indexing `registers[indices]`, all indices in range (outreg.py:79). -/
def gather {α : Type} (xs : List α) (indices : List Nat) (dflt : α) : List α :=
  indices.map fun i => xs.getD i dflt

/-- `OutputRegisterArray.write` (outreg.py:25-54) with `indices` given (the only use, mvmu.py:201).
The value is an `int64` array that numpy truncates to `int32`. numpy raises ValueError when the
shapes cannot be broadcast. -/
def OutReg.write (r : OutReg) (value : List I64) (indices : List Nat) : Except PyErr OutReg :=
  if indices.any (fun i => decide (i ≥ r.size)) then .error .valueError
  else if value.length ≠ indices.length then .error .valueError
  else .ok { r with
    registers := scatter r.registers indices (value.map fun v => v.setWidth 32)
    stats := r.stats.addWrite 1 indices.length }

/-- `OutputRegisterArray.read` (outreg.py:56-79) with `indices` given. -/
def OutReg.read (r : OutReg) (indices : List Nat) : Except PyErr (List I32 × OutReg) :=
  if indices.any (fun i => decide (i ≥ r.size)) then .error .valueError
  else .ok (gather r.registers indices 0, { r with stats := r.stats.addRead 1 indices.length })

/-- `OutputRegisterArray.clean_cells` (outreg.py:83-91). -/
def OutReg.cleanCells (r : OutReg) : OutReg :=
  { r with
    registers := List.replicate r.registers.length 0
    stats := r.stats.addWrite 1 r.size }

/-- `OutputRegisterArray.reset` (outreg.py:93-96). -/
def OutReg.reset (r : OutReg) : OutReg :=
  { r with registers := List.replicate r.registers.length 0, stats := {} }

/-- `DACStats` counters (dac.py:17-18). -/
structure DACStats where
  conversions : Nat := 0
  activeCycles : Nat := 0
  deriving DecidableEq, Repr

/-- `DACArray.convert` (dac.py:51-70). `max_value` is `2^resolution - 1`; with resolution 0 numpy
divides by zero producing NaNs, a configuration outside the model. -/
def dacConvert (cfg : MVMUConfig) (st : DACStats) (digital : List I32) :
    Except PyErr (List ℚ × DACStats) :=
  if digital.length ≠ cfg.xbarSize then .error .valueError
  else
    let maxValue : Nat := (1 <<< cfg.dacResolution) - 1
    let analog := digital.map fun x =>
      let fraction : ℚ := (x.toInt : ℚ) / maxValue
      npClip fraction 0 1 * cfg.vdd
    match cfg.dacLat with
    | none => .error .typeError
    | some lat => .ok (analog, { st with
        conversions := st.conversions + cfg.xbarSize
        activeCycles := st.activeCycles + lat })

/-- `RRAMXbarArray` (rram_xbar.py:33-50). -/
structure RRAMXbar where
  posXbar : List (List (List ℚ))
  negXbar : List (List (List ℚ))
  mvmOperations : Nat := 0
  deriving DecidableEq, Repr

/-- rram_xbar.py:38-50 -/
def RRAMXbar.new (cfg : MVMUConfig) : RRAMXbar :=
  { posXbar := zeros3 cfg.numRramXbarPerMvmu cfg.xbarSize cfg.xbarSize
    negXbar := zeros3 cfg.numRramXbarPerMvmu cfg.xbarSize cfg.xbarSize }

/-- `RRAMXbarArray.load_weights` (rram_xbar.py:52-60). -/
def RRAMXbar.loadWeights (cfg : MVMUConfig) (x : RRAMXbar) (weights : List (List (List ℚ))) :
    Except PyErr RRAMXbar :=
  if ¬ shape3 weights cfg.numRramXbarPerMvmu cfg.xbarSize cfg.xbarSize then .error .valueError
  else .ok { x with
    posXbar := weights.map fun m => m.map fun r => r.map fun w => max w 0
    negXbar := weights.map fun m => m.map fun r => r.map fun w => max (-w) 0 }

/-- The values drawn by `rng.normal` in one `execute_mvm` of the crossbars (rram_xbar.py:88-90), by
crossbar, row and column: arrays of the shape of the crossbars by construction. -/
structure Noise where
  pos : Nat → Nat → Nat → ℚ
  neg : Nat → Nat → Nat → ℚ

/-- `xbar + noise` elementwise (rram_xbar.py:89-90). -/
def addNoise (x : List (List (List ℚ))) (noise : Nat → Nat → Nat → ℚ) : List (List (List ℚ)) :=
  x.mapIdx fun k mat => mat.mapIdx fun r row => row.mapIdx fun j g => g + noise k r j

/-- `RRAMXbarArray.execute_mvm` (rram_xbar.py:65-100). -/
def RRAMXbar.executeMvm (cfg : MVMUConfig) (x : RRAMXbar) (noise : Noise) (input : List ℚ) :
    Except PyErr ((List (List ℚ) × List (List ℚ)) × RRAMXbar) :=
  if input.length ≠ cfg.xbarSize then .error .valueError
  else
    let posMat := if cfg.hasNoise then addNoise x.posXbar noise.pos else x.posXbar
    let negMat := if cfg.hasNoise then addNoise x.negXbar noise.neg else x.negXbar
    .ok ((einsum posMat input, einsum negMat input),
      { x with mvmOperations := x.mvmOperations + cfg.numRramXbarPerMvmu * 2 })

/-- `SRAMCIMUnitArray` (sram_cim_unit.py:37-56). Cells are `int8` values 0/1. -/
structure SRAMCim where
  posXbar : List (List (List I32))
  negXbar : List (List (List I32))
  macOperations : Nat := 0
  deriving DecidableEq, Repr

/-- sram_cim_unit.py:42-56 -/
def SRAMCim.new (cfg : MVMUConfig) : SRAMCim :=
  { posXbar := zeros3 cfg.numSramXbarPerMvmu cfg.xbarSize cfg.xbarSize
    negXbar := zeros3 cfg.numSramXbarPerMvmu cfg.xbarSize cfg.xbarSize }

/-- `SRAMCIMUnitArray.load_weights` (sram_cim_unit.py:58-67). The 0/1 cells are stored as `int32`
instead of `int8`; `einsum` promotes them to `int32` anyway. -/
def SRAMCim.loadWeights (cfg : MVMUConfig) (x : SRAMCim) (weights : List (List (List Int))) :
    Except PyErr SRAMCim :=
  if ¬ shape3 weights cfg.numSramXbarPerMvmu cfg.xbarSize cfg.xbarSize then .error .valueError
  else .ok { x with
    posXbar := weights.map fun m => m.map fun r => r.map fun w => if w = 1 then 1 else 0
    negXbar := weights.map fun m => m.map fun r => r.map fun w => if w = -1 then 1 else 0 }

/-- `SRAMCIMUnitArray.execute_mvm` (sram_cim_unit.py:69-101), `int32` arithmetic. -/
def SRAMCim.executeMvm (cfg : MVMUConfig) (x : SRAMCim) (input : List I32) :
    Except PyErr (List (List I32) × SRAMCim) :=
  if input.length ≠ cfg.xbarSize then .error .valueError
  else
    let pos := einsum x.posXbar input
    let neg := einsum x.negXbar input
    .ok (List.zipWith (List.zipWith (· - ·)) pos neg,
      { x with macOperations := x.macOperations + cfg.numSramXbarPerMvmu * 2 * cfg.xbarSize })

/-- `MuxArray.select` (mux.py:55-70) for an array of `numXbar` crossbars: reshape to
`(num_xbar, num_adc, columns_per_adc)` and take `[:, :, index]`. The second component is the counter
`selections`. -/
def muxSelect {α : Type} (dflt : α) (cfg : MVMUConfig) (numXbar : Nat) (selections : Nat)
    (input : List (List α)) (index : Nat) : Except PyErr (List (List α) × Nat) :=
  if ¬ shape2 input numXbar cfg.xbarSize then .error .valueError
  else if index ≥ cfg.numColumnsPerAdc then .error .valueError
  else
    .ok (input.map (fun row => (List.range cfg.numAdcPerXbar).map fun a =>
        row.getD (a * cfg.numColumnsPerAdc + index) dflt),
      selections + numXbar * cfg.numAdcPerXbar)

/-- `ADCStats` counters (adc.py:17-20). -/
structure ADCStats where
  conversions : Nat := 0
  overflowTimes : Nat := 0
  conversionErrors : ℚ := 0
  activeCycles : Nat := 0
  deriving DecidableEq, Repr

/-- `ADCArray.size` (adc.py:53-59). -/
def MVMUConfig.adcSize (cfg : MVMUConfig) : Nat :=
  cfg.numRramXbarPerMvmu * cfg.numAdcPerXbar * (if cfg.adcType = .differential then 1 else 2)

/-- `ADCArray.current_step` for RRAM crossbar number `k` (adc.py:61-75): `xbar_indices` lists the
crossbars that are RRAM. -/
def MVMUConfig.currentStep (cfg : MVMUConfig) (bits : Nat) : ℚ :=
  cfg.vdd / (2 ^ cfg.dacResolution - 1) *
    ((cfg.conductanceMax - cfg.conductanceMin) / (2 ^ bits - 1))

/-- `xbar_bits` (adc.py:63-66): bits per cell of the RRAM crossbars in order. -/
def MVMUConfig.xbarBits (cfg : MVMUConfig) : List Nat :=
  ((cfg.isXbarRram.zip cfg.bitsPerCell).filter (·.1)).map (·.2)

/-- `int_values` before clipping, for one ADC (adc.py:93-98). -/
def adcInt (step pos neg : ℚ) : Int := roundHalfEven (pos / step) - roundHalfEven (neg / step)

/-- `errors` for one ADC (adc.py:95-99). -/
def adcError (step pos neg : ℚ) : ℚ := |(pos / step - neg / step) - adcInt step pos neg|

/-- `max_value` (adc.py:49). -/
def MVMUConfig.adcMax (cfg : MVMUConfig) : Int := (1 <<< cfg.adcResolution : Nat) - 1

/-- Combine the two input arrays and the per-crossbar steps elementwise (adc.py:84-109). -/
def adcZip {β : Type} (f : ℚ → ℚ → ℚ → β) (steps : List ℚ) (pos neg : List (List ℚ)) :
    List (List β) :=
  List.zipWith (fun s pn => List.zipWith (f s) pn.1 pn.2) steps (pos.zip neg)

/-- `ADCArray.convert` (adc.py:80-117). The two shape tests of lines 84-90 amount to both arrays
having the shape of the ADC array. -/
def adcConvert (cfg : MVMUConfig) (st : ADCStats) (pos neg : List (List ℚ)) :
    Except PyErr (List (List Int) × ADCStats) :=
  if ¬ (shape2 pos cfg.numRramXbarPerMvmu cfg.numAdcPerXbar ∧
        shape2 neg cfg.numRramXbarPerMvmu cfg.numAdcPerXbar) then .error .valueError
  else
    let steps := cfg.xbarBits.map cfg.currentStep
    let ints := adcZip adcInt steps pos neg
    let errors := adcZip adcError steps pos neg
    let overflow := (ints.map fun r => r.countP fun v => v > cfg.adcMax ∨ v < -cfg.adcMax).sum
    let clipped := ints.map fun r => r.map fun v => npClip v (-cfg.adcMax) cfg.adcMax
    match cfg.adcLat with
    | none => .error .typeError
    | some lat => .ok (clipped, {
        conversions := st.conversions + cfg.adcSize
        overflowTimes := st.overflowTimes + overflow
        conversionErrors := st.conversionErrors + (errors.map List.sum).sum
        activeCycles := st.activeCycles + lat })

/-- `SNAArray.size` (sna.py:42). -/
def MVMUConfig.snaSize (cfg : MVMUConfig) : Nat :=
  cfg.numXbarPerMvmu * cfg.numAdcPerXbar + cfg.numAdcPerXbar

/-- `SNAArray.calculate` (sna.py:49-88): `int64` arithmetic. The second component is the counter
`operations`. -/
def snaCalculate (cfg : MVMUConfig) (operations : Nat) (input : List (List Int))
    (current : List I32) (bits : Nat) : Except PyErr (List I64 × Nat) :=
  if ¬ shape2 input cfg.numXbarPerMvmu cfg.numAdcPerXbar then .error .valueError
  else if current.length ≠ cfg.numAdcPerXbar then .error .valueError
  else
    let shiftBits := cfg.storedBit.dropLast
    let shifted : List (List I64) :=
      List.zipWith (fun row s => row.map fun v => BitVec.ofInt 64 v <<< s) input shiftBits
    let summed : List I64 :=
      (List.range cfg.numAdcPerXbar).map fun a => (shifted.map fun row => row.getD a 0).sum
    let result := summed.map fun (v : I64) => v <<< bits
    .ok (List.zipWith (· + ·) result (current.map fun c => c.signExtend 64),
      operations + cfg.snaSize)

/-- `MVMU` (mvmu.py:20-68). The RRAM (SRAM) components exist in Python only if
`have_rram_xbar` (`have_sram_xbar`); here they always exist and are unused otherwise. -/
structure Mvmu where
  cfg : MVMUConfig
  data : DataConfig
  inreg : InReg
  outreg : OutReg
  snaOperations : Nat := 0
  dacStats : DACStats := {}
  rram : RRAMXbar
  snhPosSamples : Nat := 0
  snhNegSamples : Nat := 0
  muxPosSelections : Nat := 0
  muxNegSelections : Nat := 0
  adcStats : ADCStats := {}
  sram : SRAMCim
  muxSramSelections : Nat := 0
  deriving DecidableEq, Repr

/-- `MVMU.__init__` (mvmu.py:25-68). -/
def Mvmu.new (c : Config) : Mvmu :=
  { cfg := c.mvmuConfig
    data := c.dataConfig
    inreg := InReg.new c.mvmuConfig.xbarSize
    outreg := OutReg.new c.mvmuConfig.xbarSize
    rram := RRAMXbar.new c.mvmuConfig
    sram := SRAMCim.new c.mvmuConfig }

/-- Loop state of `load_weights` (mvmu.py:91-95). -/
structure LoadAcc where
  rram : List (List (List ℚ))
  sram : List (List (List Int))
  rramIdx : Nat := 0
  sramIdx : Nat := 0

/-- One iteration of the crossbar loop of `load_weights` (mvmu.py:98-120). -/
def Mvmu.loadStep (m : Mvmu) (signs : List (List Int)) (intWeights : List (List Nat))
    (acc : LoadAcc) (k : Nat) : Except PyErr LoadAcc := do
  let xbarInt ← vectorize (fun v => extractBits v (m.cfg.storedBit.getD k 0)
    (m.cfg.storedBit.getD (k + 1) 0)) intWeights
  if m.cfg.isXbarRram.getD k false then
    let cond ← vectorize (fun v => intToConductance v (m.cfg.bitsPerCell.getD k 0)
      m.cfg.conductanceMin m.cfg.conductanceMax) xbarInt
    .ok { acc with
      rram := acc.rram.set acc.rramIdx
        (List.zipWith (List.zipWith fun (s : Int) (g : ℚ) => (s : ℚ) * g) signs cond)
      rramIdx := acc.rramIdx + 1 }
  else
    .ok { acc with
      sram := acc.sram.set acc.sramIdx
        (List.zipWith (List.zipWith fun (s : Int) (v : Nat) => s * (v : Int)) signs xbarInt)
      sramIdx := acc.sramIdx + 1 }

/-- mvmu.py:123-124 -/
def Mvmu.loadRram (m : Mvmu) (w : List (List (List ℚ))) : Except PyErr RRAMXbar :=
  if m.cfg.haveRramXbar then m.rram.loadWeights m.cfg w else .ok m.rram

/-- mvmu.py:125-126 -/
def Mvmu.loadSram (m : Mvmu) (w : List (List (List Int))) : Except PyErr SRAMCim :=
  if m.cfg.haveSramXbar then m.sram.loadWeights m.cfg w else .ok m.sram

/-- `MVMU.load_weights` (mvmu.py:73-126). `np.vectorize` on empty arrays (`xbar_size = 0`) is
outside the model. -/
def Mvmu.loadWeights (m : Mvmu) (weights : List (List ℚ)) : Except PyErr Mvmu :=
  if ¬ shape2 weights m.cfg.xbarSize m.cfg.xbarSize then .error .valueError
  else do
    let signs := weights.map fun r => r.map npSign
    let intWeights := weights.map fun r => r.map fun w =>
      (floatToFixed |w| m.data.weightFracBits).toNat
    let acc ← (List.range m.cfg.numXbarPerMvmu).foldlM (m.loadStep signs intWeights)
      { rram := zeros3 m.cfg.numRramXbarPerMvmu m.cfg.xbarSize m.cfg.xbarSize
        sram := zeros3 m.cfg.numSramXbarPerMvmu m.cfg.xbarSize m.cfg.xbarSize }
    let rram ← m.loadRram acc.rram
    let sram ← m.loadSram acc.sram
    .ok { m with rram := rram, sram := sram }

/-- Merge of RRAM and SRAM results (mvmu.py:187-191). numpy raises ValueError when the number of
rows does not match the map. -/
def mergeOutputs (cfg : MVMUConfig) (adc mux : List (List Int)) : Except PyErr (List (List Int)) :=
  if cfg.rramToOutputMap.length ≠ adc.length ∨ cfg.sramToOutputMap.length ≠ mux.length then
    .error .valueError
  else
    let zero := List.replicate cfg.numXbarPerMvmu (List.replicate cfg.numAdcPerXbar (0 : Int))
    .ok (scatter (scatter zero cfg.rramToOutputMap adc) cfg.sramToOutputMap mux)

/-- What one input slice produced: voltages through the RRAM crossbars and `int32` sums of the SRAM
crossbars (mvmu.py:141-170). -/
structure XbarOut where
  pos : List (List ℚ) := []
  neg : List (List ℚ) := []
  sram : List (List I32) := []

/-- RRAM part of the column loop: MUX selection and ADC conversion (mvmu.py:165-171). -/
def Mvmu.rramColumn (m : Mvmu) (xo : XbarOut) (j : Nat) : Except PyErr (List (List Int) × Mvmu) :=
  if m.cfg.haveRramXbar then do
    let p ← muxSelect 0 m.cfg m.cfg.numRramXbarPerMvmu m.muxPosSelections xo.pos j
    let n ← muxSelect 0 m.cfg m.cfg.numRramXbarPerMvmu m.muxNegSelections xo.neg j
    let out ← adcConvert m.cfg m.adcStats p.1 n.1
    .ok (out.1, { m with muxPosSelections := p.2, muxNegSelections := n.2, adcStats := out.2 })
  else .ok ([], m)

/-- SRAM part of the column loop: MUX selection (mvmu.py:174-175). -/
def Mvmu.sramColumn (m : Mvmu) (xo : XbarOut) (j : Nat) : Except PyErr (List (List Int) × Mvmu) :=
  if m.cfg.haveSramXbar then do
    let s ← muxSelect 0 m.cfg m.cfg.numSramXbarPerMvmu m.muxSramSelections xo.sram j
    .ok (s.1.map fun r => r.map BitVec.toInt, { m with muxSramSelections := s.2 })
  else .ok ([], m)

/-- Choice of the calculation output (mvmu.py:178-191). -/
def selectOutputs (cfg : MVMUConfig) (adcOut sramOut : List (List Int)) :
    Except PyErr (List (List Int)) :=
  if ¬ cfg.haveSramXbar then .ok adcOut
  else if ¬ cfg.haveRramXbar then .ok sramOut
  else mergeOutputs cfg adcOut sramOut

/-- Shift-and-add of one column group into the output registers (mvmu.py:194-201). -/
def Mvmu.accumulate (m : Mvmu) (calcOut : List (List Int)) (i j : Nat) : Except PyErr Mvmu := do
  let mask := npArange j m.cfg.xbarSize m.cfg.numColumnsPerAdc
  let cur ← m.outreg.read mask
  let sna ← snaCalculate m.cfg m.snaOperations calcOut cur.1 i
  let outreg ← cur.2.write sna.1 mask
  .ok { m with outreg := outreg, snaOperations := sna.2 }

/-- Body of the column loop of `execute_mvm` (mvmu.py:163-201). -/
def Mvmu.columnStep (i : Nat) (xo : XbarOut) (m : Mvmu) (j : Nat) : Except PyErr Mvmu := do
  let r ← m.rramColumn xo j
  let s ← r.2.sramColumn xo j
  let calcOut ← selectOutputs m.cfg r.1 s.1
  s.2.accumulate calcOut i j

/-- RRAM part of one bit slice: DAC, crossbars, sample-and-hold (mvmu.py:146-155). -/
def Mvmu.rramSlice (m : Mvmu) (noise : Noise) (slice : List I32) :
    Except PyErr ((List (List ℚ) × List (List ℚ)) × Mvmu) :=
  if m.cfg.haveRramXbar then do
    let volts ← dacConvert m.cfg m.dacStats slice
    let out ← m.rram.executeMvm m.cfg noise volts.1
    .ok (out.1, { m with
      dacStats := volts.2
      rram := out.2
      snhPosSamples := m.snhPosSamples + m.cfg.numRramXbarPerMvmu * m.cfg.xbarSize
      snhNegSamples := m.snhNegSamples + m.cfg.numRramXbarPerMvmu * m.cfg.xbarSize })
  else .ok (([], []), m)

/-- SRAM part of one bit slice (mvmu.py:158-160). -/
def Mvmu.sramSlice (m : Mvmu) (slice : List I32) : Except PyErr (List (List I32) × Mvmu) :=
  if m.cfg.haveSramXbar then do
    let out ← m.sram.executeMvm m.cfg slice
    .ok (out.1, { m with sram := out.2 })
  else .ok ([], m)

/-- Body of the bit-slice loop of `execute_mvm` (mvmu.py:141-201). -/
def Mvmu.sliceStep (noise : Nat → Noise) (m : Mvmu) (i : Nat) : Except PyErr Mvmu := do
  let slice := m.inreg.read m.cfg.dacResolution
  let r ← { m with inreg := slice.2 }.rramSlice (noise i) slice.1
  let s ← r.2.sramSlice slice.1
  (List.range m.cfg.numColumnsPerAdc).foldlM
    (Mvmu.columnStep i { pos := r.1.1, neg := r.1.2, sram := s.1 }) s.2

/-- `num_iterations` (mvmu.py:140). -/
def Mvmu.numIterations (m : Mvmu) : Nat :=
  (m.data.activationWidth + m.cfg.dacResolution - 1) / m.cfg.dacResolution

/-- `MVMU.execute_mvm` (mvmu.py:128-201). A DAC resolution of 0 divides by zero in line 140;
with 32 or more the mask of inreg.py:52 does not fit `int32` and numpy raises OverflowError. -/
def Mvmu.executeMvm (m : Mvmu) (noise : Nat → Noise) : Except PyErr Mvmu :=
  if m.cfg.dacResolution = 0 then .error .zeroDivisionError
  else if 32 ≤ m.cfg.dacResolution then .error .overflowError
  else
    (List.range m.numIterations).foldlM (Mvmu.sliceStep noise)
      { m with outreg := m.outreg.cleanCells }

/-- `MVMU.write_to_inreg` (mvmu.py:203-205). -/
def Mvmu.writeToInreg (m : Mvmu) (start : Int) (value : List I32) : Except PyErr Mvmu := do
  let r ← m.inreg.write value start
  .ok { m with inreg := r }

/-- `MVMU.read_from_outreg` (mvmu.py:207-217). `np.arange` of a non-positive length is empty; a
negative index is rejected. -/
def Mvmu.readFromOutreg (m : Mvmu) (start length : Int) : Except PyErr (List I32 × Mvmu) :=
  if start < 0 ∧ 0 < length then .error .valueError
  else do
    let indices := (List.range length.toNat).map fun i => start.toNat + i
    let (v, r) ← m.outreg.read indices
    .ok (v.map fun x => x.sshiftRight m.data.weightFracBits, { m with outreg := r })

/-- `MVMU.reset` (mvmu.py:219-230). Without RRAM crossbars the first line raises AttributeError
because `rram_xbar_array` was never created; nothing is reset then. The SRAM array and its MUX are
not reset. -/
def Mvmu.reset (m : Mvmu) : Except PyErr Mvmu :=
  if ¬ m.cfg.haveRramXbar then .error .attributeError
  else .ok { m with
    rram := { m.rram with mvmOperations := 0 }
    dacStats := {}
    adcStats := {}
    inreg := m.inreg.reset
    outreg := m.outreg.reset
    snhPosSamples := 0
    snhNegSamples := 0
    muxPosSelections := 0
    muxNegSelections := 0
    snaOperations := 0 }

end Ramwich
