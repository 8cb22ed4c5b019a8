import Verif.Props.Demo
import Mathlib.Tactic.IntervalCases

/-! # Properties of the matrix-vector unit (C04-C09, C11) -/
namespace Ramwich

open Spec

/-- C05 (C09, C11): every sequence of calls on a freshly built unit (loading weights, writing inputs,
products with any conductance errors, reads, resets, with any arguments) gets exactly the answers of
the abstract unit of `Spec/Unit`, which is stated in plain integer and rational arithmetic. -/
theorem C05_unit_refines_spec (c c' : Config) (hs : Simulable c) (h : c.build = .ok c')
    (ops : List UnitOp) :
    (Mvmu.new c').run ops = (paramsOf c.mvmuConfig c.dataConfig).run {} ops :=
  (refines_built c c' hs h ops).1

example : (Mvmu.new demoBuilt).run
      [.read 0 2, .load demoWeights, .write 1 [3], .mvm quiet quiet, .read 0 4, .write 3 [1, 2], .reset]
    = (paramsOf demo.mvmuConfig demo.dataConfig).run {}
      [.read 0 2, .load demoWeights, .write 1 [3], .mvm quiet quiet, .read 0 4, .write 3 [1, 2], .reset] :=
  C05_unit_refines_spec demo demoBuilt demo_simulable demo_build _

/-- C05: the exact contents of the output registers after a product without conductance errors and
with `gmin = 0`, for every DAC resolution and with saturating converters, after any history. -/
theorem C05_mvm_formula (c c' : Config) (hs : Simulable c) (h : c.build = .ok c')
    (W : List (List ℚ)) (x : List Int)
    (hW : W.length = c.mvmuConfig.xbarSize ∧ ∀ row ∈ W, row.length = c.mvmuConfig.xbarSize)
    (hx : x.length = c.mvmuConfig.xbarSize) (hr : ∀ v ∈ x, -2 ^ 31 ≤ v ∧ v < 2 ^ 31)
    (hg : c.mvmuConfig.conductanceMin = 0) (hn : c.mvmuConfig.hasNoise = false)
    (before : List UnitOp) (ep en : Nat → Nat → Nat → Nat → ℚ) :
    ((Mvmu.new c').exec (before ++ [.load W, .write 0 x, .mvm ep en])).outreg.registers
      = (List.range c.mvmuConfig.xbarSize).map fun r => BitVec.ofInt 32
          (mvmValue c.dataConfig.storageConfig c.dataConfig.weightFracBits c.mvmuConfig.xbarSize
            c.mvmuConfig.dacResolution c.dataConfig.activationWidth c.mvmuConfig.adcResolution
            (fun r j => (W.getD r []).getD j 0) (fun j => x.getD j 0) r) := by
  rw [mvm_registers c c' hs h W x hW hx hr before ep en]
  apply List.map_congr_left
  intro r _
  rw [mvmValue_ideal _ _ _ _ _ _ _ _ _ _ hg]
  · intro i k r j; simp [UnitParams.analog, paramsOf, hn]
  · intro i k r j; simp [UnitParams.analog, paramsOf, hn]

example : ((Mvmu.new demoBuilt).exec ([.reset, .write 2 [7]] ++
      [.load demoWeights, .write 0 demoInput, .mvm quiet quiet])).outreg.registers
    = (List.range 4).map fun r => BitVec.ofInt 32 (mvmValue [.mlc, .sram, .mlc] 3 4 1 4 4
        (fun r j => (demoWeights.getD r []).getD j 0) (fun j => demoInput.getD j 0) r) :=
  C05_mvm_formula demo demoBuilt demo_simulable demo_build demoWeights demoInput demoWeights_shape rfl
    demoInput_range rfl rfl [.reset, .write 2 [7]] quiet quiet

/-- The width check of the configuration: the storage elements hold exactly the weight bits. -/
theorem storage_width (c c' : Config) (hs : Simulable c) (h : c.build = .ok c') :
    slicePos c.dataConfig.storageConfig c.dataConfig.storageConfig.length
      = c.dataConfig.weightWidth := by
  have := (build_layout c c' h hs.rramFlag hs.sramFlag).2.1
  rwa [(build_fields c c' h).1] at this

/-- C04: with a one-bit DAC, `gmin = 0`, no noise and no saturated conversion, the output registers
hold the product of the held weights with the inputs modulo `2^activation_width`. -/
theorem C04_mvm_exact (c c' : Config) (hs : Simulable c) (h : c.build = .ok c')
    (W : List (List ℚ)) (x : List Int)
    (hW : W.length = c.mvmuConfig.xbarSize ∧ ∀ row ∈ W, row.length = c.mvmuConfig.xbarSize)
    (hx : x.length = c.mvmuConfig.xbarSize) (hr : ∀ v ∈ x, -2 ^ 31 ≤ v ∧ v < 2 ^ 31)
    (hg : c.mvmuConfig.conductanceMin = 0) (hn : c.mvmuConfig.hasNoise = false)
    (h1 : c.mvmuConfig.dacResolution = 1)
    (hsat : ∀ r, r < c.mvmuConfig.xbarSize → ∀ i, i < c.dataConfig.activationWidth →
      ∀ k, k < c.dataConfig.storageConfig.length → isRram c.dataConfig.storageConfig k = true →
      |partialSum c.dataConfig.storageConfig c.dataConfig.weightFracBits c.mvmuConfig.xbarSize 1
        (fun r j => (W.getD r []).getD j 0) (fun j => x.getD j 0) k i r|
        ≤ 2 ^ c.mvmuConfig.adcResolution - 1)
    (before : List UnitOp) (ep en : Nat → Nat → Nat → Nat → ℚ) :
    ((Mvmu.new c').exec (before ++ [.load W, .write 0 x, .mvm ep en])).outreg.registers
      = (List.range c.mvmuConfig.xbarSize).map fun r => BitVec.ofInt 32
          (∑ j ∈ Finset.range c.mvmuConfig.xbarSize,
            heldWeight c.dataConfig.weightFracBits c.dataConfig.weightWidth ((W.getD r []).getD j 0) *
              (x.getD j 0 % 2 ^ c.dataConfig.activationWidth)) := by
  rw [C05_mvm_formula c c' hs h W x hW hx hr hg hn before ep en]
  apply List.map_congr_left
  intro r hr
  rw [List.mem_range] at hr
  rw [h1, mvmValue_res1 _ _ _ _ _ _ _ _ (hsat r hr), storage_width c c' hs h]

/-- C04, user view: if moreover every converter is wide enough for a full column, the weights fit
their format and the inputs are unsigned `activation_width`-bit numbers, then the unit computes the
matrix-vector product of the fixed-point weights (modulo `2^32`), and a read returns the product
divided by the weight scale, rounded down. -/
theorem C04_mvm_is_product (c c' : Config) (hs : Simulable c) (h : c.build = .ok c')
    (W : List (List ℚ)) (x : List Int)
    (hW : W.length = c.mvmuConfig.xbarSize ∧ ∀ row ∈ W, row.length = c.mvmuConfig.xbarSize)
    (hx : x.length = c.mvmuConfig.xbarSize)
    (hg : c.mvmuConfig.conductanceMin = 0) (hn : c.mvmuConfig.hasNoise = false)
    (h1 : c.mvmuConfig.dacResolution = 1)
    (hadc : ∀ k, k < c.dataConfig.storageConfig.length → isRram c.dataConfig.storageConfig k = true →
      (c.mvmuConfig.xbarSize : Int) * (2 ^ bitsOf c.dataConfig.storageConfig k - 1)
        ≤ 2 ^ c.mvmuConfig.adcResolution - 1)
    (hfit : ∀ row ∈ W, ∀ w ∈ row,
      magnitude c.dataConfig.weightFracBits w < 2 ^ c.dataConfig.weightWidth)
    (haw : c.dataConfig.activationWidth ≤ 31)
    (hin : ∀ v ∈ x, 0 ≤ v ∧ v < 2 ^ c.dataConfig.activationWidth)
    (before : List UnitOp) (ep en : Nat → Nat → Nat → Nat → ℚ) :
    ((Mvmu.new c').exec (before ++ [.load W, .write 0 x, .mvm ep en])).outreg.registers
      = (List.range c.mvmuConfig.xbarSize).map fun r => BitVec.ofInt 32
          (matVec c.dataConfig.weightFracBits c.mvmuConfig.xbarSize
            (fun r j => (W.getD r []).getD j 0) (fun j => x.getD j 0) r) := by
  have hp : (2 : Int) ^ c.dataConfig.activationWidth ≤ 2 ^ 31 :=
    pow_le_pow_right₀ (by norm_num) haw
  rw [C04_mvm_exact c c' hs h W x hW hx (fun v hv => ⟨by have := (hin v hv).1; omega,
    lt_of_lt_of_le (hin v hv).2 hp⟩) hg hn h1 ?_ before ep en]
  · apply List.map_congr_left
    intro r hr
    rw [List.mem_range] at hr
    congr 1
    unfold matVec
    apply Finset.sum_congr rfl
    intro j hj
    rw [Finset.mem_range] at hj
    have hxj : j < x.length := by omega
    have hWr : r < W.length := by omega
    have hrow : (W.getD r []) = W[r] := getD_of_lt _ _ _ hWr
    have hjr : j < (W[r]).length := by rw [hW.2 _ (List.getElem_mem hWr)]; exact hj
    have hv := hin _ (List.getElem_mem hxj)
    rw [heldWeight_eq, getD_of_lt x _ _ hxj, Int.emod_eq_of_lt hv.1 hv.2]
    · exact congrArg₂ (· * ·) rfl (getD_of_lt x _ _ hxj).symm
    rw [hrow, getD_of_lt _ _ _ hjr]
    exact hfit _ (List.getElem_mem hWr) _ (List.getElem_mem hjr)
  · intro r _ i _ k hk hkr
    refine (partialSum_bound _ _ _ _ _ _ _ _ _).trans ?_
    have := hadc k hk hkr
    simpa using this

example : ((Mvmu.new demoBuilt).exec ([.mvm quiet quiet] ++
      [.load demoWeights, .write 0 demoInput, .mvm quiet quiet])).outreg.registers
    = (List.range 4).map fun r => BitVec.ofInt 32 (matVec 3 4
        (fun r j => (demoWeights.getD r []).getD j 0) (fun j => demoInput.getD j 0) r) :=
  C04_mvm_is_product demo demoBuilt demo_simulable demo_build demoWeights demoInput demoWeights_shape
    rfl rfl rfl rfl (by decide) (by decide +kernel) (by decide) (by decide) _ quiet quiet

/-- C04: inputs are taken as unsigned numbers. With a negative input the unit does not compute the
product: weight `1`, input `-1` (4-bit activations) yields 15 times the weight, not minus the
weight. -/
theorem C04_negative_input_witness :
    ((Mvmu.new demoBuilt).exec [.load [[1, 0, 0, 0], [0, 0, 0, 0], [0, 0, 0, 0], [0, 0, 0, 0]],
      .write 0 [-1, 0, 0, 0], .mvm quiet quiet]).outreg.registers.map BitVec.toInt = [15 * 8, 0, 0, 0] ∧
    matVec 3 4 (fun r j => if r = 0 ∧ j = 0 then 1 else 0) (fun j => if j = 0 then -1 else 0) 0 = -8 := by
  constructor
  · decide +kernel
  · decide +kernel

/-- The demo configuration with a two-bit DAC. -/
def demoDac2 : Config := { demo with mvmuConfig := { demo.mvmuConfig with dacResolution := 2 } }
def demoDac2Built : Config := match demoDac2.build with | .ok c => c | .error _ => demoDac2

theorem demoDac2_build : demoDac2.build = .ok demoDac2Built := by decide +kernel

/-- C05: with a DAC resolution above 1 the slices are added with weight `2^i` instead of
`2^(i*resolution)`, so the unit does not compute the product: weight `1`, input `4`. -/
theorem C05_dac_resolution_witness :
    ((Mvmu.new demoDac2Built).exec [.load [[1, 0, 0, 0], [0, 0, 0, 0], [0, 0, 0, 0], [0, 0, 0, 0]],
      .write 0 [4, 0, 0, 0], .mvm quiet quiet]).outreg.registers.map BitVec.toInt = [2 * 8, 0, 0, 0] ∧
    matVec 3 4 (fun r j => if r = 0 ∧ j = 0 then 1 else 0) (fun j => if j = 0 then 4 else 0) 0
      = 4 * 8 := by
  constructor
  · decide +kernel
  · decide +kernel

/-- C05: for every DAC resolution, the unsaturated product is the one with the wrongly recombined
inputs `sum_i 2^i * slice_i`. -/
theorem C05_mvm_any_resolution (c c' : Config) (hs : Simulable c) (h : c.build = .ok c')
    (W : List (List ℚ)) (x : List Int)
    (hW : W.length = c.mvmuConfig.xbarSize ∧ ∀ row ∈ W, row.length = c.mvmuConfig.xbarSize)
    (hx : x.length = c.mvmuConfig.xbarSize) (hr : ∀ v ∈ x, -2 ^ 31 ≤ v ∧ v < 2 ^ 31)
    (hg : c.mvmuConfig.conductanceMin = 0) (hn : c.mvmuConfig.hasNoise = false)
    (hsat : ∀ r, r < c.mvmuConfig.xbarSize →
      ∀ i, i < numSlices c.dataConfig.activationWidth c.mvmuConfig.dacResolution →
      ∀ k, k < c.dataConfig.storageConfig.length → isRram c.dataConfig.storageConfig k = true →
      |partialSum c.dataConfig.storageConfig c.dataConfig.weightFracBits c.mvmuConfig.xbarSize
        c.mvmuConfig.dacResolution (fun r j => (W.getD r []).getD j 0) (fun j => x.getD j 0) k i r|
        ≤ 2 ^ c.mvmuConfig.adcResolution - 1)
    (before : List UnitOp) (ep en : Nat → Nat → Nat → Nat → ℚ) :
    ((Mvmu.new c').exec (before ++ [.load W, .write 0 x, .mvm ep en])).outreg.registers
      = (List.range c.mvmuConfig.xbarSize).map fun r => BitVec.ofInt 32
          (∑ j ∈ Finset.range c.mvmuConfig.xbarSize,
            heldWeight c.dataConfig.weightFracBits c.dataConfig.weightWidth ((W.getD r []).getD j 0) *
              ∑ i ∈ Finset.range (numSlices c.dataConfig.activationWidth c.mvmuConfig.dacResolution),
                2 ^ i * inputSlice c.mvmuConfig.dacResolution i (x.getD j 0)) := by
  rw [C05_mvm_formula c c' hs h W x hW hx hr hg hn before ep en]
  apply List.map_congr_left
  intro r hr
  rw [List.mem_range] at hr
  rw [mvmValue_unsaturated _ _ _ _ _ _ _ _ _ (hsat r hr), storage_width c c' hs h]

/-- C06: two units that differ only in how the weight bits are split over crossbars (and in ADCs,
conductances, supply voltage) compute the same registers from the same weights and inputs, whatever
happened before, as long as no conversion saturates. -/
theorem C06_storage_independent (c₁ c₁' c₂ c₂' : Config) (hs₁ : Simulable c₁) (hs₂ : Simulable c₂)
    (hb₁ : c₁.build = .ok c₁') (hb₂ : c₂.build = .ok c₂')
    (hsize : c₂.mvmuConfig.xbarSize = c₁.mvmuConfig.xbarSize)
    (hres : c₂.mvmuConfig.dacResolution = c₁.mvmuConfig.dacResolution)
    (hwi : c₂.dataConfig.weightIntBits = c₁.dataConfig.weightIntBits)
    (hwf : c₂.dataConfig.weightFracBits = c₁.dataConfig.weightFracBits)
    (haw : c₂.dataConfig.activationWidth = c₁.dataConfig.activationWidth)
    (W : List (List ℚ)) (x : List Int)
    (hW : W.length = c₁.mvmuConfig.xbarSize ∧ ∀ row ∈ W, row.length = c₁.mvmuConfig.xbarSize)
    (hx : x.length = c₁.mvmuConfig.xbarSize) (hr : ∀ v ∈ x, -2 ^ 31 ≤ v ∧ v < 2 ^ 31)
    (ideal : ∀ c ∈ [c₁, c₂], c.mvmuConfig.conductanceMin = 0 ∧ c.mvmuConfig.hasNoise = false ∧
      ∀ r, r < c.mvmuConfig.xbarSize →
      ∀ i, i < numSlices c.dataConfig.activationWidth c.mvmuConfig.dacResolution →
      ∀ k, k < c.dataConfig.storageConfig.length → isRram c.dataConfig.storageConfig k = true →
      |partialSum c.dataConfig.storageConfig c.dataConfig.weightFracBits c.mvmuConfig.xbarSize
        c.mvmuConfig.dacResolution (fun r j => (W.getD r []).getD j 0) (fun j => x.getD j 0) k i r|
        ≤ 2 ^ c.mvmuConfig.adcResolution - 1)
    (before₁ before₂ : List UnitOp) (ep₁ en₁ ep₂ en₂ : Nat → Nat → Nat → Nat → ℚ) :
    ((Mvmu.new c₁').exec (before₁ ++ [.load W, .write 0 x, .mvm ep₁ en₁])).outreg.registers
      = ((Mvmu.new c₂').exec (before₂ ++ [.load W, .write 0 x, .mvm ep₂ en₂])).outreg.registers := by
  obtain ⟨g1, n1, s1⟩ := ideal c₁ (by simp)
  obtain ⟨g2, n2, s2⟩ := ideal c₂ (by simp)
  rw [C05_mvm_any_resolution c₁ c₁' hs₁ hb₁ W x hW hx hr g1 n1 s1 before₁ ep₁ en₁,
    C05_mvm_any_resolution c₂ c₂' hs₂ hb₂ W x (by rw [hsize]; exact hW) (by rw [hsize]; exact hx) hr
      g2 n2 s2 before₂ ep₂ en₂]
  unfold DataConfig.weightWidth
  rw [hsize, hres, hwi, hwf, haw]

example : ((Mvmu.new demoBuilt).exec ([] ++
      [.load demoWeights, .write 0 demoInput, .mvm quiet quiet])).outreg.registers
    = ((Mvmu.new demoHybridBuilt).exec ([.reset] ++
      [.load demoWeights, .write 0 demoInput, .mvm quiet quiet])).outreg.registers :=
  C06_storage_independent demo demoBuilt demoHybrid demoHybridBuilt demo_simulable
    demoHybrid_simulable demo_build demoHybrid_build rfl rfl rfl rfl rfl demoWeights demoInput
    demoWeights_shape rfl demoInput_range (by decide +kernel) _ _ quiet quiet quiet quiet

/-- C07: with `gmin = 0`, if the total conductance error of every analog line, in converter steps,
stays below one half, the output registers are those of the noise-free unit. -/
theorem C07_small_noise_invisible (c c' : Config) (hs : Simulable c) (h : c.build = .ok c')
    (W : List (List ℚ)) (x : List Int)
    (hW : W.length = c.mvmuConfig.xbarSize ∧ ∀ row ∈ W, row.length = c.mvmuConfig.xbarSize)
    (hx : x.length = c.mvmuConfig.xbarSize) (hr : ∀ v ∈ x, -2 ^ 31 ≤ v ∧ v < 2 ^ 31)
    (hg : c.mvmuConfig.conductanceMin = 0)
    (before before' : List UnitOp) (ep en : Nat → Nat → Nat → Nat → ℚ)
    (hnoise : ∀ err ∈ [ep, en], ∀ r, r < c.mvmuConfig.xbarSize →
      ∀ i, i < numSlices c.dataConfig.activationWidth c.mvmuConfig.dacResolution →
      ∀ k, k < c.dataConfig.storageConfig.length → isRram c.dataConfig.storageConfig k = true →
      |disturbance err (c.mvmuConfig.conductanceMax / (2 ^ bitsOf c.dataConfig.storageConfig k - 1))
        (rramRank c.dataConfig.storageConfig k) c.mvmuConfig.xbarSize c.mvmuConfig.dacResolution
        (fun j => x.getD j 0) i r| < 1 / 2) :
    ((Mvmu.new c').exec (before ++ [.load W, .write 0 x, .mvm ep en])).outreg.registers
      = ((Mvmu.new c').exec (before' ++ [.load W, .write 0 x,
          .mvm (fun _ _ _ _ => 0) (fun _ _ _ _ => 0)])).outreg.registers := by
  rw [mvm_registers c c' hs h W x hW hx hr before ep en, mvm_registers c c' hs h W x hW hx hr before']
  apply List.map_congr_left
  intro r hr
  rw [List.mem_range] at hr
  congr 1
  rw [mvmValue_robust _ _ _ _ _ _ _ _ _ _ hg, mvmValue_ideal _ _ _ _ _ _ _ _ _ _ hg]
  · intro i k r j; simp [UnitParams.analog]
  · intro i k r j; simp [UnitParams.analog]
  · intro i hi k hk hkr
    have := hnoise ep (by simp) r hr i hi k hk hkr
    unfold UnitParams.analog Analog.unit paramsOf at *
    simp only [hg, sub_zero]
    by_cases hb : c.mvmuConfig.hasNoise = true
    · simpa only [hb, if_true] using this
    · simp [disturbance, hb]
  · intro i hi k hk hkr
    have := hnoise en (by simp) r hr i hi k hk hkr
    unfold UnitParams.analog Analog.unit paramsOf at *
    simp only [hg, sub_zero]
    by_cases hb : c.mvmuConfig.hasNoise = true
    · simpa only [hb, if_true] using this
    · simp [disturbance, hb]

/-- The demo configuration with read noise. -/
def demoNoisy : Config := { demo with mvmuConfig := { demo.mvmuConfig with hasNoise := true } }
def demoNoisyBuilt : Config := match demoNoisy.build with | .ok c => c | .error _ => demoNoisy
theorem demoNoisy_build : demoNoisy.build = .ok demoNoisyBuilt := by decide +kernel
theorem demoNoisy_simulable : Simulable demoNoisy := by
  refine ⟨rfl, rfl, by decide, by decide, fun _ => by decide, fun _ => by decide, ?_, ?_, ?_⟩ <;>
    norm_num [demoNoisy, demo]

example : ((Mvmu.new demoNoisyBuilt).exec ([] ++ [.load demoWeights, .write 0 demoInput,
      .mvm (fun i _ r j => 1 / (9 + i + r + j)) (fun _ k _ _ => -1 / (9 + k))])).outreg.registers
    = ((Mvmu.new demoNoisyBuilt).exec ([] ++ [.load demoWeights, .write 0 demoInput,
      .mvm (fun _ _ _ _ => 0) (fun _ _ _ _ => 0)])).outreg.registers :=
  C07_small_noise_invisible demoNoisy demoNoisyBuilt demoNoisy_simulable demoNoisy_build demoWeights
    demoInput demoWeights_shape rfl demoInput_range rfl _ _ _ _ (by
      intro err herr r hr i hi k hk hkr
      simp only [List.mem_cons, List.not_mem_nil, or_false] at herr
      simp only [demoNoisy, demo] at hr
      have hi' : i < 4 := hi
      have hk' : k < 3 := hk
      have hr' : r < 4 := hr
      rcases herr with rfl | rfl <;> interval_cases i <;> interval_cases k <;> interval_cases r <;>
        decide +kernel)

/-- C07: the bound is sharp. One cell off by half a step (`1/2` of the conductance unit 1) changes
the result from 1 to 2. -/
theorem C07_half_step_visible :
    ((Mvmu.new demoNoisyBuilt).exec [.load [[1 / 8, 0, 0, 0], [0, 0, 0, 0], [0, 0, 0, 0], [0, 0, 0, 0]],
      .write 0 [1, 0, 0, 0],
      .mvm (fun _ k r j => if k = 0 ∧ r = 0 ∧ j = 0 then 1 / 2 else 0) quiet]).outreg.registers.map
        BitVec.toInt = [2, 0, 0, 0] ∧
    ((Mvmu.new demoNoisyBuilt).exec [.load [[1 / 8, 0, 0, 0], [0, 0, 0, 0], [0, 0, 0, 0], [0, 0, 0, 0]],
      .write 0 [1, 0, 0, 0], .mvm quiet quiet]).outreg.registers.map BitVec.toInt = [1, 0, 0, 0] := by
  constructor
  · decide +kernel
  · decide +kernel

/-- C08: without conductance errors the two lines of an analog crossbar differ by the integer dot
product plus `gmin/step` times the signed sum of the slices; for `gmin = 0` exactly the dot
product. -/
theorem C08_gmin_offset (a : Analog) (st : List BitConfig) (frac size res : Nat)
    (W : Nat → Nat → ℚ) (x : Nat → Int) (k i r : Nat)
    (hp : ∀ i k r j, a.errPos i k r j = 0) (hn : ∀ i k r j, a.errNeg i k r j = 0) :
    a.posSum st frac size res W x k i r - a.negSum st frac size res W x k i r
      = partialSum st frac size res W x k i r +
        a.gmin / a.unit (bitsOf st k) *
          ∑ j ∈ Finset.range size, (sgn (W r j) * inputSlice res i (x j) : ℚ) :=
  line_difference a st frac size res W x k i r hp hn

/-- The demo configuration with `gmin = 1`, `gmax = 4`. -/
def demoGmin : Config :=
  { demo with mvmuConfig := { demo.mvmuConfig with conductanceMin := 1, conductanceMax := 4 } }
def demoGminBuilt : Config := match demoGmin.build with | .ok c => c | .error _ => demoGmin
theorem demoGmin_build : demoGmin.build = .ok demoGminBuilt := by decide +kernel

/-- C08: with a non-zero minimum conductance the product is wrong: weight `1/8` (fixed point 1),
input 1 yields `2 + 0*4 + 1*8`. -/
theorem C08_gmin_witness :
    ((Mvmu.new demoGminBuilt).exec [.load [[1 / 8, 0, 0, 0], [0, 0, 0, 0], [0, 0, 0, 0], [0, 0, 0, 0]],
      .write 0 [1, 0, 0, 0], .mvm quiet quiet]).outreg.registers.map BitVec.toInt = [10, 0, 0, 0] ∧
    ((Mvmu.new demoBuilt).exec [.load [[1 / 8, 0, 0, 0], [0, 0, 0, 0], [0, 0, 0, 0], [0, 0, 0, 0]],
      .write 0 [1, 0, 0, 0], .mvm quiet quiet]).outreg.registers.map BitVec.toInt = [1, 0, 0, 0] := by
  constructor
  · decide +kernel
  · decide +kernel

/-- C09: what a product leaves in the output registers does not depend on the history before the
weights and inputs were written. -/
theorem C09_history_irrelevant (c c' : Config) (hs : Simulable c) (h : c.build = .ok c')
    (W : List (List ℚ)) (x : List Int)
    (hW : W.length = c.mvmuConfig.xbarSize ∧ ∀ row ∈ W, row.length = c.mvmuConfig.xbarSize)
    (hx : x.length = c.mvmuConfig.xbarSize) (hr : ∀ v ∈ x, -2 ^ 31 ≤ v ∧ v < 2 ^ 31)
    (before before' : List UnitOp) (ep en : Nat → Nat → Nat → Nat → ℚ) :
    ((Mvmu.new c').exec (before ++ [.load W, .write 0 x, .mvm ep en])).outreg.registers
      = ((Mvmu.new c').exec (before' ++ [.load W, .write 0 x, .mvm ep en])).outreg.registers := by
  rw [mvm_registers c c' hs h W x hW hx hr before, mvm_registers c c' hs h W x hW hx hr before']

/-- C09: a product consumes its inputs. When the inputs are unsigned `activation_width`-bit numbers,
all input registers are zero afterwards and a second product yields zeros, noise or not. -/
theorem C09_inputs_consumed (c c' : Config) (hs : Simulable c) (h : c.build = .ok c')
    (W : List (List ℚ)) (x : List Int)
    (hW : W.length = c.mvmuConfig.xbarSize ∧ ∀ row ∈ W, row.length = c.mvmuConfig.xbarSize)
    (hx : x.length = c.mvmuConfig.xbarSize) (hr : ∀ v ∈ x, -2 ^ 31 ≤ v ∧ v < 2 ^ 31)
    (hin : ∀ v ∈ x, 0 ≤ v ∧ v < 2 ^ c.dataConfig.activationWidth)
    (before : List UnitOp) (ep en ep' en' : Nat → Nat → Nat → Nat → ℚ) :
    ((Mvmu.new c').exec (before ++ [.load W, .write 0 x, .mvm ep en])).inreg.registers
      = List.replicate c.mvmuConfig.xbarSize 0 ∧
    ((Mvmu.new c').exec (before ++ [.load W, .write 0 x, .mvm ep en, .mvm ep' en'])).outreg.registers
      = List.replicate c.mvmuConfig.xbarSize 0 := by
  set p := paramsOf c.mvmuConfig c.dataConfig with hp
  obtain ⟨h1, h2⟩ := spec_load_write p (p.exec {} before) W x hW hx hr
  set s1 := p.exec (p.exec {} before) [.load W, .write 0 x] with hs1
  have hz : ∀ j, j < c.mvmuConfig.xbarSize →
      ((p.step s1 (.mvm ep en)).2).inputs j = 0 := by
    intro j hj
    simp only [UnitParams.step.eq_3]
    rw [h2 j hj]
    have hxj : j < x.length := by omega
    rw [getD_of_lt _ _ _ hxj]
    obtain ⟨v0, v1⟩ := hin _ (List.getElem_mem hxj)
    apply Int.ediv_eq_zero_of_lt v0
    refine lt_of_lt_of_le v1 (pow_le_pow_right₀ (by norm_num) ?_)
    simp only [hp, paramsOf, numSlices]
    have hpos := hs.resPos
    have := Nat.div_add_mod (c.dataConfig.activationWidth + c.mvmuConfig.dacResolution - 1)
      c.mvmuConfig.dacResolution
    have := Nat.mod_lt (c.dataConfig.activationWidth + c.mvmuConfig.dacResolution - 1) hpos
    omega
  have hrep : ∀ n, (List.range n).map (fun _ => (0 : I32)) = List.replicate n 0 := by
    intro n; simp [List.map_const']
  constructor
  · obtain ⟨-, hc, -, hR⟩ := refines_built c c' hs h (before ++ [.load W, .write 0 x, .mvm ep en])
    rw [inregisters_of_refines _ _ hR, hc, (build_fields c c' h).2.1, ← hrep]
    apply List.map_congr_left
    intro r hr
    rw [List.mem_range] at hr
    have e : (before ++ [.load W, .write 0 x, .mvm ep en])
        = before ++ ([UnitOp.load W, .write 0 x] ++ [.mvm ep en]) := by simp
    rw [e, exec_append, exec_append, ← hp, ← hs1]
    simp only [UnitParams.exec, List.foldl_cons, List.foldl_nil]
    rw [hz r hr]; rfl
  · obtain ⟨-, hc, -, hR⟩ := refines_built c c' hs h
      (before ++ [.load W, .write 0 x, .mvm ep en, .mvm ep' en'])
    rw [registers_of_refines _ _ hR, hc, (build_fields c c' h).2.1, ← hrep]
    apply List.map_congr_left
    intro r hr
    rw [List.mem_range] at hr
    have e : (before ++ [.load W, .write 0 x, .mvm ep en, .mvm ep' en'])
        = before ++ ([UnitOp.load W, .write 0 x] ++ [.mvm ep en, .mvm ep' en']) := by simp
    rw [e, exec_append, exec_append, ← hp, ← hs1]
    simp only [UnitParams.exec, List.foldl_cons, List.foldl_nil]
    generalize (p.step s1 (.mvm ep en)).2 = s2 at hz ⊢
    simp only [UnitParams.step.eq_3]
    rw [analog_mvmValue_congr _ _ _ p.size _ _ _ _ s2.inputs (fun _ => 0) hz, ofInt_wrap32]
    have h0 : ∀ i, inputSlice p.res i 0 = 0 := by intro i; simp [inputSlice]
    have hsat : saturate p.adcBits 0 = 0 := by
      apply saturate_id; simp only [abs_zero, sub_nonneg]
      exact one_le_pow₀ (by norm_num)
    have hround : roundHalfEven 0 = 0 := by simpa using roundHalfEven_intCast 0
    simp [Analog.mvmValue, Analog.column, Analog.posSum, Analog.negSum, partialSum, h0, hsat, hround]

example : ((Mvmu.new demoNoisyBuilt).exec ([] ++ [.load demoWeights, .write 0 demoInput,
      .mvm (fun _ _ _ _ => 1) quiet, .mvm (fun _ _ _ _ => 1) quiet])).outreg.registers
    = List.replicate 4 0 :=
  (C09_inputs_consumed demoNoisy demoNoisyBuilt demoNoisy_simulable demoNoisy_build demoWeights
    demoInput demoWeights_shape rfl demoInput_range (by decide) [] _ _ _ _).2

/-- C09: a negative input is not consumed: the register is left at -1 and the next product uses it
again. -/
theorem C09_negative_input_residue_witness :
    ((Mvmu.new demoBuilt).exec [.load [[1, 0, 0, 0], [0, 0, 0, 0], [0, 0, 0, 0], [0, 0, 0, 0]],
      .write 0 [-8, 0, 0, 0], .mvm quiet quiet]).inreg.registers.map BitVec.toInt = [-1, 0, 0, 0] ∧
    ((Mvmu.new demoBuilt).exec [.load [[1, 0, 0, 0], [0, 0, 0, 0], [0, 0, 0, 0], [0, 0, 0, 0]],
      .write 0 [-8, 0, 0, 0], .mvm quiet quiet, .mvm quiet quiet]).outreg.registers.map BitVec.toInt
      = [15 * 8, 0, 0, 0] := by
  constructor
  · decide +kernel
  · decide +kernel

/-- C11: reading `n` output registers from `start` returns each register divided by
`2^weight_frac_bits` rounded down; the registers, inputs and weights stay as they are. -/
theorem C11_read_floor (c c' : Config) (hs : Simulable c) (h : c.build = .ok c')
    (before : List UnitOp) (start n : Nat) (hle : start + n ≤ c.mvmuConfig.xbarSize) :
    ((Mvmu.new c').exec before).call (.read start n) =
      (.ok ((List.range n).map fun i =>
        (((Mvmu.new c').exec before).outreg.registers.getD (start + i) 0).toInt
          / 2 ^ c.dataConfig.weightFracBits),
       { ((Mvmu.new c').exec before) with
          outreg := { ((Mvmu.new c').exec before).outreg with
            stats := ((Mvmu.new c').exec before).outreg.stats.addRead 1 n } }) := by
  obtain ⟨-, hc, hd, hR⟩ := refines_built c c' hs h before
  generalize (Mvmu.new c').exec before = m at *
  have hsz : m.outreg.size = c.mvmuConfig.xbarSize := by
    rw [hR.stores.ok.outSize, hc, (build_fields c c' h).2.1]
  simp only [Mvmu.call, Mvmu.readFromOutreg, Int.toNat_natCast]
  rw [if_neg (by omega)]
  have hany : (((List.range n).map fun i => start + i).any
      fun i => decide (i ≥ m.outreg.size)) = false := by
    rw [List.any_eq_false]
    intro a ha
    simp only [List.mem_map, List.mem_range] at ha
    obtain ⟨b, hb, rfl⟩ := ha
    simp only [decide_eq_true_eq, ge_iff_le]
    omega
  simp only [OutReg.read, hany, Bool.false_eq_true, if_false, bind, Except.bind, keep, gather,
    List.length_map, List.length_range, List.map_map, Function.comp_def, hd]
  congr 2
  apply List.map_congr_left
  intro a _
  rw [BitVec.toInt_sshiftRight, Int.shiftRight_eq_div_pow]
  norm_cast

example : (((Mvmu.new demoBuilt).exec [.load demoWeights, .write 0 demoInput, .mvm quiet quiet]).call
    (.read 0 2)).1 = .ok [-2, 15] := by decide +kernel

end Ramwich
