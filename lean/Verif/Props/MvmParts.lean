import Verif.Props.Demo
import Verif.Lemmas.HeldCells

/-! # Properties of the parts of the matrix-vector unit (C01-C03, C10, C57) -/
namespace Ramwich

open Spec

/-! ## Stored weights -/

/-- C01: after loading a weight matrix and then using the unit in any way (products, writes, reads,
resets), the numbers held by the crossbars, weighted with their bit positions, add up to the
fixed-point weight modulo `2^weight_width`, with its sign. -/
theorem C01_slices_recombine (c c' : Config) (hs : Simulable c) (h : c.build = .ok c')
    (W : List (List ℚ))
    (hW : W.length = c.mvmuConfig.xbarSize ∧ ∀ row ∈ W, row.length = c.mvmuConfig.xbarSize)
    (before after : List UnitOp) (hafter : ∀ op ∈ after, ∀ W, op ≠ .load W)
    (r j : Nat) (hr : r < c.mvmuConfig.xbarSize) (hj : j < c.mvmuConfig.xbarSize) :
    ∑ k ∈ Finset.range c.dataConfig.storageConfig.length,
        2 ^ slicePos c.dataConfig.storageConfig k *
          heldCell c ((Mvmu.new c').exec (before ++ [.load W] ++ after)) k r j
      = heldWeight c.dataConfig.weightFracBits c.dataConfig.weightWidth ((W.getD r []).getD j 0) := by
  have hwid : slicePos c.dataConfig.storageConfig c.dataConfig.storageConfig.length
      = c.dataConfig.weightWidth := by
    have := (build_layout c c' h hs.rramFlag hs.sramFlag).2.1
    rwa [(build_fields c c' h).1] at this
  unfold heldWeight
  rw [← hwid, ← level_sum c.dataConfig.storageConfig _ _ le_rfl]
  push_cast
  rw [Finset.mul_sum]
  apply Finset.sum_congr rfl
  intro k hk
  rw [Finset.mem_range] at hk
  rw [heldCell_after c c' hs h W hW before after hafter k r j hk hr hj]
  unfold level
  push_cast
  ring

example (r j : Nat) (hr : r < 4) (hj : j < 4) :=
  C01_slices_recombine demo demoBuilt demo_simulable demo_build demoWeights demoWeights_shape
    [.reset] [.write 0 demoInput, .mvm quiet quiet] (by simp) r j hr hj

-- the cells of the three crossbars for weight -1/2 (= -4/8), and for 3 (= 24/8)
example : (List.range 3).map (fun k =>
    heldCell demo ((Mvmu.new demoBuilt).exec [.load demoWeights]) k 0 1) = [0, -1, 0] ∧
    (List.range 3).map (fun k =>
    heldCell demo ((Mvmu.new demoBuilt).exec [.load demoWeights]) k 3 0) = [0, 0, 3] := by
  constructor <;> decide +kernel

/-- C02: the number that the crossbars hold is within half a step of the weight exactly when the
rounded magnitude fits in `weight_width` bits. (For every weight value; by C01 the held number is
`heldWeight`.) -/
theorem C02_half_lsb_iff (frac width : Nat) (hw : 0 < width) (w : ℚ) :
    |heldWeight frac width w - w * 2 ^ frac| ≤ 1 / 2 ↔ magnitude frac w < 2 ^ width := by
  have habs : ∀ n : Nat, |(sgn w * (n : Int) : Int) - w * 2 ^ frac| = |(n : ℚ) - |w| * 2 ^ frac| ∨
      (w = 0) := by
    intro n
    rcases sgn_cases w with ⟨hlt, e⟩ | ⟨h0, e⟩ | ⟨hlt, e⟩
    · left; rw [e, abs_of_pos hlt]; push_cast; rw [one_mul]
    · right; exact h0
    · left; rw [e, abs_of_neg hlt]
      push_cast
      rw [← abs_neg]; congr 1; ring
  have hnn : 0 ≤ |w| * 2 ^ frac := by positivity
  have hround := roundHalfEven_le (|w| * 2 ^ frac)
  have hm0 : 0 ≤ roundHalfEven (|w| * 2 ^ frac) := by
    rw [abs_le] at hround
    have : (-1 : ℚ) < roundHalfEven (|w| * 2 ^ frac) := by linarith
    have : (-1 : Int) < roundHalfEven (|w| * 2 ^ frac) := by exact_mod_cast this
    omega
  have hmq : (magnitude frac w : ℚ) = roundHalfEven (|w| * 2 ^ frac) := by
    unfold magnitude
    have := Int.toNat_of_nonneg hm0
    exact_mod_cast this
  rw [abs_sub_comm, ← hmq] at hround
  unfold heldWeight
  rcases habs (magnitude frac w % 2 ^ width) with h | h
  · rw [h]
    constructor
    · intro hle
      by_contra hge
      have hge : 2 ^ width ≤ magnitude frac w := by omega
      have h2 : 2 ≤ 2 ^ width := by
        calc 2 = 2 ^ 1 := rfl
          _ ≤ 2 ^ width := Nat.pow_le_pow_right (by norm_num) hw
      have hmod : magnitude frac w % 2 ^ width + 2 ≤ magnitude frac w := by
        have := Nat.div_add_mod (magnitude frac w) (2 ^ width)
        have h1 : 1 ≤ magnitude frac w / 2 ^ width := Nat.div_pos hge (by positivity)
        have : 2 ^ width * 1 ≤ 2 ^ width * (magnitude frac w / 2 ^ width) :=
          Nat.mul_le_mul_left _ h1
        omega
      have hmodq : ((magnitude frac w % 2 ^ width : Nat) : ℚ) + 2 ≤ magnitude frac w := by
        exact_mod_cast hmod
      rw [abs_le] at hle hround
      linarith [hle.1, hround.2]
    · intro hlt
      rw [Nat.mod_eq_of_lt hlt]
      exact hround
  · rw [h]
    have : magnitude frac 0 = 0 := by
      simp [magnitude, roundHalfEven]
    simp [this, sgn]

example : |(heldWeight 3 5 (-31 / 16) : ℚ) - (-31 / 16) * 2 ^ 3| ≤ 1 / 2 :=
  (C02_half_lsb_iff 3 5 (by norm_num) (-31 / 16)).2 (by decide +kernel)

/-- C02: the claim "every weight is stored within half a step" is false: in the demo unit (weights
Q2.3) the weight 4 is accepted and every crossbar holds 0 for it. -/
theorem C02_out_of_range_witness :
    (Mvmu.new demoBuilt).run [.load [[4, 0, 0, 0], [0, 0, 0, 0], [0, 0, 0, 0], [0, 0, 0, 0]]]
      = [.ok []] ∧
    ∀ k < 3, heldCell demo ((Mvmu.new demoBuilt).exec
      [.load [[4, 0, 0, 0], [0, 0, 0, 0], [0, 0, 0, 0], [0, 0, 0, 0]]]) k 0 0 = 0 := by
  constructor <;> decide +kernel

/-! ## Input slices -/

/-- C03: the successive reads of an input register array. Read number `i` yields for every register
`x` a slice in `[0, 2^bits)`; the slices recombine to `x` modulo `2^(n*bits)`; after `n` reads the
register holds `x` shifted right arithmetically. -/
theorem C03_input_slices (reg : InReg) (bits : Nat) (hb : bits < 32) (n j : Nat)
    (hj : j < reg.registers.length) :
    let after := fun i => (fun r : InReg => (r.read bits).2)^[i] reg
    let slice := fun i => (((after i).read bits).1.getD j 0).toInt
    let x := (reg.registers.getD j 0).toInt
    (∀ i, 0 ≤ slice i ∧ slice i < 2 ^ bits) ∧
    ∑ i ∈ Finset.range n, 2 ^ (bits * i) * slice i = x % 2 ^ (bits * n) ∧
    ((after n).registers.getD j 0).toInt = x / 2 ^ (bits * n) ∧
    (after n).registers.length = reg.registers.length := by
  intro after slice x
  have hafter : ∀ i, (after i).registers
      = reg.registers.map fun v => v.sshiftRight (bits * i) := by
    intro i
    induction i with
    | zero => simp [after]
    | succ i ih =>
      have : after (i + 1) = ((after i).read bits).2 := Function.iterate_succ_apply' _ _ _
      rw [this]
      simp only [InReg.read, ih, List.map_map, Function.comp_def]
      apply List.map_congr_left
      intro v _
      apply BitVec.eq_of_toInt_eq
      simp only [BitVec.toInt_sshiftRight]
      rw [← Int.shiftRight_add]
      congr 1
  have hslice : ∀ i, slice i = inputSlice bits i x := by
    intro i
    simp only [slice, InReg.read, hafter]
    rw [List.map_map, List.getD_eq_getElem?_getD, List.getElem?_map, List.getElem?_eq_getElem hj]
    simp only [Option.map_some, Option.getD_some, Function.comp]
    have := sliceOf_toInt { demo.mvmuConfig with dacResolution := bits } hb (reg.registers[j]) i
    simp only [sliceOf] at this
    rw [this]
    simp only [x]
    rw [getD_of_lt _ _ _ hj]
  refine ⟨?_, ?_, ?_, ?_⟩
  · intro i; rw [hslice]; exact ⟨inputSlice_nonneg _ _ _, inputSlice_lt _ _ _⟩
  · simp only [hslice]; exact inputSlice_sum bits x n
  · rw [hafter, List.getD_eq_getElem?_getD, List.getElem?_map, List.getElem?_eq_getElem hj]
    simp only [Option.map_some, Option.getD_some, x]
    rw [getD_of_lt _ _ _ hj, BitVec.toInt_sshiftRight, Int.shiftRight_eq_div_pow]
    norm_cast
  · rw [hafter]; simp

example := C03_input_slices { size := 2, registers := [BitVec.ofInt 32 (-5), 9] } 2 (by norm_num) 3 0
  (by simp)

/-! ## ADC -/

/-- C10: one conversion of the ADC array of a built configuration. With `s` the current of one
unit of the crossbar, `p`, `q` the two currents:
* the output lies in `[-(2^res-1), 2^res-1]`;
* it is the difference of the rounded currents when that is in range, hence exact for whole steps and
  off by at most one step;
* otherwise it is the bound on the side of the difference;
* `overflow_times` grows by the number of entries out of range, `conversions` by the array size. -/
theorem C10_adc_convert (c c' : Config) (hs : Simulable c) (h : c.build = .ok c')
    (st st' : ADCStats) (pos neg : List (List ℚ)) (out : List (List Int))
    (hconv : adcConvert c'.mvmuConfig st pos neg = .ok (out, st')) :
    let s := fun a => stepOf c ((analogBits c.dataConfig.storageConfig).getD a 0)
    let p := fun a b => (pos.getD a []).getD b 0 / s a
    let q := fun a b => (neg.getD a []).getD b 0 / s a
    let raw := fun a b => roundHalfEven (p a b) - roundHalfEven (q a b)
    let top : Int := 2 ^ c.mvmuConfig.adcResolution - 1
    let rows := (analogBits c.dataConfig.storageConfig).length
    let cols := c.mvmuConfig.xbarSize / c.mvmuConfig.numColumnsPerAdc
    (∀ a < rows, ∀ b < cols,
      -top ≤ (out.getD a []).getD b 0 ∧ (out.getD a []).getD b 0 ≤ top ∧
      (|raw a b| ≤ top → (out.getD a []).getD b 0 = raw a b ∧ |(raw a b : ℚ) - (p a b - q a b)| ≤ 1) ∧
      (top < raw a b → (out.getD a []).getD b 0 = top) ∧
      (raw a b < -top → (out.getD a []).getD b 0 = -top)) ∧
    st'.overflowTimes = st.overflowTimes +
      ∑ a ∈ Finset.range rows, ((Finset.range cols).filter fun b => top < |raw a b|).card ∧
    st'.conversions = st.conversions +
      rows * cols * (if c.mvmuConfig.adcType = .differential then 1 else 2) := by
  intro s p q raw top rows cols
  obtain ⟨hl, -, -⟩ := build_layout c c' h hs.rramFlag hs.sramFlag
  obtain ⟨f1, f2, f3, f4, f5, f6, f7, f8, f9⟩ := build_fields c c' h
  have hty : c'.mvmuConfig.adcType = c.mvmuConfig.adcType := by
    unfold Config.build MVMUConfig.init at h
    split at h
    · simp at h
    rename_i m hm
    split at hm
    · simp at hm
    split at hm
    · simp at hm
    simp only [Except.ok.injEq] at hm
    subst hm
    unfold Config.validateAndCalculate at h
    simp only at h
    split at h
    · simp at h
    split at h
    · simp at h
    simp only [Except.ok.injEq] at h
    subst h
    rfl
  rw [f1] at hl
  have hcols : c'.mvmuConfig.numAdcPerXbar = cols := by
    have h1 := hl.size
    rw [f2, f3] at h1
    have h2 := hl.cpaPos
    rw [f3] at h2
    simp only [cols]
    rw [h1, Nat.mul_div_cancel _ h2]
  have hbits : c'.mvmuConfig.xbarBits = analogBits c.dataConfig.storageConfig := by
    rw [xbarBits_eq _ _ hl, analogBits_eq]
  have hrows : c'.mvmuConfig.numRramXbarPerMvmu = rows := by
    rw [hl.numRram]; simp only [rows]; rw [← analogBits_eq]; simp
  have htop : c'.mvmuConfig.adcMax = top := by
    simp only [MVMUConfig.adcMax, f5, Nat.one_shiftLeft, top]; push_cast; rfl
  have hstep : ∀ b, c'.mvmuConfig.currentStep b = stepOf c b := by
    intro b; simp only [MVMUConfig.currentStep, stepOf, f4, f6, f7, f8]
  unfold adcConvert at hconv
  split at hconv
  · simp at hconv
  rename_i hshape
  simp only [not_not] at hshape
  obtain ⟨hp, hq⟩ := hshape
  split at hconv
  · simp at hconv
  simp only [Except.ok.injEq, Prod.mk.injEq] at hconv
  obtain ⟨hout, hst⟩ := hconv
  rw [hrows, hcols] at hp hq
  have hints : adcZip adcInt (c'.mvmuConfig.xbarBits.map c'.mvmuConfig.currentStep) pos neg
      = (List.range rows).map fun a => (List.range cols).map (raw a) := by
    have e1 : c'.mvmuConfig.xbarBits.map c'.mvmuConfig.currentStep = (List.range rows).map s := by
      rw [hbits]
      conv => lhs; rw [list_eq_range_map (analogBits c.dataConfig.storageConfig) 0]
      rw [List.map_map]
      apply List.map_congr_left
      intro a _
      exact hstep _
    rw [e1, shape2_canonical pos _ _ 0 hp, shape2_canonical neg _ _ 0 hq]
    simp only [adcZip, zip_map_same, zipWith_map_same]
    rfl
  rw [hints, htop] at hout hst
  have htop0 : 0 ≤ top := by
    simp only [top, sub_nonneg]; exact one_le_pow₀ (by norm_num)
  refine ⟨?_, ?_, ?_⟩
  · intro a ha b hb
    have hval : (out.getD a []).getD b 0 = npClip (raw a b) (-top) top := by
      rw [← hout]
      simp only [List.map_map, Function.comp_def]
      rw [getD_range_map _ _ _ _ ha, getD_range_map _ _ _ _ hb]
    rw [hval]
    unfold npClip
    refine ⟨by omega, by omega, ?_, by omega, by omega⟩
    intro hle
    rw [abs_le] at hle
    refine ⟨by omega, ?_⟩
    have r1 := roundHalfEven_le (p a b)
    have r2 := roundHalfEven_le (q a b)
    simp only [raw]
    push_cast
    rw [abs_le] at r1 r2 ⊢
    constructor <;> linarith [r1.1, r1.2, r2.1, r2.2]
  · rw [← hst]
    simp only [List.map_map, Function.comp_def]
    congr 1
    rw [sum_range_map]
    apply Finset.sum_congr rfl
    intro a _
    rw [List.countP_map]
    have hcount : ∀ (P : Nat → Prop) [DecidablePred P] (n : Nat),
        ((List.range n).countP fun b => decide (P b)) = ((Finset.range n).filter P).card := by
      intro P _ n
      induction n with
      | zero => rfl
      | succ n ih =>
        rw [List.range_succ, List.countP_append, ih, Finset.range_add_one, Finset.filter_insert]
        by_cases hP : P n
        · simp [hP]
        · simp [hP]
    have := hcount (fun b => top < |raw a b|) cols
    rw [← this]
    apply List.countP_congr
    intro b _
    simp only [Function.comp, decide_eq_true_eq, lt_abs]
    constructor <;> intro hh <;> omega
  · rw [← hst]
    simp only [MVMUConfig.adcSize, hrows, hcols, hty]

example : ∃ out st', adcConvert demoBuilt.mvmuConfig {} [[7 / 2, 40], [2, -1]] [[1, 0], [9 / 4, 30]]
    = .ok (out, st') :=
  ⟨[[3, 15], [0, -15]],
    { conversions := 8, overflowTimes := 2, conversionErrors := 3 / 4, activeCycles := 50 },
    by decide +kernel⟩

/-! ## Counters -/

/-- C57: every product adds fixed amounts to the activity counters, whatever the weights, inputs,
noise and history: with `n = ceil(activation_width / resolution)` slices, `g` columns per ADC, and
`a` ADCs per crossbar line. -/
theorem C57_mvm_counters (c c' : Config) (hs : Simulable c) (h : c.build = .ok c')
    (before : List UnitOp) (ep en : Nat → Nat → Nat → Nat → ℚ) :
    let m := (Mvmu.new c').exec before
    let m' := (Mvmu.new c').exec (before ++ [.mvm ep en])
    let n := numSlices c.dataConfig.activationWidth c.mvmuConfig.dacResolution
    let g := c.mvmuConfig.numColumnsPerAdc
    let a := c.mvmuConfig.xbarSize / g
    let xbars := c.dataConfig.storageConfig.length
    let rrams := (c.dataConfig.storageConfig.filter fun b => decide (b ≠ .sram)).length
    let srams := (c.dataConfig.storageConfig.filter fun b => decide (b = .sram)).length
    m'.dacStats.conversions = m.dacStats.conversions
      + (if rrams = 0 then 0 else n * c.mvmuConfig.xbarSize) ∧
    m'.adcStats.conversions = m.adcStats.conversions
      + n * g * (rrams * a * (if c'.mvmuConfig.adcType = .differential then 1 else 2)) ∧
    m'.rram.mvmOperations = m.rram.mvmOperations + n * (rrams * 2) ∧
    m'.snhPosSamples = m.snhPosSamples + n * (rrams * c.mvmuConfig.xbarSize) ∧
    m'.snhNegSamples = m.snhNegSamples + n * (rrams * c.mvmuConfig.xbarSize) ∧
    m'.muxPosSelections = m.muxPosSelections + n * g * (rrams * a) ∧
    m'.muxNegSelections = m.muxNegSelections + n * g * (rrams * a) ∧
    m'.muxSramSelections = m.muxSramSelections + n * g * (srams * a) ∧
    m'.sram.macOperations = m.sram.macOperations + n * (srams * 2 * c.mvmuConfig.xbarSize) ∧
    m'.snaOperations = m.snaOperations + n * g * (xbars * a + a) ∧
    m'.inreg.stats.readOperations = m.inreg.stats.readOperations + n ∧
    m'.outreg.stats.readOperations = m.outreg.stats.readOperations + n * g ∧
    m'.outreg.stats.writeOperations = m.outreg.stats.writeOperations + (1 + n * g) := by
  intro m m' n g a xbars rrams srams
  obtain ⟨-, hc, hd, hR⟩ := refines_built c c' hs h before
  obtain ⟨f1, f2, f3, f4, f5, f6, f7, f8, f9⟩ := build_fields c c' h
  have he := electrical_of c c' hs h
  have hlat := latencies_of c c' hs h
  rw [← hc] at he hlat
  obtain ⟨ov, er, hex⟩ := executeMvm_value m _ hR.stores he _ _ hlat
    (fun i => { pos := ep i, neg := en i })
  have hm' : m' = (m.call (.mvm ep en)).2 := by
    simp only [m', m, mvmuExec_append]; rfl
  have hcall : m.call (.mvm ep en)
      = keep m (fun _ : Unit => []) ((m.executeMvm fun i => { pos := ep i, neg := en i }).map
        fun m => ((), m)) := rfl
  rw [hex] at hcall
  simp only [Except.map, keep] at hcall
  rw [hcall] at hm'
  have hl := hR.stores.ok.layout
  simp only [show (Mvmu.new c').exec before = m from rfl] at hl hc hd
  have hnum : m.numIterations = n := by
    simp only [Mvmu.numIterations, hc, hd, f4, n, numSlices]
  have hlen : ∀ st : List BitConfig,
      (rramIdx st).length = (st.filter fun b => decide (b ≠ .sram)).length := by
    intro st
    have := congrArg List.length (analogBits_eq st)
    simpa [analogBits] using this
  have hrr : m.cfg.numRramXbarPerMvmu = rrams := by
    rw [hl.numRram, hlen, hd]
  have hsr : m.cfg.numSramXbarPerMvmu = srams := by
    have h1 := rramIdx_sramIdx_length m.data.storageConfig
    rw [hl.numSram]
    rw [hlen, hd] at h1
    have h2 := List.length_eq_length_filter_add (l := c.dataConfig.storageConfig)
      (fun b => decide (b ≠ .sram))
    have h3 : (c.dataConfig.storageConfig.filter fun b => !decide (b ≠ .sram)).length = srams := by
      simp [srams]
    rw [hd]
    omega
  have hg : m.cfg.numColumnsPerAdc = g := by rw [hc, f3]
  have hsz : m.cfg.xbarSize = c.mvmuConfig.xbarSize := by rw [hc, f2]
  have ha : m.cfg.numAdcPerXbar = a := by
    have h1 := hl.size
    rw [hg, hsz] at h1
    have h2 := hl.cpaPos
    rw [hg] at h2
    simp only [a]
    rw [h1, Nat.mul_div_cancel _ h2]
  have hx : m.cfg.numXbarPerMvmu = xbars := by rw [hl.numXbar, hd]
  have hhave : m.cfg.haveRramXbar = true ↔ rrams ≠ 0 := by
    rw [hl.haveRram, ← hrr, hl.numRram, ne_eq, ne_eq, List.length_eq_zero_iff]
  rw [hm']
  have hty : c'.mvmuConfig.adcType = m.cfg.adcType := by rw [hc]
  rw [hty]
  refine ⟨?_, ?_, ?_, ?_, ?_, ?_, ?_, ?_, ?_, ?_, ?_, ?_, ?_⟩
  · by_cases h0 : rrams = 0
    · have : ¬ m.cfg.haveRramXbar = true := fun hh => hhave.1 hh h0
      simp [exState, h0, this]
    · have : m.cfg.haveRramXbar = true := hhave.2 h0
      simp [exState, h0, this, hnum, hsz]
  · simp only [exState, MVMUConfig.adcSize, hnum, hrr, hg, ha]
  · simp only [exState, hnum, hrr]
  · simp only [exState, hnum, hrr, hsz]
  · simp only [exState, hnum, hrr, hsz]
  · simp only [exState, hnum, hrr, hg, ha]
  · simp only [exState, hnum, hrr, hg, ha]
  · simp only [exState, hnum, hsr, hg, ha]
  · simp only [exState, hnum, hsr, hsz]
  · simp only [exState, MVMUConfig.snaSize, hnum, hx, hg, ha]
  · simp only [exState, MemoryStats.plus, hnum]
  · simp only [exState, MemoryStats.plus, OutReg.cleanCells, MemoryStats.addWrite, hnum, hg]
    push_cast; rfl
  · simp only [exState, MemoryStats.plus, OutReg.cleanCells, MemoryStats.addWrite, hnum, hg]
    push_cast; ring

example := C57_mvm_counters demo demoBuilt demo_simulable demo_build
  [.load demoWeights, .write 0 demoInput] quiet quiet

end Ramwich
