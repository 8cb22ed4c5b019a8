import Verif.Lemmas.Execute
import Mathlib.Algebra.BigOperators.Field
import Mathlib.Tactic.FieldSimp
import Mathlib.Tactic.Positivity
import Mathlib.Tactic.Linarith

/-! # The value computed by `execute_mvm` in terms of the loaded weights -/
namespace Ramwich

open Spec

/-- The crossbars hold the weight matrix `W`. -/
structure Stores (m : Mvmu) (W : Nat → Nat → ℚ) : Prop where
  ok : MvmuOk m
  rpos : m.rram.posXbar = (rramIdx m.data.storageConfig).map fun k =>
    matOf m.cfg.xbarSize fun r j => max (rramCell m W k r j) 0
  rneg : m.rram.negXbar = (rramIdx m.data.storageConfig).map fun k =>
    matOf m.cfg.xbarSize fun r j => max (-rramCell m W k r j) 0
  spos : m.sram.posXbar = (sramIdx m.data.storageConfig).map fun k =>
    matOf m.cfg.xbarSize fun r j => if sramCell m W k r j = 1 then 1 else 0
  sneg : m.sram.negXbar = (sramIdx m.data.storageConfig).map fun k =>
    matOf m.cfg.xbarSize fun r j => if sramCell m W k r j = -1 then 1 else 0

theorem sliceOf_toInt (c : MVMUConfig) (hres : c.dacResolution < 32) (x : I32) (i : Nat) :
    (sliceOf c (x.sshiftRight (c.dacResolution * i))).toInt
      = inputSlice c.dacResolution i x.toInt := by
  set n := c.dacResolution with hn
  set y := x.sshiftRight (n * i) with hy
  have hyi : y.toInt = x.toInt / 2 ^ (n * i) := by
    rw [hy, BitVec.toInt_sshiftRight, Int.shiftRight_eq_div_pow]
    norm_cast
  have hlt : 2 ^ n < 2 ^ 32 := Nat.pow_lt_pow_right (by norm_num) hres
  have h1 : (sliceOf c y).toNat = y.toNat % 2 ^ n := by
    unfold sliceOf
    rw [BitVec.toNat_and, BitVec.toNat_ofNat, ← hn, Nat.one_shiftLeft,
      Nat.mod_eq_of_lt (by omega), Nat.and_two_pow_sub_one_eq_mod]
  have h31 : 2 ^ n ≤ 2 ^ 31 := Nat.pow_le_pow_right (by norm_num) (by omega)
  have hpos : 0 < 2 ^ n := by positivity
  have hb : (sliceOf c y).toNat < 2 ^ 31 := by
    rw [h1]; exact lt_of_lt_of_le (Nat.mod_lt _ hpos) h31
  rw [BitVec.toInt_eq_toNat_of_lt (by omega), h1]
  unfold inputSlice
  rw [← hyi]
  have : y.toInt % (2 ^ n : Nat) = ((y.toNat % 2 ^ n : Nat) : Int) := by
    have hdvd : ((2 ^ n : Nat) : Int) ∣ ((2 ^ 32 : Nat) : Int) := by
      exact Int.natCast_dvd_natCast.2 (Nat.pow_dvd_pow 2 (by omega))
    rw [BitVec.toInt_eq_toNat_bmod]
    have h2 := Int.emod_emod_of_dvd (Int.bmod (↑y.toNat) (2 ^ 32)) hdvd
    rw [← h2, Int.bmod_emod, Int.emod_emod_of_dvd _ hdvd, Int.natCast_mod]
  rw [← this]
  norm_cast

theorem inputSlice_nonneg (res i : Nat) (x : Int) : 0 ≤ inputSlice res i x :=
  Int.emod_nonneg _ (by positivity)

theorem inputSlice_lt (res i : Nat) (x : Int) : inputSlice res i x < 2 ^ res :=
  Int.emod_lt_of_pos _ (by positivity)

theorem maxValue_pos (n : Nat) (hn : n ≠ 0) : (0 : ℚ) < 2 ^ n - 1 := by
  have : (1 : ℚ) < 2 ^ n := one_lt_pow₀ (by norm_num) hn
  linarith

theorem voltOf_eq (c : MVMUConfig) (h0 : c.dacResolution ≠ 0) (hres : c.dacResolution < 32)
    (x : I32) (i : Nat) :
    voltOf c (x.sshiftRight (c.dacResolution * i))
      = (inputSlice c.dacResolution i x.toInt : ℚ) * (c.vdd / (2 ^ c.dacResolution - 1)) := by
  unfold voltOf
  rw [sliceOf_toInt c hres]
  have hm : (((1 <<< c.dacResolution) - 1 : Nat) : ℚ) = 2 ^ c.dacResolution - 1 := by
    rw [Nat.one_shiftLeft, Nat.cast_sub (Nat.one_le_two_pow)]; norm_num
  rw [hm]
  have hp := maxValue_pos c.dacResolution h0
  have hs0 : (0 : ℚ) ≤ inputSlice c.dacResolution i x.toInt := by
    exact_mod_cast inputSlice_nonneg _ _ _
  have hs1 : (inputSlice c.dacResolution i x.toInt : ℚ) ≤ 2 ^ c.dacResolution - 1 := by
    have := inputSlice_lt c.dacResolution i x.toInt
    have h2 : inputSlice c.dacResolution i x.toInt ≤ 2 ^ c.dacResolution - 1 := by omega
    exact_mod_cast h2
  unfold npClip
  rw [max_eq_left (by positivity), min_eq_right (by rw [div_le_one hp]; exact hs1)]
  ring

/-- The analog parameters of a unit during one `execute_mvm` with the given noise. -/
def analogOf (c : MVMUConfig) (noise : Nat → Noise) : Analog where
  gmin := c.conductanceMin
  gmax := c.conductanceMax
  errPos := fun i k r j => if c.hasNoise then (noise i).pos k r j else 0
  errNeg := fun i k r j => if c.hasNoise then (noise i).neg k r j else 0

/-- Physically sensible electrical parameters. -/
structure Electrical (c : MVMUConfig) : Prop where
  gmin : 0 ≤ c.conductanceMin
  gmax : c.conductanceMin < c.conductanceMax
  vdd : 0 < c.vdd
  res : c.dacResolution ≠ 0
  res' : c.dacResolution < 32

theorem unit_pos (c : MVMUConfig) (he : Electrical c) (noise : Nat → Noise) (b : Nat) (hb : 0 < b) :
    0 < (analogOf c noise).unit b := by
  unfold Analog.unit analogOf
  have := maxValue_pos b (by omega)
  have := he.gmax
  exact div_pos (by show 0 < c.conductanceMax - c.conductanceMin; linarith) (by linarith)

theorem conductance_nonneg (c : MVMUConfig) (he : Electrical c) (b v : Nat) (hb : 0 < b) :
    0 ≤ conductance c b v := by
  unfold conductance
  have h1 := maxValue_pos b (by omega)
  have h2 := he.gmin
  have h3 := he.gmax
  have h4 : 0 ≤ (c.conductanceMax - c.conductanceMin) / (2 ^ b - 1) :=
    div_nonneg (by linarith) h1.le
  have : (0 : ℚ) ≤ v * ((c.conductanceMax - c.conductanceMin) / (2 ^ b - 1)) := by positivity
  linarith

theorem posCell (m : Mvmu) (he : Electrical m.cfg) (W : Nat → Nat → ℚ) (k r j : Nat) :
    max (rramCell m W k r j) 0 = if 0 < W r j then
      conductance m.cfg (bitsOf m.data.storageConfig k)
        (level m.data.storageConfig m.data.weightFracBits (W r j) k) else 0 := by
  have h := conductance_nonneg m.cfg he (bitsOf m.data.storageConfig k)
    (level m.data.storageConfig m.data.weightFracBits (W r j) k) (bitsOf_pos _ _)
  unfold rramCell sgn
  split_ifs <;> simp [h]

theorem negCell (m : Mvmu) (he : Electrical m.cfg) (W : Nat → Nat → ℚ) (k r j : Nat) :
    max (-rramCell m W k r j) 0 = if W r j < 0 then
      conductance m.cfg (bitsOf m.data.storageConfig k)
        (level m.data.storageConfig m.data.weightFracBits (W r j) k) else 0 := by
  have h := conductance_nonneg m.cfg he (bitsOf m.data.storageConfig k)
    (level m.data.storageConfig m.data.weightFracBits (W r j) k) (bitsOf_pos _ _)
  unfold rramCell sgn
  rcases lt_trichotomy (W r j) 0 with hw | hw | hw
  · simp [hw, not_lt.2 hw.le, h]
  · simp [hw]
  · simp [hw, not_lt.2 hw.le, h]

theorem currentStep_eq (c : MVMUConfig) (noise : Nat → Noise) (b : Nat) :
    c.currentStep b = c.vdd / (2 ^ c.dacResolution - 1) * (analogOf c noise).unit b := rfl

theorem line_div (c : MVMUConfig) (he : Electrical c) (noise : Nat → Noise) (b : Nat) (hb : 0 < b)
    (g s : ℚ) :
    g * (s * (c.vdd / (2 ^ c.dacResolution - 1))) / c.currentStep b
      = g / (analogOf c noise).unit b * s := by
  rw [currentStep_eq c noise]
  have h1 := unit_pos c he noise b hb
  have h2 := maxValue_pos c.dacResolution he.res
  have h3 := he.vdd
  field_simp

theorem posLine (m : Mvmu) (he : Electrical m.cfg) (W : Nat → Nat → ℚ) (noise : Nat → Noise)
    (X : Nat → I32) (k i r : Nat) :
    lineCurrent m.cfg m.data.storageConfig (fun k r j => max (rramCell m W k r j) 0) (noise i).pos
      (fun j => (X j).sshiftRight (m.cfg.dacResolution * i)) k r
      / m.cfg.currentStep (bitsOf m.data.storageConfig k)
    = (analogOf m.cfg noise).posSum m.data.storageConfig m.data.weightFracBits m.cfg.xbarSize
        m.cfg.dacResolution W (fun j => (X j).toInt) k i r := by
  have hb := bitsOf_pos m.data.storageConfig k
  unfold lineCurrent Analog.posSum
  rw [Finset.sum_div]
  apply Finset.sum_congr rfl
  intro j _
  dsimp only
  rw [voltOf_eq _ he.res he.res', line_div _ he noise _ hb, posCell m he, add_div]
  congr 2
  split_ifs
  · unfold conductance
    rw [add_div]
    have := unit_pos m.cfg he noise _ hb
    have e : (m.cfg.conductanceMax - m.cfg.conductanceMin)
        / (2 ^ bitsOf m.data.storageConfig k - 1)
        = (analogOf m.cfg noise).unit (bitsOf m.data.storageConfig k) := rfl
    rw [e, mul_div_cancel_right₀ _ this.ne']
    rfl
  · simp

theorem negLine (m : Mvmu) (he : Electrical m.cfg) (W : Nat → Nat → ℚ) (noise : Nat → Noise)
    (X : Nat → I32) (k i r : Nat) :
    lineCurrent m.cfg m.data.storageConfig (fun k r j => max (-rramCell m W k r j) 0) (noise i).neg
      (fun j => (X j).sshiftRight (m.cfg.dacResolution * i)) k r
      / m.cfg.currentStep (bitsOf m.data.storageConfig k)
    = (analogOf m.cfg noise).negSum m.data.storageConfig m.data.weightFracBits m.cfg.xbarSize
        m.cfg.dacResolution W (fun j => (X j).toInt) k i r := by
  have hb := bitsOf_pos m.data.storageConfig k
  unfold lineCurrent Analog.negSum
  rw [Finset.sum_div]
  apply Finset.sum_congr rfl
  intro j _
  dsimp only
  rw [voltOf_eq _ he.res he.res', line_div _ he noise _ hb, negCell m he, add_div]
  congr 2
  split_ifs
  · unfold conductance
    rw [add_div]
    have := unit_pos m.cfg he noise _ hb
    have e : (m.cfg.conductanceMax - m.cfg.conductanceMin)
        / (2 ^ bitsOf m.data.storageConfig k - 1)
        = (analogOf m.cfg noise).unit (bitsOf m.data.storageConfig k) := rfl
    rw [e, mul_div_cancel_right₀ _ this.ne']
    rfl
  · simp

theorem ofInt_finset_sum (n : Nat) (f : Nat → Int) :
    BitVec.ofInt 32 (∑ j ∈ Finset.range n, f j) = ∑ j ∈ Finset.range n, BitVec.ofInt 32 (f j) := by
  induction n with
  | zero => simp
  | succ n ih => rw [Finset.sum_range_succ, Finset.sum_range_succ, BitVec.ofInt_add, ih]

theorem level_sram_lt (st : List BitConfig) (frac : Nat) (w : ℚ) (k : Nat)
    (h : isRram st k = false) : level st frac w k < 2 := by
  unfold level
  have hb : bitsOf st k = 1 := by
    unfold isRram at h
    simp only [ne_eq, decide_not, Bool.not_eq_false', decide_eq_true_eq] at h
    unfold bitsOf
    rw [h]; rfl
  rw [hb]
  exact Nat.mod_lt _ (by norm_num)

theorem digitalSum_eq (m : Mvmu) (he : Electrical m.cfg) (W : Nat → Nat → ℚ) (X : Nat → I32)
    (k i r : Nat) (hk : isRram m.data.storageConfig k = false) :
    digitalSum m.cfg (fun k r j => if sramCell m W k r j = 1 then 1 else 0)
      (fun k r j => if sramCell m W k r j = -1 then 1 else 0)
      (fun j => (X j).sshiftRight (m.cfg.dacResolution * i)) k r
    = BitVec.ofInt 32 (partialSum m.data.storageConfig m.data.weightFracBits m.cfg.xbarSize
        m.cfg.dacResolution W (fun j => (X j).toInt) k i r) := by
  unfold digitalSum partialSum
  rw [ofInt_finset_sum, ← Finset.sum_sub_distrib]
  apply Finset.sum_congr rfl
  intro j _
  rw [← sliceOf_toInt m.cfg he.res', BitVec.ofInt_mul, BitVec.ofInt_toInt, ← sub_mul]
  congr 1
  have hlt := level_sram_lt m.data.storageConfig m.data.weightFracBits (W r j) k hk
  have h3 : sgn (W r j) = 1 ∨ sgn (W r j) = -1 ∨ sgn (W r j) = 0 := by
    unfold sgn; split_ifs <;> simp
  unfold sramCell
  dsimp only
  generalize level m.data.storageConfig m.data.weightFracBits (W r j) k = l at *
  generalize sgn (W r j) = s at *
  have hl : l = 0 ∨ l = 1 := by omega
  rcases h3 with rfl | rfl | rfl <;> rcases hl with rfl | rfl <;> decide

theorem adcMax_eq (c : MVMUConfig) : c.adcMax = 2 ^ c.adcResolution - 1 := by
  unfold MVMUConfig.adcMax
  rw [Nat.one_shiftLeft]; push_cast; rfl

/-- Everything that reaches an output register, modulo `2^32`. -/
theorem registers_value (m : Mvmu) (he : Electrical m.cfg) (W : Nat → Nat → ℚ)
    (noise : Nat → Noise) (X : Nat → I32) (r : Nat) :
    BitVec.ofInt 32 (∑ i ∈ Finset.range m.numIterations, 2 ^ i *
        sliceValue m (fun k r j => max (rramCell m W k r j) 0)
          (fun k r j => max (-rramCell m W k r j) 0)
          (fun k r j => if sramCell m W k r j = 1 then 1 else 0)
          (fun k r j => if sramCell m W k r j = -1 then 1 else 0) (noise i)
          (fun j => (X j).sshiftRight (m.cfg.dacResolution * i)) r)
    = BitVec.ofInt 32 ((analogOf m.cfg noise).mvmValue m.data.storageConfig m.data.weightFracBits
        m.cfg.xbarSize m.cfg.dacResolution m.data.activationWidth m.cfg.adcResolution W
        (fun j => (X j).toInt) r) := by
  unfold Analog.mvmValue
  have hn : m.numIterations = numSlices m.data.activationWidth m.cfg.dacResolution := rfl
  rw [hn, ofInt_finset_sum, ofInt_finset_sum]
  apply Finset.sum_congr rfl
  intro i _
  rw [BitVec.ofInt_mul, BitVec.ofInt_mul]
  congr 1
  unfold sliceValue
  rw [ofInt_finset_sum, ofInt_finset_sum]
  apply Finset.sum_congr rfl
  intro k _
  unfold colValue
  cases hk : isRram m.data.storageConfig k
  · simp only [Bool.false_eq_true, if_false]
    rw [digitalSum_eq m he W X k i r hk, ofInt_toInt_mul]
  · simp only [if_true]
    unfold adcInt Analog.column saturate npClip
    rw [posLine m he, negLine m he, adcMax_eq]

end Ramwich
