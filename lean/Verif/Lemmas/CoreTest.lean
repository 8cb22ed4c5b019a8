import Verif.Props.TileTest
import Verif.Spec.CoreTest
import Verif.Lemmas.Accuracy
namespace Ramwich
open Spec
theorem parity_cases (w : Int) : parity w = 0 ∨ parity w = 1 ∨ parity w = -1 := by
  unfold parity
  rcases Nat.mod_two_eq_zero_or_one w.natAbs with h | h <;> rw [h]
  · simp
  · rcases Int.lt_trichotomy w 0 with h | h | h
    · rw [Int.sign_eq_neg_one_of_neg h]; simp
    · rw [h]; simp
    · rw [Int.sign_eq_one_of_pos h]; simp

theorem sgn_int (n : Int) : sgn (n : ℚ) = n.sign := by
  unfold sgn
  rcases Int.lt_trichotomy n 0 with h | h | h
  · rw [Int.sign_eq_neg_one_of_neg h, if_neg (by simp; omega), if_pos (by exact_mod_cast h)]
  · simp [h]
  · rw [Int.sign_eq_one_of_pos h, if_pos (by exact_mod_cast h)]

theorem magnitude_int (n : Int) : magnitude 7 (n : ℚ) = n.natAbs * 128 := by
  unfold magnitude
  have : |(n : ℚ)| * 2 ^ 7 = ((|n| * 128 : Int) : ℚ) := by push_cast; norm_num
  rw [this, roundHalfEven_intCast, Int.abs_eq_natAbs]
  omega

theorem held_int (n : Int) : heldWeight 7 8 (n : ℚ) = 128 * parity n := by
  unfold heldWeight parity
  rw [sgn_int, magnitude_int]
  have : n.natAbs * 128 % 2 ^ 8 = 128 * (n.natAbs % 2) := by omega
  rw [this]
  push_cast
  ring

theorem level_int (n : Int) (k : Nat) (hk : k < 4) :
    sgn (n : ℚ) * (level [.mlc, .mlc, .mlc, .mlc] 7 (n : ℚ) k : Int) = if k = 3 then 2 * parity n else 0 := by
  unfold level parity
  rw [sgn_int, magnitude_int]
  have : k = 0 ∨ k = 1 ∨ k = 2 ∨ k = 3 := by omega
  rcases this with rfl | rfl | rfl | rfl
  · have : n.natAbs * 128 / 2 ^ slicePos [.mlc, .mlc, .mlc, .mlc] 0 % 2 ^ bitsOf [.mlc, .mlc, .mlc, .mlc] 0 = 0 := by
      show n.natAbs * 128 / 2 ^ 0 % 2 ^ 2 = 0
      omega
    rw [this]; simp
  · have : n.natAbs * 128 / 2 ^ slicePos [.mlc, .mlc, .mlc, .mlc] 1 % 2 ^ bitsOf [.mlc, .mlc, .mlc, .mlc] 1 = 0 := by
      show n.natAbs * 128 / 2 ^ 2 % 2 ^ 2 = 0
      omega
    rw [this]; simp
  · have : n.natAbs * 128 / 2 ^ slicePos [.mlc, .mlc, .mlc, .mlc] 2 % 2 ^ bitsOf [.mlc, .mlc, .mlc, .mlc] 2 = 0 := by
      show n.natAbs * 128 / 2 ^ 4 % 2 ^ 2 = 0
      omega
    rw [this]; simp
  · have : n.natAbs * 128 / 2 ^ slicePos [.mlc, .mlc, .mlc, .mlc] 3 % 2 ^ bitsOf [.mlc, .mlc, .mlc, .mlc] 3 = 2 * (n.natAbs % 2) := by
      show n.natAbs * 128 / 2 ^ 6 % 2 ^ 2 = _
      omega
    rw [this]
    push_cast
    ring

theorem sum_not_full {n : Nat} {f : Nat → Int} (h : ∀ j < n, f j ≤ 1) (h0 : ∃ j < n, f j ≤ 0) :
    ∑ j ∈ Finset.range n, f j < n := by
  obtain ⟨j, hj, hj0⟩ := h0
  have := Finset.sum_lt_sum (s := Finset.range n) (f := f) (g := fun _ => (1 : Int))
    (fun i hi => h i (Finset.mem_range.1 hi)) ⟨j, Finset.mem_range.2 hj, by omega⟩
  simpa using this

theorem slice_bit (i : Nat) (x : Int) : inputSlice 1 i x = 0 ∨ inputSlice 1 i x = 1 := by
  unfold inputSlice
  omega

theorem coreTest_unit (fl : FloatActs) : let u := (coreParamsWith tileTestBuilt fl).unit
    u.storage = [.mlc, .mlc, .mlc, .mlc] ∧ u.frac = 7 ∧ u.size = 128 ∧ u.res = 1 ∧ u.width = 8 ∧ u.adcBits = 8 ∧ u.gmin = 0 ∧
      u.hasNoise = false := by
  show tileTestBuilt.dataConfig.storageConfig = _ ∧ tileTestBuilt.dataConfig.weightFracBits = 7 ∧
    tileTestBuilt.mvmuConfig.xbarSize = 128 ∧ tileTestBuilt.mvmuConfig.dacResolution = 1 ∧
    tileTestBuilt.dataConfig.activationWidth = 8 ∧ tileTestBuilt.mvmuConfig.adcResolution = 8 ∧
    tileTestBuilt.mvmuConfig.conductanceMin = 0 ∧ tileTestBuilt.mvmuConfig.hasNoise = false
  decide +kernel

/-- A unit with integer weights. -/
theorem product_parity (fl : FloatActs) (e : MvmErrors) (W : Nat → Nat → ℚ) (m : Nat → Nat → Int)
    (hW : ∀ r < 128, ∀ j < 128, W r j = m r j) (hm : mixedRows m) (x : List Int) (hx : ∀ j, 0 ≤ x.getD j 0 ∧ x.getD j 0 ≤ 255) :
    (coreParamsWith tileTestBuilt fl).product W e x 128
      = (List.range 128).map fun r => ∑ j ∈ Finset.range 128, parity (m r j) * x.getD j 0 := by
  obtain ⟨h1, h2, h3, h4, h5, h6, h7, h8⟩ := coreTest_unit fl
  unfold CoreParams.product
  apply List.map_congr_left
  intro r hr
  rw [List.mem_range] at hr
  rw [mvmValue_ideal _ _ _ _ _ _ _ _ _ _ h7 (fun i k r j => by simp [UnitParams.analog, h8])
    (fun i k r j => by simp [UnitParams.analog, h8]), h1, h2, h3, h4, h5, h6, mvmValue_res1]
  · have hsum : ∑ j ∈ Finset.range 128, heldWeight 7 (slicePos [.mlc, .mlc, .mlc, .mlc] [BitConfig.mlc, .mlc, .mlc, .mlc].length) (W r j) *
        (x.getD j 0 % 2 ^ 8) = 128 * ∑ j ∈ Finset.range 128, parity (m r j) * x.getD j 0 := by
      rw [Finset.mul_sum]
      apply Finset.sum_congr rfl
      intro j hj
      rw [hW r hr j (Finset.mem_range.1 hj)]
      show heldWeight 7 8 _ * _ = _
      rw [held_int, Int.emod_eq_of_lt (hx j).1 (by have := (hx j).2; omega), mul_assoc]
    rw [hsum, wrap32_small]
    · omega
    · have : |∑ j ∈ Finset.range 128, parity (m r j) * x.getD j 0| ≤ 128 * 255 := by
        refine (Finset.abs_sum_le_sum_abs _ _).trans ?_
        have : ∀ j ∈ Finset.range 128, |parity (m r j) * x.getD j 0| ≤ 255 := by
          intro j _
          have := hx j
          rcases parity_cases (m r j) with e | e | e <;> rw [e, abs_le] <;> omega
        refine (Finset.sum_le_sum this).trans ?_
        simp
      rw [abs_mul]
      norm_num at this ⊢
      omega
  · intro i _ k hk _
    have hk : k < 4 := hk
    unfold partialSum
    have hsum : ∑ j ∈ Finset.range 128, sgn (W r j) * (level [.mlc, .mlc, .mlc, .mlc] 7 (W r j) k : Int) * inputSlice 1 i (x.getD j 0)
        = if k = 3 then 2 * ∑ j ∈ Finset.range 128, parity (m r j) * inputSlice 1 i (x.getD j 0) else 0 := by
      split
      · rename_i hk3
        rw [Finset.mul_sum]
        apply Finset.sum_congr rfl
        intro j hj
        rw [hW r hr j (Finset.mem_range.1 hj), level_int _ _ hk, if_pos hk3, mul_assoc]
      · rename_i hk3
        apply Finset.sum_eq_zero
        intro j hj
        rw [hW r hr j (Finset.mem_range.1 hj), level_int _ _ hk, if_neg hk3, zero_mul]
    rw [hsum]
    split
    · obtain ⟨⟨a, ha, ha'⟩, b, hb, hb'⟩ := hm r hr
      have hs := fun j => slice_bit i (x.getD j 0)
      have q1 := sum_not_full (n := 128) (f := fun j => parity (m r j) * inputSlice 1 i (x.getD j 0))
        (fun j _ => by rcases parity_cases (m r j) with e | e | e <;> rcases hs j with e' | e' <;> rw [e, e'] <;> decide)
        ⟨a, ha, by
          rcases parity_cases (m r a) with e | e | e <;> rcases hs a with e' | e' <;> first | exact absurd e ha' | (rw [e, e']; decide)⟩
      have q2 := sum_not_full (n := 128) (f := fun j => -(parity (m r j) * inputSlice 1 i (x.getD j 0)))
        (fun j _ => by rcases parity_cases (m r j) with e | e | e <;> rcases hs j with e' | e' <;> rw [e, e'] <;> decide)
        ⟨b, hb, by
          rcases parity_cases (m r b) with e | e | e <;> rcases hs b with e' | e' <;> first | exact absurd e hb' | (rw [e, e']; decide)⟩
      rw [Finset.sum_neg_distrib] at q2
      rw [abs_le]
      push_cast at q1 q2
      constructor <;> omega
    · simp

/-- All weights 1 and all inputs 1: one converter saturates. -/
theorem product_ones (fl : FloatActs) (e : MvmErrors) (W : Nat → Nat → ℚ) (hW : ∀ r < 128, ∀ j < 128, W r j = 1) (x : List Int)
    (hx : ∀ j < 128, x.getD j 0 = 1) : (coreParamsWith tileTestBuilt fl).product W e x 128 = List.replicate 128 127 := by
  obtain ⟨h1, h2, h3, h4, h5, h6, h7, h8⟩ := coreTest_unit fl
  unfold CoreParams.product
  have hall : ∀ r ∈ List.range 128, wrap32 (((coreParamsWith tileTestBuilt fl).unit.analog (e.pos 0) (e.neg 0)).mvmValue
      (coreParamsWith tileTestBuilt fl).unit.storage (coreParamsWith tileTestBuilt fl).unit.frac
      (coreParamsWith tileTestBuilt fl).unit.size (coreParamsWith tileTestBuilt fl).unit.res
      (coreParamsWith tileTestBuilt fl).unit.width (coreParamsWith tileTestBuilt fl).unit.adcBits W
      (fun j => x.getD j 0) r) / 2 ^ (coreParamsWith tileTestBuilt fl).unit.frac = 127 := by
    intro r hr
    rw [List.mem_range] at hr
    rw [mvmValue_ideal _ _ _ _ _ _ _ _ _ _ h7 (fun i k r j => by simp [UnitParams.analog, h8])
      (fun i k r j => by simp [UnitParams.analog, h8]), h1, h2, h3, h4, h5, h6]
    have hp : ∀ k < 4, ∀ i < 8, partialSum [.mlc, .mlc, .mlc, .mlc] 7 128 1 W (fun j => x.getD j 0) k i r
        = if k = 3 ∧ i = 0 then 256 else 0 := by
      intro k hk i hi
      unfold partialSum
      have hb : inputSlice 1 i 1 = if i = 0 then 1 else 0 := by
        revert hi
        revert i
        decide
      have h1 : (1 : ℚ) = ((1 : Int) : ℚ) := by norm_num
      have : ∀ j ∈ Finset.range 128, sgn (W r j) * (level [.mlc, .mlc, .mlc, .mlc] 7 (W r j) k : Int) * inputSlice 1 i (x.getD j 0)
          = if k = 3 ∧ i = 0 then 2 else 0 := by
        intro j hj
        rw [Finset.mem_range] at hj
        rw [hW r hr j hj, hx j hj, h1, level_int _ _ hk, hb]
        have : parity 1 = 1 := by decide
        rw [this]
        by_cases h3 : k = 3 <;> by_cases h0 : i = 0 <;> simp [h3, h0]
      rw [Finset.sum_congr rfl this, Finset.sum_const, Finset.card_range]
      split <;> simp
    have hv : mvmValue [.mlc, .mlc, .mlc, .mlc] 7 128 1 8 8 W (fun j => x.getD j 0) r = 16320 := by
      unfold mvmValue
      have : ∀ i ∈ Finset.range (numSlices 8 1), (2 : Int) ^ i * ∑ k ∈ Finset.range [BitConfig.mlc, .mlc, .mlc, .mlc].length,
          2 ^ slicePos [.mlc, .mlc, .mlc, .mlc] k * (let p := partialSum [.mlc, .mlc, .mlc, .mlc] 7 128 1 W (fun j => x.getD j 0) k i r
            if isRram [.mlc, .mlc, .mlc, .mlc] k then saturate 8 p else p)
          = (2 : Int) ^ i * ∑ k ∈ Finset.range 4, 2 ^ slicePos [.mlc, .mlc, .mlc, .mlc] k *
            (let p := if k = 3 ∧ i = 0 then 256 else 0
             if isRram [.mlc, .mlc, .mlc, .mlc] k then saturate 8 p else p) := by
        intro i hi
        have hi : i < 8 := Finset.mem_range.1 hi
        congr 1
        apply Finset.sum_congr rfl
        intro k hk
        simp only
        rw [hp k (Finset.mem_range.1 hk) i hi]
      rw [Finset.sum_congr rfl this]
      decide +kernel
    rw [hv]
    decide
  rw [List.map_congr_left hall]
  simp
end Ramwich
