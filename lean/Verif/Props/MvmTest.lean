import Verif.Lemmas.MvmTest
import Verif.Props.Accuracy

/-! # C110: tests/test_mvm.py for all weights, vectors and noise -/
namespace Ramwich

open Spec

/-- The parameters of a unit of the configuration of the test. -/
def mvmTestUnit : UnitParams := paramsOf mnistBuilt.mvmuConfig mnistBuilt.dataConfig

/-- A core of the test (tests/test_mvm.py:18-20): whatever was done with it before, then the matrix is loaded into unit 0 and
others into other units. -/
def mvmTestCore (fl : FloatActs) (hist : List CoreCall) (W : List (List ℚ)) (others : List (Nat × List (List ℚ))) : Core :=
  (Core.new mnistBuilt).after fl (hist ++ (.load 0 W :: others.map fun w => .load w.1 w.2))

/-- 128 rows of 128 numbers. -/
def square128 (W : List (List ℚ)) : Prop := W.length = 128 ∧ ∀ row ∈ W, row.length = 128

theorem mvmTest_registers (fl : FloatActs) (hist : List CoreCall) (W : List (List ℚ)) (hW : square128 W)
    (others : List (Nat × List (List ℚ))) (ho : ∀ w ∈ others, 0 < w.1 ∧ w.1 < 6 ∧ square128 w.2) (x : List I32)
    (hx : x.length = 128) (noise : Nat → Noise) :
    mvmTest (mvmTestCore fl hist W others) x noise = .ok
      ((List.range 128).map fun r => ((registerValue mvmTestUnit (fun r j => (W.getD r []).getD j 0) (errorsOf fun _ => noise)
          (x.map BitVec.toInt) r / 2 ^ 8 : Int) : ℚ) / 2 ^ 8,
       (List.range 128).map fun r => (registerValue mvmTestUnit (fun r j => (W.getD r []).getD j 0) (errorsOf fun _ => noise)
          (x.map BitVec.toInt) r : ℚ) / 2 ^ 16) := by
  have e1 : mnistBuilt.mvmuConfig.xbarSize = 128 := by decide +kernel
  have e2 : mnistBuilt.numMvmusPerCore = 6 := by decide +kernel
  have e3 : mnistBuilt.dataConfig.weightFracBits = 8 := by decide +kernel
  obtain ⟨s, h1, h2, h3⟩ := mvmTest_core mnistConfig mnistBuilt fl mnist_simulable mnist_build (by rw [e1, e2]; omega) hist W
    (by rw [e1]; exact hW) others (fun w hw => by
      rw [e1, e2]
      obtain ⟨a, b, c⟩ := ho w hw
      exact ⟨by omega, b, c⟩)
  have h := mvmTest_value _ fl s h2 (by rw [h1]; exact electrical_of _ _ mnist_simulable mnist_build) _ _
    (by rw [h1]; exact latencies_of _ _ mnist_simulable mnist_build) x (by rw [h1, e1]; exact hx) noise
  rw [h1, e1, e3, h3] at h
  exact h

section
variable (fl : FloatActs) (hist : List CoreCall) (W : List (List ℚ)) (hW : square128 W)
  (others : List (Nat × List (List ℚ))) (ho : ∀ w ∈ others, 0 < w.1 ∧ w.1 < 6 ∧ square128 w.2) (x : List I32)
  (hx : x.length = 128) (noise : Nat → Noise) (out precise : List ℚ)
  (hrun : mvmTest (mvmTestCore fl hist W others) x noise = .ok (out, precise))
include hW ho hx

/-- C110: the test does not raise, whatever the weights, the vector and the noise are, and whatever was done with the core. -/
theorem C110_returns : ∃ out precise, mvmTest (mvmTestCore fl hist W others) x noise = .ok (out, precise) ∧
    out.length = 128 ∧ precise.length = 128 :=
  ⟨_, _, mvmTest_registers fl hist W hW others ho x hx noise, by simp, by simp⟩

include hrun

theorem mvmTest_split (r : Nat) (hr : r < 128) :
    out.getD r 0 = ((registerValue mvmTestUnit (fun r j => (W.getD r []).getD j 0) (errorsOf fun _ => noise)
      (x.map BitVec.toInt) r / 2 ^ 8 : Int) : ℚ) / 2 ^ 8 ∧
    precise.getD r 0 = (registerValue mvmTestUnit (fun r j => (W.getD r []).getD j 0) (errorsOf fun _ => noise)
      (x.map BitVec.toInt) r : ℚ) / 2 ^ 16 := by
  rw [mvmTest_registers fl hist W hW others ho x hx noise] at hrun
  injection hrun with h
  injection h with h1 h2
  rw [← h1, ← h2]
  simp [List.getD_eq_getElem?_getD, List.getElem?_map, List.getElem?_range hr]

/-- C110: `output` is `output_precise` rounded down to a multiple of 1/256. -/
theorem C110_floor (r : Nat) (hr : r < 128) : out.getD r 0 = (⌊precise.getD r 0 * 256⌋ : ℚ) / 256 := by
  obtain ⟨h1, h2⟩ := mvmTest_split fl hist W hW others ho x hx noise out precise hrun r hr
  rw [h1, h2]
  generalize registerValue _ _ _ _ _ = v
  have : ((v : ℚ) / 2 ^ 16 * 256) = (v : ℚ) / ((256 : Nat) : ℚ) := by push_cast; ring
  rw [this, Rat.floor_intCast_div_natCast]
  norm_num

variable (hu : exactUnit mvmTestUnit (fun r j => (W.getD r []).getD j 0) (errorsOf fun _ => noise))
  (hp : ∀ v ∈ x, 0 ≤ v.toInt ∧ v.toInt < 2 ^ 15 - 1)
include hu hp

/-- C110: for vectors as the test draws them, when no converter can saturate, the weights fit into the cells and the noise
stays below half a step: `output_precise` is the product with the weights rounded to multiples of 1/256. -/
theorem C110_rounded (r : Nat) (hr : r < 128) : precise.getD r 0
    = ∑ j ∈ Finset.range 128, roundedWeight 8 ((W.getD r []).getD j 0) * ((x.map BitVec.toInt).getD j 0 / 2 ^ 8) := by
  rw [(mvmTest_split fl hist W hW others ho x hx noise out precise hrun r hr).2]
  have L := mnist_like fl
  have hsz : mvmTestUnit.size = 128 := L.size
  have hfr : mvmTestUnit.frac = 8 := L.frac
  have hwd : mvmTestUnit.width = 16 := L.width
  have hst : slicePos mvmTestUnit.storage mvmTestUnit.storage.length = 8 := L.storage
  have hxs : ∀ j, 0 ≤ (x.map BitVec.toInt).getD j 0 ∧ (x.map BitVec.toInt).getD j 0 < 2 ^ mvmTestUnit.width := by
    intro j
    rw [hwd, getD_map_toInt, List.getD_eq_getElem?_getD]
    cases h : x[j]? with
    | none => simp
    | some v =>
      have := hp v (List.mem_of_getElem? h)
      simp only [Option.getD_some]
      omega
  have hv := value_exact (p := mvmTestUnit) L.gmin L.gmax L.res (by rw [hsz, hst, hwd]; norm_num) hu hxs (r := r) (by rw [hsz]; exact hr)
  have : registerValue mvmTestUnit (fun r j => (W.getD r []).getD j 0) (errorsOf fun _ => noise) (x.map BitVec.toInt) r
    = ∑ j ∈ Finset.range 128, fixedWeight 8 ((W.getD r []).getD j 0) * (x.map BitVec.toInt).getD j 0 := by
    unfold registerValue
    rw [hv, hsz, hfr]
  rw [this]
  push_cast
  rw [Finset.sum_div]
  apply Finset.sum_congr rfl
  intro j _
  unfold roundedWeight
  ring

/-- C110: so `output_precise` is wrong by at most 1/512 of the sum of the vector, and `output` by at most 1/256 more. -/
theorem C110_error (r : Nat) (hr : r < 128) :
    |precise.getD r 0 - expectedDot 128 W (x.map BitVec.toInt) r| ≤ inputSum 128 (x.map BitVec.toInt) / 512 ∧
    |out.getD r 0 - expectedDot 128 W (x.map BitVec.toInt) r| ≤ inputSum 128 (x.map BitVec.toInt) / 512 + 1 / 256 := by
  have h1 : |precise.getD r 0 - expectedDot 128 W (x.map BitVec.toInt) r| ≤ inputSum 128 (x.map BitVec.toInt) / 512 := by
    rw [C110_rounded fl hist W hW others ho x hx noise out precise hrun hu hp r hr]
    unfold expectedDot inputSum
    rw [← Finset.sum_sub_distrib, Finset.sum_div]
    refine (Finset.abs_sum_le_sum_abs _ _).trans (Finset.sum_le_sum fun j _ => ?_)
    rw [← sub_mul, abs_mul]
    have h0 : (0 : ℚ) ≤ ((x.map BitVec.toInt).getD j 0 : ℚ) / 2 ^ 8 := by
      apply div_nonneg _ (by norm_num)
      rw [getD_map_toInt, List.getD_eq_getElem?_getD]
      cases h : x[j]? with
      | none => simp
      | some v => exact_mod_cast (hp v (List.mem_of_getElem? h)).1
    rw [abs_of_nonneg h0]
    have := mul_le_mul_of_nonneg_right (rounded_close 8 ((W.getD r []).getD j 0)) h0
    linarith
  refine ⟨h1, ?_⟩
  have h2 := C110_floor fl hist W hW others ho x hx noise out precise hrun r hr
  have h3 := Int.floor_le (precise.getD r 0 * 256)
  have h4 := Int.lt_floor_add_one (precise.getD r 0 * 256)
  rw [abs_le] at h1 ⊢
  rw [h2]
  constructor <;> linarith [h1.1, h1.2]

/-- C110: weights that are multiples of 1/256 give `expected_output` exactly. -/
theorem C110_exact (r : Nat) (hr : r < 128) (hm : ∀ j < 128, ∃ n : Int, (W.getD r []).getD j 0 = n / 256) :
    precise.getD r 0 = expectedDot 128 W (x.map BitVec.toInt) r := by
  rw [C110_rounded fl hist W hW others ho x hx noise out precise hrun hu hp r hr]
  unfold expectedDot
  apply Finset.sum_congr rfl
  intro j hj
  obtain ⟨n, hn⟩ := hm j (Finset.mem_range.1 hj)
  rw [hn, roundedWeight_multiple]

/-- C110: weights of at most 1/512 count as 0: then both outputs are 0 and every printed error ratio of a row whose expected
product is not 0 is 1. -/
theorem C110_small (r : Nat) (hr : r < 128) (hm : ∀ j < 128, |(W.getD r []).getD j 0| ≤ 1 / 512) :
    precise.getD r 0 = 0 ∧ out.getD r 0 = 0 ∧ (expectedDot 128 W (x.map BitVec.toInt) r ≠ 0 →
      |(out.getD r 0 - expectedDot 128 W (x.map BitVec.toInt) r) / expectedDot 128 W (x.map BitVec.toInt) r| = 1) := by
  have h0 : precise.getD r 0 = 0 := by
    rw [C110_rounded fl hist W hW others ho x hx noise out precise hrun hu hp r hr]
    apply Finset.sum_eq_zero
    intro j hj
    rw [roundedWeight_small _ (hm j (Finset.mem_range.1 hj)), zero_mul]
  have h1 : out.getD r 0 = 0 := by
    rw [C110_floor fl hist W hW others ho x hx noise out precise hrun r hr, h0]
    simp
  refine ⟨h0, h1, fun hne => ?_⟩
  rw [h1, zero_sub, neg_div, div_self hne]
  simp

end

/-- No noise. -/
def still : Nat → Noise := fun _ => { pos := fun _ _ _ => 0, neg := fun _ _ _ => 0 }

/-- C110: when a converter saturates the error has nothing to do with rounding: with all weights 3/256, a vector of ones and no
noise every element of `output_precise` is 255/65536, and that of `expected_output` is 384/65536. -/
theorem C110_saturated (fl : FloatActs) (hist : List CoreCall) (W : List (List ℚ)) (hW : square128 W)
    (others : List (Nat × List (List ℚ))) (ho : ∀ w ∈ others, 0 < w.1 ∧ w.1 < 6 ∧ square128 w.2) (out precise : List ℚ)
    (hrun : mvmTest (mvmTestCore fl hist W others) (List.replicate 128 1) still = .ok (out, precise)) (r : Nat) (hr : r < 128)
    (hw : ∀ j < 128, (W.getD r []).getD j 0 = 3 / 256) :
    precise.getD r 0 = 255 / 65536 ∧ expectedDot 128 W ((List.replicate 128 (1 : I32)).map BitVec.toInt) r = 384 / 65536 := by
  have hone : ∀ j < 128, ((List.replicate 128 (1 : I32)).map BitVec.toInt).getD j 0 = 1 := by decide +kernel
  constructor
  · rw [(mvmTest_split fl hist W hW others ho _ (by simp) still out precise hrun r hr).2]
    have hp : mvmTestUnit.storage = [.mlc, .mlc, .mlc, .mlc] ∧ mvmTestUnit.frac = 8 ∧ mvmTestUnit.size = 128 ∧
        mvmTestUnit.res = 1 ∧ mvmTestUnit.width = 16 ∧ mvmTestUnit.adcBits = 8 ∧ mvmTestUnit.gmin = 0 := by decide +kernel
    obtain ⟨h1, h2, h3, h4, h5, h6, h7⟩ := hp
    unfold registerValue
    rw [mvmValue_ideal _ _ _ _ _ _ _ _ _ _ h7 (fun i k r j => by simp [UnitParams.analog, errorsOf, still])
      (fun i k r j => by simp [UnitParams.analog, errorsOf, still]), h1, h2, h3, h4, h5, h6]
    have hv : mvmValue [.mlc, .mlc, .mlc, .mlc] 8 128 1 16 8 (fun r j => (W.getD r []).getD j 0)
        (fun j => ((List.replicate 128 (1 : I32)).map BitVec.toInt).getD j 0) r = 255 := by
      unfold mvmValue
      simp only [partialSum_constant (W := fun r j => (W.getD r []).getD j 0)
        (x := fun j => ((List.replicate 128 (1 : I32)).map BitVec.toInt).getD j 0) (r := r) (w := 3 / 256) (v := 1) hw hone]
      decide +kernel
    rw [hv]
    have : wrap32 255 = 255 := by decide
    rw [this]
    norm_num
  · unfold expectedDot
    rw [Finset.sum_congr rfl (fun j hj => by rw [hw j (Finset.mem_range.1 hj), hone j (Finset.mem_range.1 hj)]), Finset.sum_const,
      Finset.card_range]
    norm_num

/-! ## Cases -/

theorem const_square (w : ℚ) : square128 (List.replicate 128 (List.replicate 128 w)) :=
  ⟨List.length_replicate, fun row h => by rw [List.eq_of_mem_replicate h, List.length_replicate]⟩

theorem const_getD (w : ℚ) (r j : Nat) (hr : r < 128) (hj : j < 128) :
    ((List.replicate 128 (List.replicate 128 w)).getD r []).getD j 0 = w := by
  rw [List.getD_eq_getElem?_getD, List.getD_eq_getElem?_getD, List.getElem?_replicate, if_pos hr, Option.getD_some,
    List.getElem?_replicate, if_pos hj, Option.getD_some]

/-- All weights 3/256, after other weights, a write and a product, with another unit loaded afterwards. -/
example (fl : FloatActs) (e : MvmErrors) : ∃ out precise, mvmTest (mvmTestCore fl
      [.load 0 spot, .write 0 (List.replicate 128 7), .exec (.mvm [0]) e] (List.replicate 128 (List.replicate 128 (3 / 256))) [(5, spot)])
      (List.replicate 128 1) still = .ok (out, precise) ∧ precise.getD 17 0 = 255 / 65536 := by
  have hs : square128 spot := ⟨by simp [spot], fun row h => by
    obtain ⟨r, -, rfl⟩ := List.mem_map.1 h
    simp⟩
  have ho : ∀ w ∈ [((5 : Nat), spot)], 0 < w.1 ∧ w.1 < 6 ∧ square128 w.2 := by
    intro w hw
    rw [List.mem_singleton.1 hw]
    exact ⟨by decide, by decide, hs⟩
  obtain ⟨out, precise, h, -⟩ := C110_returns fl [.load 0 spot, .write 0 (List.replicate 128 7), .exec (.mvm [0]) e] _
    (const_square (3 / 256)) _ ho (List.replicate 128 1) (by simp) still
  exact ⟨out, precise, h, (C110_saturated fl _ _ (const_square _) _ ho out precise h 17 (by decide)
    (fun j hj => const_getD _ _ _ (by decide) hj)).1⟩

/-- One weight 1/2, the number 300/256 and noise: the exact product. -/
example (fl : FloatActs) : ∃ out precise, mvmTest (mvmTestCore fl [] spot []) (300 :: List.replicate 127 5) (spotNoise 0 0 0 0)
    = .ok (out, precise) ∧ precise.getD 0 0 = 150 / 256 := by
  have hs : square128 spot := ⟨by simp [spot], fun row h => by
    obtain ⟨r, -, rfl⟩ := List.mem_map.1 h
    simp⟩
  obtain ⟨out, precise, h, -⟩ := C110_returns fl [] spot hs [] (by simp) (300 :: List.replicate 127 5) (by simp) (spotNoise 0 0 0 0)
  refine ⟨out, precise, h, ?_⟩
  have hw : (fun r j => (spot.getD r []).getD j 0) = spotWeights 0 := by
    funext r j
    rw [spot_getD]
    simp [spotWeights]
  have hu : exactUnit mvmTestUnit (fun r j => (spot.getD r []).getD j 0) (errorsOf fun _ => spotNoise 0 0 0 0) := by
    rw [hw]
    have h0 := spot_unit fl 0
    unfold mnistErrors at h0
    exact h0
  rw [C110_exact fl [] spot hs [] (by simp) _ (by simp) _ out precise h hu (fun v hv => by
    rcases List.mem_cons.1 hv with rfl | hv
    · decide
    · rw [List.eq_of_mem_replicate hv]; decide) 0 (by decide) (fun j _ => by
    rw [spot_getD]
    split
    · exact ⟨128, by norm_num⟩
    · exact ⟨0, by norm_num⟩)]
  unfold expectedDot
  rw [Finset.sum_eq_single 0]
  · have h300 : (((300 : I32) :: List.replicate 127 5).map BitVec.toInt).getD 0 0 = 300 := by
      show (300 : I32).toInt = 300
      decide
    rw [spot_getD, h300]
    norm_num
  · intro j _ hj
    rw [spot_getD, if_neg (by simp [hj]), zero_mul]
  · intro h
    exact absurd (Finset.mem_range.2 (by decide)) h

/-- All weights 1/1000: nothing is left. -/
example (fl : FloatActs) : ∃ out precise, mvmTest (mvmTestCore fl [] (List.replicate 128 (List.replicate 128 (1 / 1000))) [])
    (List.replicate 128 30000) still = .ok (out, precise) ∧ out.getD 3 0 = 0 := by
  obtain ⟨out, precise, h, -⟩ := C110_returns fl [] _ (const_square (1 / 1000)) [] (by simp) (List.replicate 128 30000) (by simp) still
  have hsz : mvmTestUnit.size = 128 := by decide +kernel
  have hl : ∀ k < mvmTestUnit.storage.length, level mvmTestUnit.storage mvmTestUnit.frac (1 / 1000) k = 0 := by decide +kernel
  have hu : exactUnit mvmTestUnit (fun r j => ((List.replicate 128 (List.replicate 128 (1 / 1000))).getD r []).getD j 0)
      (errorsOf fun _ => still) := by
    constructor
    · intro r hr j hj
      rw [hsz] at hr hj
      rw [const_getD _ r j hr hj]
      decide +kernel
    · intro r hr k hk _
      rw [hsz] at hr ⊢
      constructor
      · rw [Finset.sum_congr rfl (fun j hj => by rw [const_getD _ r j hr (Finset.mem_range.1 hj), hl k hk, ite_self])]
        simp
      · rw [Finset.sum_congr rfl (fun j hj => by rw [const_getD _ r j hr (Finset.mem_range.1 hj), hl k hk, ite_self])]
        simp
    · intro _ err herr i r _ k hk _
      have h0 : err = fun _ _ _ _ => 0 := by
        rcases List.mem_cons.1 herr with rfl | herr
        · rfl
        · rw [List.mem_singleton.1 herr]; rfl
      have hg : ∀ k < mvmTestUnit.storage.length, 0 < mvmTestUnit.gmax / (2 ^ bitsOf mvmTestUnit.storage k - 1) / 2 := by
        decide +kernel
      rw [h0]
      simpa using hg k hk
  exact ⟨out, precise, h, (C110_small fl [] _ (const_square _) [] (by simp) _ (by simp) still out precise h hu (fun v hv => by
    rw [List.eq_of_mem_replicate hv]; decide) 3 (by decide) (fun j hj => by rw [const_getD _ 3 j (by decide) hj]; norm_num [abs_of_pos])).2.1⟩

end Ramwich
