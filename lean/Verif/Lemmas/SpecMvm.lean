import Verif.Spec.Unit
import Verif.Lemmas.MvmValue
import Mathlib.Tactic.LinearCombination

/-! # Arithmetic of the abstract matrix-vector unit -/
namespace Ramwich

open Spec

theorem roundHalfEven_le (q : ℚ) : |q - roundHalfEven q| ≤ 1 / 2 := by
  have h1 := Int.floor_le q
  have h2 := Int.lt_floor_add_one q
  unfold roundHalfEven
  simp only
  rw [abs_le]
  split_ifs with a b c
  · constructor <;> linarith
  · push_cast; constructor <;> linarith
  · constructor <;> linarith
  · push_cast; constructor <;> linarith

theorem roundHalfEven_eq_of_lt (q : ℚ) (n : Int) (h : |q - n| < 1 / 2) : roundHalfEven q = n := by
  have h1 := roundHalfEven_le q
  rw [abs_le] at h1
  rw [abs_lt] at h
  have a : ((roundHalfEven q : Int) : ℚ) - n < 1 := by linarith
  have b : (-1 : ℚ) < ((roundHalfEven q : Int) : ℚ) - n := by linarith
  have a' : roundHalfEven q - n < 1 := by exact_mod_cast a
  have b' : -1 < roundHalfEven q - n := by exact_mod_cast b
  omega

@[simp] theorem roundHalfEven_intCast (n : Int) : roundHalfEven (n : ℚ) = n :=
  roundHalfEven_eq_of_lt _ _ (by norm_num)

/-- The parts of a magnitude add up. -/
theorem level_sum (st : List BitConfig) (M n : Nat) (h : n ≤ st.length) :
    ∑ k ∈ Finset.range n, 2 ^ slicePos st k * (M / 2 ^ slicePos st k % 2 ^ bitsOf st k)
      = M % 2 ^ slicePos st n := by
  induction n with
  | zero => simp [slicePos, Nat.mod_one]
  | succ n ih =>
    rw [Finset.sum_range_succ, ih (by omega), slicePos_succ st n (by omega), Nat.pow_add,
      Nat.mod_mul]

/-- The input slices add up. -/
theorem inputSlice_sum (res : Nat) (x : Int) (n : Nat) :
    ∑ i ∈ Finset.range n, 2 ^ (res * i) * inputSlice res i x = x % 2 ^ (res * n) := by
  induction n with
  | zero => simp
  | succ n ih =>
    rw [Finset.sum_range_succ, ih]
    unfold inputSlice
    have h : (2 : Int) ^ (res * (n + 1)) = 2 ^ (res * n) * 2 ^ res := by
      rw [← pow_add]; ring_nf
    rw [h]
    have e1 := Int.emod_add_mul_ediv x (2 ^ (res * n))
    have e2 := Int.emod_add_mul_ediv (x / 2 ^ (res * n)) (2 ^ res)
    have e3 := Int.emod_add_mul_ediv x (2 ^ (res * n) * 2 ^ res)
    have e4 : x / 2 ^ (res * n) / 2 ^ res = x / (2 ^ (res * n) * 2 ^ res) :=
      Int.ediv_ediv_of_nonneg (by positivity)
    rw [e4] at e2
    generalize x / (2 ^ (res * n) * 2 ^ res) = u at *
    generalize x / 2 ^ (res * n) = v at *
    generalize (2 : Int) ^ (res * n) = A at *
    generalize (2 : Int) ^ res = B at *
    linear_combination (e1 + A * e2 - e3)

theorem sgn_cases (w : ℚ) : (0 < w ∧ sgn w = 1) ∨ (w = 0 ∧ sgn w = 0) ∨ (w < 0 ∧ sgn w = -1) := by
  unfold sgn
  rcases lt_trichotomy w 0 with h | h | h
  · right; right; simp [h, not_lt.2 h.le]
  · right; left; simp [h]
  · left; simp [h]

/-- Difference of the two lines without conductance errors. -/
theorem line_difference (a : Analog) (st : List BitConfig) (frac size res : Nat)
    (W : Nat → Nat → ℚ) (x : Nat → Int) (k i r : Nat)
    (hp : ∀ i k r j, a.errPos i k r j = 0) (hn : ∀ i k r j, a.errNeg i k r j = 0) :
    a.posSum st frac size res W x k i r - a.negSum st frac size res W x k i r
      = partialSum st frac size res W x k i r +
        a.gmin / a.unit (bitsOf st k) *
          ∑ j ∈ Finset.range size, (sgn (W r j) * inputSlice res i (x j) : ℚ) := by
  unfold Analog.posSum Analog.negSum partialSum
  rw [← Finset.sum_sub_distrib, Finset.mul_sum]
  push_cast
  rw [← Finset.sum_add_distrib]
  apply Finset.sum_congr rfl
  intro j _
  rw [hp, hn]
  rcases sgn_cases (W r j) with ⟨h, e⟩ | ⟨h, e⟩ | ⟨h, e⟩
  · rw [if_pos h, if_neg (not_lt.2 h.le), e]; push_cast; ring
  · rw [if_neg (by rw [h]; exact lt_irrefl _), if_neg (by rw [h]; exact lt_irrefl _), e]
    push_cast; ring
  · rw [if_neg (not_lt.2 h.le), if_pos h, e]; push_cast; ring

/-- Positive part of the ideal partial sum. -/
def idealPos (st : List BitConfig) (frac size res : Nat) (W : Nat → Nat → ℚ) (x : Nat → Int)
    (k i r : Nat) : Int :=
  ∑ j ∈ Finset.range size,
    (if 0 < W r j then (level st frac (W r j) k : Int) else 0) * inputSlice res i (x j)

/-- Negative part of the ideal partial sum. -/
def idealNeg (st : List BitConfig) (frac size res : Nat) (W : Nat → Nat → ℚ) (x : Nat → Int)
    (k i r : Nat) : Int :=
  ∑ j ∈ Finset.range size,
    (if W r j < 0 then (level st frac (W r j) k : Int) else 0) * inputSlice res i (x j)

theorem idealPos_sub_idealNeg (st : List BitConfig) (frac size res : Nat) (W : Nat → Nat → ℚ)
    (x : Nat → Int) (k i r : Nat) :
    idealPos st frac size res W x k i r - idealNeg st frac size res W x k i r
      = partialSum st frac size res W x k i r := by
  unfold idealPos idealNeg partialSum
  rw [← Finset.sum_sub_distrib]
  apply Finset.sum_congr rfl
  intro j _
  rcases sgn_cases (W r j) with ⟨h, e⟩ | ⟨h, e⟩ | ⟨h, e⟩
  · rw [if_pos h, if_neg (not_lt.2 h.le), e]; push_cast; ring
  · rw [if_neg (by rw [h]; exact lt_irrefl _), if_neg (by rw [h]; exact lt_irrefl _), e]
    push_cast; ring
  · rw [if_neg (not_lt.2 h.le), if_pos h, e]; push_cast; ring

theorem posSum_gmin0 (a : Analog) (st : List BitConfig) (frac size res : Nat)
    (W : Nat → Nat → ℚ) (x : Nat → Int) (k i r : Nat) (hg : a.gmin = 0) :
    a.posSum st frac size res W x k i r = (idealPos st frac size res W x k i r : ℚ)
      + ∑ j ∈ Finset.range size,
        a.errPos i (rramRank st k) r j / a.unit (bitsOf st k) * inputSlice res i (x j) := by
  unfold Analog.posSum idealPos
  push_cast
  rw [← Finset.sum_add_distrib]
  apply Finset.sum_congr rfl
  intro j _
  rw [hg]
  split <;> push_cast <;> ring

theorem negSum_gmin0 (a : Analog) (st : List BitConfig) (frac size res : Nat)
    (W : Nat → Nat → ℚ) (x : Nat → Int) (k i r : Nat) (hg : a.gmin = 0) :
    a.negSum st frac size res W x k i r = (idealNeg st frac size res W x k i r : ℚ)
      + ∑ j ∈ Finset.range size,
        a.errNeg i (rramRank st k) r j / a.unit (bitsOf st k) * inputSlice res i (x j) := by
  unfold Analog.negSum idealNeg
  push_cast
  rw [← Finset.sum_add_distrib]
  apply Finset.sum_congr rfl
  intro j _
  rw [hg]
  split <;> push_cast <;> ring

/-- With disturbances below half a step on both lines the converted value is the ideal one. -/
theorem column_robust (a : Analog) (st : List BitConfig) (frac size res adc : Nat)
    (W : Nat → Nat → ℚ) (x : Nat → Int) (k i r : Nat) (hg : a.gmin = 0)
    (hp : |disturbance a.errPos (a.unit (bitsOf st k)) (rramRank st k) size res x i r| < 1 / 2)
    (hn : |disturbance a.errNeg (a.unit (bitsOf st k)) (rramRank st k) size res x i r| < 1 / 2) :
    a.column st frac size res adc W x k i r
      = saturate adc (partialSum st frac size res W x k i r) := by
  unfold Analog.column
  rw [roundHalfEven_eq_of_lt _ (idealPos st frac size res W x k i r),
    roundHalfEven_eq_of_lt _ (idealNeg st frac size res W x k i r), idealPos_sub_idealNeg]
  · rw [negSum_gmin0 _ _ _ _ _ _ _ _ _ _ hg, add_sub_cancel_left]; exact hn
  · rw [posSum_gmin0 _ _ _ _ _ _ _ _ _ _ hg, add_sub_cancel_left]; exact hp

theorem mvmValue_robust (a : Analog) (st : List BitConfig) (frac size res aw adc : Nat)
    (W : Nat → Nat → ℚ) (x : Nat → Int) (r : Nat) (hg : a.gmin = 0)
    (hp : ∀ i, i < numSlices aw res → ∀ k, k < st.length → isRram st k = true →
      |disturbance a.errPos (a.unit (bitsOf st k)) (rramRank st k) size res x i r| < 1 / 2)
    (hn : ∀ i, i < numSlices aw res → ∀ k, k < st.length → isRram st k = true →
      |disturbance a.errNeg (a.unit (bitsOf st k)) (rramRank st k) size res x i r| < 1 / 2) :
    a.mvmValue st frac size res aw adc W x r = mvmValue st frac size res aw adc W x r := by
  unfold Analog.mvmValue mvmValue
  apply Finset.sum_congr rfl
  intro i hi
  congr 1
  apply Finset.sum_congr rfl
  intro k hk
  congr 1
  rw [Finset.mem_range] at hi hk
  simp only
  split
  · rename_i hr
    exact column_robust a st frac size res adc W x k i r hg (hp i hi k hk hr) (hn i hi k hk hr)
  · rfl

theorem mvmValue_ideal (a : Analog) (st : List BitConfig) (frac size res aw adc : Nat)
    (W : Nat → Nat → ℚ) (x : Nat → Int) (r : Nat) (hg : a.gmin = 0)
    (hp : ∀ i k r j, a.errPos i k r j = 0) (hn : ∀ i k r j, a.errNeg i k r j = 0) :
    a.mvmValue st frac size res aw adc W x r = mvmValue st frac size res aw adc W x r := by
  apply mvmValue_robust a st frac size res aw adc W x r hg
  · intro i _ k _ _; simp [disturbance, hp]
  · intro i _ k _ _; simp [disturbance, hn]

theorem saturate_id (n : Nat) (v : Int) (h : |v| ≤ 2 ^ n - 1) : saturate n v = v := by
  rw [abs_le] at h
  unfold saturate
  omega

/-- No converter saturates: a bound that holds for all weights and inputs. -/
theorem partialSum_bound (st : List BitConfig) (frac size res : Nat) (W : Nat → Nat → ℚ)
    (x : Nat → Int) (k i r : Nat) :
    |partialSum st frac size res W x k i r| ≤ size * ((2 ^ bitsOf st k - 1) * (2 ^ res - 1)) := by
  unfold partialSum
  refine (Finset.abs_sum_le_sum_abs _ _).trans ?_
  have : ∀ j ∈ Finset.range size,
      |sgn (W r j) * level st frac (W r j) k * inputSlice res i (x j)|
        ≤ ((2 : Int) ^ bitsOf st k - 1) * (2 ^ res - 1) := by
    intro j _
    rw [abs_mul, abs_mul]
    have h1 : |sgn (W r j)| ≤ 1 := by
      rcases sgn_cases (W r j) with ⟨-, e⟩ | ⟨-, e⟩ | ⟨-, e⟩ <;> rw [e] <;> norm_num
    have h2 : |(level st frac (W r j) k : Int)| ≤ 2 ^ bitsOf st k - 1 := by
      rw [abs_of_nonneg (by positivity)]
      have : level st frac (W r j) k < 2 ^ bitsOf st k := Nat.mod_lt _ (by positivity)
      have h : (level st frac (W r j) k : Int) < 2 ^ bitsOf st k := by exact_mod_cast this
      omega
    have h3 : |inputSlice res i (x j)| ≤ 2 ^ res - 1 := by
      rw [abs_of_nonneg (inputSlice_nonneg _ _ _)]
      have := inputSlice_lt res i (x j)
      omega
    have h4 : |sgn (W r j)| * |(level st frac (W r j) k : Int)| ≤ 2 ^ bitsOf st k - 1 := by
      calc _ ≤ 1 * |(level st frac (W r j) k : Int)| :=
            mul_le_mul_of_nonneg_right h1 (abs_nonneg _)
        _ ≤ _ := by rw [one_mul]; exact h2
    exact mul_le_mul h4 h3 (abs_nonneg _) (le_trans (abs_nonneg _) h2)
  refine (Finset.sum_le_sum this).trans ?_
  rw [Finset.sum_const, Finset.card_range, nsmul_eq_mul]

/-- Without saturation the sum over crossbars is the dot product with one slice. -/
theorem slice_dot (st : List BitConfig) (frac size res : Nat) (W : Nat → Nat → ℚ) (x : Nat → Int)
    (i r : Nat) :
    ∑ k ∈ Finset.range st.length, 2 ^ slicePos st k * partialSum st frac size res W x k i r
      = ∑ j ∈ Finset.range size,
        heldWeight frac (slicePos st st.length) (W r j) * inputSlice res i (x j) := by
  unfold partialSum
  simp only [Finset.mul_sum]
  rw [Finset.sum_comm]
  apply Finset.sum_congr rfl
  intro j _
  unfold heldWeight
  rw [← level_sum st (magnitude frac (W r j)) st.length le_rfl]
  push_cast
  rw [Finset.mul_sum, Finset.sum_mul]
  apply Finset.sum_congr rfl
  intro k _
  unfold level
  push_cast
  ring

/-- Value of the unit without saturation. -/
theorem mvmValue_unsaturated (st : List BitConfig) (frac size res aw adc : Nat)
    (W : Nat → Nat → ℚ) (x : Nat → Int) (r : Nat)
    (hs : ∀ i, i < numSlices aw res → ∀ k, k < st.length → isRram st k = true →
      |partialSum st frac size res W x k i r| ≤ 2 ^ adc - 1) :
    mvmValue st frac size res aw adc W x r
      = ∑ j ∈ Finset.range size, heldWeight frac (slicePos st st.length) (W r j) *
          ∑ i ∈ Finset.range (numSlices aw res), 2 ^ i * inputSlice res i (x j) := by
  unfold mvmValue
  have : ∀ i ∈ Finset.range (numSlices aw res),
      (2 : Int) ^ i * ∑ k ∈ Finset.range st.length, 2 ^ slicePos st k *
        (let p := partialSum st frac size res W x k i r
         if isRram st k then saturate adc p else p)
      = ∑ j ∈ Finset.range size, heldWeight frac (slicePos st st.length) (W r j) *
          (2 ^ i * inputSlice res i (x j)) := by
    intro i hi
    rw [Finset.mem_range] at hi
    have h2 : ∀ k ∈ Finset.range st.length, (2 : Int) ^ slicePos st k *
        (let p := partialSum st frac size res W x k i r
         if isRram st k then saturate adc p else p)
        = 2 ^ slicePos st k * partialSum st frac size res W x k i r := by
      intro k hk
      rw [Finset.mem_range] at hk
      simp only
      split
      · rename_i hr
        rw [saturate_id _ _ (hs i hi k hk hr)]
      · rfl
    rw [Finset.sum_congr rfl h2, slice_dot, Finset.mul_sum]
    apply Finset.sum_congr rfl
    intro j _
    ring
  rw [Finset.sum_congr rfl this, Finset.sum_comm]
  apply Finset.sum_congr rfl
  intro j _
  rw [Finset.mul_sum]

theorem numSlices_one (aw : Nat) : numSlices aw 1 = aw := by simp [numSlices]

/-- Resolution 1: the exact product with the low bits of the inputs. -/
theorem mvmValue_res1 (st : List BitConfig) (frac size aw adc : Nat)
    (W : Nat → Nat → ℚ) (x : Nat → Int) (r : Nat)
    (hs : ∀ i, i < aw → ∀ k, k < st.length → isRram st k = true →
      |partialSum st frac size 1 W x k i r| ≤ 2 ^ adc - 1) :
    mvmValue st frac size 1 aw adc W x r
      = ∑ j ∈ Finset.range size, heldWeight frac (slicePos st st.length) (W r j) *
          (x j % 2 ^ aw) := by
  rw [mvmValue_unsaturated st frac size 1 aw adc W x r (by rwa [numSlices_one]), numSlices_one]
  apply Finset.sum_congr rfl
  intro j _
  have := inputSlice_sum 1 (x j) aw
  simp only [one_mul] at this
  rw [this]

theorem heldWeight_eq (frac width : Nat) (w : ℚ) (h : magnitude frac w < 2 ^ width) :
    heldWeight frac width w = fixedWeight frac w := by
  unfold heldWeight fixedWeight
  rw [Nat.mod_eq_of_lt h]

end Ramwich
