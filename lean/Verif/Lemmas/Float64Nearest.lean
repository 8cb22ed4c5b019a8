import Verif.Lemmas.Float64

/-! # The rounding to float64 finds a nearest number -/
namespace Ramwich

/-- A float64 number: 53 significant bits (any exponent). -/
def IsFloat64 (y : ℚ) : Prop := ∃ (m e : ℤ), |m| ≤ 2 ^ 53 ∧ y = m * 2 ^ e

theorem f64_nearest (x : ℚ) : IsFloat64 (f64 x) ∧ ∀ y, IsFloat64 y → |f64 x - x| ≤ |y - x| := by
  by_cases h : x = 0
  · subst h
    rw [f64_zero]
    exact ⟨⟨0, 0, by norm_num, by simp⟩, fun y _ => by simp⟩
  have hp : 0 < |x| := abs_pos.2 h
  have hdef : f64 x = (roundHalfEven (x * 2 ^ (52 - Int.log 2 |x|)) : ℚ) * 2 ^ (Int.log 2 |x| - 52) := by
    unfold f64; rw [if_neg h]
  set e := Int.log 2 |x| with he
  have hlow : (2 : ℚ) ^ e ≤ |x| := by
    have := Int.zpow_log_le_self (R := ℚ) (b := 2) (by norm_num) hp
    simpa [he] using this
  have hhigh : |x| < (2 : ℚ) ^ (e + 1) := by
    have := Int.lt_zpow_succ_log_self (R := ℚ) (b := 2) (by norm_num) |x|
    simpa [he] using this
  have h2 : (0 : ℚ) < 2 ^ (e - 52) := by positivity
  have hinv : (2 : ℚ) ^ (52 - e) * 2 ^ (e - 52) = 1 := by
    rw [← zpow_add₀ (by norm_num)]; simp
  set z := x * 2 ^ (52 - e) with hz
  have hxz : x = z * 2 ^ (e - 52) := by rw [hz, mul_assoc, hinv, mul_one]
  have hzl : (2 : ℚ) ^ 52 ≤ |z| := by
    rw [hz, abs_mul, abs_of_pos (show (0 : ℚ) < 2 ^ (52 - e) by positivity)]
    calc (2 : ℚ) ^ 52 = 2 ^ e * 2 ^ (52 - e) := by
          rw [← zpow_add₀ (by norm_num)]; norm_num
      _ ≤ |x| * 2 ^ (52 - e) := mul_le_mul_of_nonneg_right hlow (by positivity)
  have hzh : |z| < (2 : ℚ) ^ 53 := by
    rw [hz, abs_mul, abs_of_pos (show (0 : ℚ) < 2 ^ (52 - e) by positivity)]
    calc |x| * 2 ^ (52 - e) < 2 ^ (e + 1) * 2 ^ (52 - e) := mul_lt_mul_of_pos_right hhigh (by positivity)
      _ = (2 : ℚ) ^ 53 := by rw [← zpow_add₀ (by norm_num), show e + 1 + (52 - e) = 53 by ring]; norm_num
  have hr := roundHalfEven_le z
  -- no integer is closer to `z`
  have hint : ∀ n : ℤ, |(roundHalfEven z : ℚ) - z| ≤ |n - z| := by
    intro n
    rw [abs_sub_comm] at hr
    by_cases hn : n = roundHalfEven z
    · rw [hn]
    · have h1 : (1 : ℚ) ≤ |(n : ℚ) - roundHalfEven z| := by
        have : (1 : ℤ) ≤ |n - roundHalfEven z| := Int.one_le_abs (sub_ne_zero.2 hn)
        exact_mod_cast this
      have h3 : |(n : ℚ) - roundHalfEven z| ≤ |n - z| + |(roundHalfEven z : ℚ) - z| := by
        have h4 := abs_sub ((n : ℚ) - z) ((roundHalfEven z : ℚ) - z)
        have e1 : (n : ℚ) - z - ((roundHalfEven z : ℚ) - z) = n - roundHalfEven z := by ring
        rw [e1] at h4
        exact h4
      linarith
  have hdist : ∀ a : ℚ, |a * 2 ^ (e - 52) - x| = |a - z| * 2 ^ (e - 52) := by
    intro a
    rw [hxz, ← sub_mul, abs_mul, abs_of_pos h2]
  refine ⟨⟨roundHalfEven z, e - 52, ?_, hdef⟩, ?_⟩
  · have h4 := hint (2 ^ 53 * (if 0 ≤ z then 1 else -1))
    have h5 : |(roundHalfEven z : ℚ)| ≤ 2 ^ 53 := by
      rw [abs_le]
      rcases le_or_gt 0 z with h0 | h0
      · rw [if_pos h0] at h4
        rw [abs_of_nonneg h0] at hzh hzl
        rw [mul_one, show (((2 ^ 53 : ℤ)) : ℚ) = 2 ^ 53 by norm_num,
          abs_of_nonneg (show (0 : ℚ) ≤ 2 ^ 53 - z by linarith)] at h4
        have := abs_le.1 h4
        constructor
        · have := hint 0
          simp only [Int.cast_zero, zero_sub, abs_neg, abs_of_nonneg h0] at this
          have := (abs_le.1 this).1
          linarith
        · linarith
      · rw [if_neg (not_le.2 h0)] at h4
        rw [abs_of_neg h0] at hzh hzl
        rw [mul_neg, mul_one, show (((-2 ^ 53 : ℤ)) : ℚ) = -2 ^ 53 by norm_num,
          abs_of_nonpos (show -(2 : ℚ) ^ 53 - z ≤ 0 by linarith)] at h4
        have := abs_le.1 h4
        constructor
        · linarith
        · have := hint 0
          simp only [Int.cast_zero, zero_sub, abs_neg, abs_of_neg h0] at this
          have := (abs_le.1 this).2
          linarith
    exact_mod_cast h5
  · rintro y ⟨m, f, hm, rfl⟩
    rw [hdef, hdist]
    rcases le_or_gt (e - 52) f with hf | hf
    · -- a multiple of the spacing at `x`
      obtain ⟨d, hd⟩ : ∃ d : ℕ, f = (e - 52) + d := ⟨(f - (e - 52)).toNat, by omega⟩
      have : (m : ℚ) * 2 ^ f = ((m * 2 ^ d : ℤ) : ℚ) * 2 ^ (e - 52) := by
        rw [hd, zpow_add₀ (by norm_num), zpow_natCast]; push_cast; ring
      rw [this, hdist]
      exact mul_le_mul_of_nonneg_right (hint _) h2.le
    · -- smaller than the power of two below `x`
      have hy : |(m : ℚ) * 2 ^ f| ≤ 2 ^ 52 * 2 ^ (e - 52) := by
        rw [abs_mul, abs_of_pos (show (0 : ℚ) < 2 ^ f by positivity)]
        have hm' : |(m : ℚ)| ≤ 2 ^ 53 := by exact_mod_cast hm
        calc |(m : ℚ)| * 2 ^ f ≤ 2 ^ 53 * 2 ^ f := mul_le_mul_of_nonneg_right hm' (by positivity)
          _ ≤ 2 ^ 53 * 2 ^ (e - 53) :=
              mul_le_mul_of_nonneg_left (zpow_le_zpow_right₀ (by norm_num) (by omega)) (by positivity)
          _ = 2 ^ 52 * 2 ^ (e - 52) := by
              rw [show e - 52 = (e - 53) + 1 by ring, zpow_add₀ (by norm_num)]; ring
      have hyx : (m : ℚ) * 2 ^ f = ((m : ℚ) * 2 ^ f * 2 ^ (52 - e)) * 2 ^ (e - 52) := by
        rw [mul_assoc ((m : ℚ) * 2 ^ f), hinv, mul_one]
      set a := (m : ℚ) * 2 ^ f * 2 ^ (52 - e) with ha
      rw [hyx] at hy ⊢
      rw [hdist]
      rw [abs_mul, abs_of_pos h2] at hy
      have hab : |a| ≤ 2 ^ 52 := le_of_mul_le_mul_right hy h2
      apply mul_le_mul_of_nonneg_right _ h2.le
      have hab' := abs_le.1 hab
      rcases le_or_gt 0 z with h0 | h0
      · have h4 := hint (2 ^ 52)
        rw [abs_of_nonneg h0] at hzl
        rw [show (((2 ^ 52 : ℤ)) : ℚ) = 2 ^ 52 by norm_num, abs_of_nonpos (show (2 : ℚ) ^ 52 - z ≤ 0 by linarith)] at h4
        rw [abs_of_nonpos (show a - z ≤ 0 by linarith)]
        linarith
      · have h4 := hint (-2 ^ 52)
        rw [abs_of_neg h0] at hzl
        rw [show (((-2 ^ 52 : ℤ)) : ℚ) = -2 ^ 52 by norm_num, abs_of_nonneg (show 0 ≤ -(2 : ℚ) ^ 52 - z by linarith)] at h4
        rw [abs_of_nonneg (show 0 ≤ a - z by linarith)]
        linarith

end Ramwich
