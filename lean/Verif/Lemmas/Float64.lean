import Verif.Model.MvmuFloat
import Verif.Lemmas.SpecMvm
import Mathlib.Tactic.Linarith
import Mathlib.Tactic.Positivity
import Mathlib.Tactic.FieldSimp
import Mathlib.Algebra.Order.Field.Power

/-! # Rounding errors of float64 -/
namespace Ramwich

/-- Relative rounding error. -/
def ulp : ℚ := 1 / 2 ^ 53

theorem f64_zero : f64 0 = 0 := by simp [f64]

theorem f64_err (x : ℚ) : |f64 x - x| ≤ ulp * |x| := by
  by_cases h : x = 0
  · subst h; simp [f64_zero]
  · have hp : 0 < |x| := abs_pos.2 h
    unfold f64
    rw [if_neg h]
    simp only
    set e := Int.log 2 |x| with he
    have hlow : (2 : ℚ) ^ e ≤ |x| := by
      have := Int.zpow_log_le_self (R := ℚ) (b := 2) (by norm_num) hp
      simpa [he] using this
    have h2 : (0 : ℚ) < 2 ^ (e - 52) := by positivity
    have hinv : (2 : ℚ) ^ (52 - e) * 2 ^ (e - 52) = 1 := by
      rw [← zpow_add₀ (by norm_num)]; simp
    have hr := roundHalfEven_le (x * 2 ^ (52 - e))
    have hd : (roundHalfEven (x * 2 ^ (52 - e)) : ℚ) * 2 ^ (e - 52) - x
        = -((x * 2 ^ (52 - e) - roundHalfEven (x * 2 ^ (52 - e))) * 2 ^ (e - 52)) := by
      have : x = x * (2 ^ (52 - e) * 2 ^ (e - 52)) := by rw [hinv, mul_one]
      nth_rewrite 2 [this]; ring
    rw [hd, abs_neg, abs_mul, abs_of_pos h2]
    have hs : (2 : ℚ) ^ (e - 52) = 2 ^ e / 2 ^ 52 := by
      rw [zpow_sub₀ (by norm_num)]; norm_cast
    calc |x * 2 ^ (52 - e) - roundHalfEven (x * 2 ^ (52 - e))| * 2 ^ (e - 52)
        ≤ 1 / 2 * 2 ^ (e - 52) := mul_le_mul_of_nonneg_right hr h2.le
      _ = ulp * 2 ^ e := by rw [hs, ulp]; ring
      _ ≤ ulp * |x| := mul_le_mul_of_nonneg_left hlow (by unfold ulp; positivity)

theorem log_mul_two_pow (x : ℚ) (hx : 0 < x) (k : ℤ) : Int.log 2 (x * 2 ^ k) = Int.log 2 x + k := by
  have hp : (0 : ℚ) < x * 2 ^ k := by positivity
  apply le_antisymm
  · have : Int.log 2 (x * 2 ^ k) < Int.log 2 x + k + 1 := by
      rw [← Int.lt_zpow_iff_log_lt (by norm_num) hp]
      have h := Int.lt_zpow_succ_log_self (R := ℚ) (b := 2) (by norm_num) x
      rw [show Int.log 2 x + k + 1 = (Int.log 2 x + 1) + k by ring, zpow_add₀ (by norm_num)]
      push_cast at h ⊢
      exact mul_lt_mul_of_pos_right h (by positivity)
    omega
  · rw [← Int.zpow_le_iff_le_log (by norm_num) hp]
    have h := Int.zpow_log_le_self (R := ℚ) (b := 2) (by norm_num) hx
    rw [zpow_add₀ (by norm_num)]
    push_cast at h ⊢
    exact mul_le_mul_of_nonneg_right h (by positivity)

/-- Scaling by a power of two commutes with rounding. -/
theorem f64_scale (x : ℚ) (k : ℤ) : f64 (x * 2 ^ k) = f64 x * 2 ^ k := by
  by_cases h : x = 0
  · subst h; simp [f64_zero]
  · have h2 : (2 : ℚ) ^ k ≠ 0 := by positivity
    unfold f64
    rw [if_neg (mul_ne_zero h h2), if_neg h]
    simp only
    have ha : |x * 2 ^ k| = |x| * 2 ^ k := by rw [abs_mul, abs_of_pos (show (0 : ℚ) < 2 ^ k by positivity)]
    rw [ha, log_mul_two_pow _ (abs_pos.2 h)]
    set e := Int.log 2 |x|
    have e1 : x * 2 ^ k * 2 ^ (52 - (e + k)) = x * 2 ^ (52 - e) := by
      rw [mul_assoc, ← zpow_add₀ (by norm_num)]; congr 2; ring
    have e2 : (2 : ℚ) ^ (e + k - 52) = 2 ^ (e - 52) * 2 ^ k := by
      rw [← zpow_add₀ (by norm_num)]; congr 1; ring
    rw [e1, e2, mul_assoc]

theorem roundHalfEven_neg (x : ℚ) : roundHalfEven (-x) = -roundHalfEven x := by
  unfold roundHalfEven
  simp only
  by_cases hx : (⌊x⌋ : ℚ) = x
  · have h1 : ⌊-x⌋ = -⌊x⌋ := by
      rw [← hx]; rw [← Int.cast_neg, Int.floor_intCast, Int.floor_intCast]
    rw [h1, ← hx]
    simp
  · have hlt : (⌊x⌋ : ℚ) < x := lt_of_le_of_ne (Int.floor_le x) hx
    have h1 : ⌊-x⌋ = -⌊x⌋ - 1 := by
      rw [Int.floor_eq_iff]; push_cast
      have := Int.lt_floor_add_one x
      constructor <;> linarith
    rw [h1]; push_cast
    rcases lt_trichotomy (x - ⌊x⌋) (1 / 2) with h | h | h
    · rw [if_neg (by linarith), if_pos (by linarith), if_pos h]; ring
    · have c1 : ¬ (-x - (-(⌊x⌋ : ℚ) - 1) < 1 / 2) := by linarith
      have c2 : ¬ (1 / 2 < -x - (-(⌊x⌋ : ℚ) - 1)) := by linarith
      have c3 : ¬ (x - (⌊x⌋ : ℚ) < 1 / 2) := by linarith
      have c4 : ¬ (1 / 2 < x - (⌊x⌋ : ℚ)) := by linarith
      simp only [c1, c2, c3, c4, if_false]
      split_ifs <;> omega
    · rw [if_pos (by linarith), if_neg (by linarith), if_pos h]; ring

theorem f64_neg (x : ℚ) : f64 (-x) = -f64 x := by
  unfold f64
  by_cases h : x = 0
  · subst h; simp
  · rw [if_neg (by simpa using h), if_neg h]
    simp only [abs_neg, neg_mul, roundHalfEven_neg, Int.cast_neg]

theorem f64_abs (x : ℚ) : f64 |x| = |f64 x| := by
  have hn : ∀ y : ℚ, 0 ≤ y → 0 ≤ f64 y := by
    intro y hy
    have := f64_err y
    rw [abs_of_nonneg hy] at this
    have h2 := (abs_le.1 this).1
    have : ulp * y ≤ y := by unfold ulp; linarith
    linarith
  rcases le_total 0 x with h | h
  · rw [abs_of_nonneg h, abs_of_nonneg (hn x h)]
  · have h' := hn (-x) (by linarith)
    rw [abs_of_nonpos h, f64_neg, abs_of_nonpos (by rw [f64_neg] at h'; linarith)]

/-! ## Relative errors of non-negative numbers -/

/-- `a` is `x` up to `n` roundings. -/
def Near (n : Nat) (a x : ℚ) : Prop := 0 ≤ a ∧ 0 ≤ x ∧ x * (1 - ulp) ^ n ≤ a ∧ a * (1 - ulp) ^ n ≤ x

theorem ulp_pos : 0 < ulp := by unfold ulp; positivity
theorem ulp_lt : ulp < 1 := by unfold ulp; norm_num
theorem one_sub_pos (n : Nat) : 0 < (1 - ulp) ^ n := pow_pos (by have := ulp_lt; linarith) n

theorem near_refl (x : ℚ) (h : 0 ≤ x) : Near 0 x x := ⟨h, h, by simp, by simp⟩

theorem near_zero (n : Nat) : Near n 0 0 := ⟨le_rfl, le_rfl, by simp, by simp⟩

theorem one_sub_anti {n m : Nat} (h : n ≤ m) : (1 - ulp) ^ m ≤ (1 - ulp) ^ n :=
  pow_le_pow_of_le_one (by have := ulp_lt; linarith) (by have := ulp_pos; linarith) h

theorem near_mono {n m : Nat} {a x : ℚ} (h : Near n a x) (hm : n ≤ m) : Near m a x := by
  obtain ⟨h0, h1, h2, h3⟩ := h
  have := one_sub_anti hm
  exact ⟨h0, h1, le_trans (mul_le_mul_of_nonneg_left this h1) h2, le_trans (mul_le_mul_of_nonneg_left this h0) h3⟩

theorem near_f64 {n : Nat} {a x : ℚ} (h : Near n a x) : Near (n + 1) (f64 a) x := by
  obtain ⟨h0, h1, h2, h3⟩ := h
  have he := f64_err a
  rw [abs_of_nonneg h0] at he
  obtain ⟨ha, hb⟩ := abs_le.1 he
  have hu := ulp_pos; have hl := ulp_lt; have hn := one_sub_pos n
  have hlo : a * (1 - ulp) ≤ f64 a := by linarith
  have hup : f64 a ≤ a * (1 + ulp) := by linarith
  refine ⟨le_trans (mul_nonneg h0 (by linarith)) hlo, h1, ?_, ?_⟩
  · calc x * (1 - ulp) ^ (n + 1) = x * (1 - ulp) ^ n * (1 - ulp) := by ring
      _ ≤ a * (1 - ulp) := mul_le_mul_of_nonneg_right h2 (by linarith)
      _ ≤ f64 a := hlo
  · calc f64 a * (1 - ulp) ^ (n + 1) ≤ a * (1 + ulp) * (1 - ulp) ^ (n + 1) :=
          mul_le_mul_of_nonneg_right hup (one_sub_pos _).le
      _ = a * (1 - ulp) ^ n * (1 - ulp ^ 2) := by ring
      _ ≤ a * (1 - ulp) ^ n * 1 := mul_le_mul_of_nonneg_left (by nlinarith) (mul_nonneg h0 hn.le)
      _ ≤ x := by linarith

theorem near_mul {n m : Nat} {a x b y : ℚ} (h : Near n a x) (k : Near m b y) : Near (n + m) (a * b) (x * y) := by
  obtain ⟨h0, h1, h2, h3⟩ := h
  obtain ⟨k0, k1, k2, k3⟩ := k
  refine ⟨mul_nonneg h0 k0, mul_nonneg h1 k1, ?_, ?_⟩
  · calc x * y * (1 - ulp) ^ (n + m) = (x * (1 - ulp) ^ n) * (y * (1 - ulp) ^ m) := by ring
      _ ≤ a * b := mul_le_mul h2 k2 (mul_nonneg k1 (one_sub_pos _).le) h0
  · calc a * b * (1 - ulp) ^ (n + m) = (a * (1 - ulp) ^ n) * (b * (1 - ulp) ^ m) := by ring
      _ ≤ x * y := mul_le_mul h3 k3 (mul_nonneg k0 (one_sub_pos _).le) h1

theorem near_inv {m : Nat} {b y : ℚ} (hy : 0 < y) (k : Near m b y) : 0 < b ∧ Near m b⁻¹ y⁻¹ := by
  obtain ⟨k0, k1, k2, k3⟩ := k
  have hp := one_sub_pos m
  have hb : 0 < b := lt_of_lt_of_le (mul_pos hy hp) k2
  refine ⟨hb, (inv_pos.2 hb).le, (inv_pos.2 hy).le, ?_, ?_⟩
  · rw [inv_mul_le_iff₀ hy, ← div_eq_mul_inv, le_div_iff₀ hb]; linarith
  · rw [inv_mul_le_iff₀ hb, ← div_eq_mul_inv, le_div_iff₀ hy]; linarith

theorem near_div {n m : Nat} {a x b y : ℚ} (hy : 0 < y) (h : Near n a x) (k : Near m b y) :
    Near (n + m) (a / b) (x / y) := by
  rw [div_eq_mul_inv, div_eq_mul_inv]
  exact near_mul h (near_inv hy k).2

theorem near_add {n : Nat} {a x b y : ℚ} (h : Near n a x) (k : Near n b y) : Near n (a + b) (x + y) := by
  obtain ⟨h0, h1, h2, h3⟩ := h
  obtain ⟨k0, k1, k2, k3⟩ := k
  refine ⟨by linarith, by linarith, ?_, ?_⟩
  · rw [add_mul]; linarith
  · rw [add_mul]; linarith

/-- Clipping to `[0, 1]` does no harm to a number that is in it. -/
theorem near_clip {n : Nat} {a x : ℚ} (h : Near n a x) (hx : x ≤ 1) : Near n (npClip a 0 1) x := by
  obtain ⟨h0, h1, h2, h3⟩ := h
  unfold npClip
  rw [max_eq_left h0]
  have hp := one_sub_pos n
  have hle : (1 - ulp) ^ n ≤ 1 := by simpa using one_sub_anti (Nat.zero_le n)
  refine ⟨le_min (by norm_num) h0, h1, ?_, ?_⟩
  · apply le_min
    · calc x * (1 - ulp) ^ n ≤ 1 * 1 := mul_le_mul hx hle hp.le (by norm_num)
        _ = 1 := by norm_num
    · exact h2
  · exact le_trans (mul_le_mul_of_nonneg_right (min_le_right _ _) hp.le) h3

/-- A number near an integer rounds to it. -/
theorem near_round {N : Nat} {a : ℚ} {n : Nat} (h : Near N a n) (hs : n * N < 2 ^ 51) :
    roundHalfEven a = n := by
  obtain ⟨h0, h1, h2, h3⟩ := h
  rcases Nat.eq_zero_or_pos n with rfl | hn
  · have hp := one_sub_pos N
    have : a = 0 := by
      apply le_antisymm _ h0
      by_contra hc
      push Not at hc
      have := mul_pos hc hp
      push_cast at h3
      linarith
    subst this
    simpa using roundHalfEven_intCast 0
  · have hsq : ((n : ℚ) * N) < 2 ^ 51 := by exact_mod_cast hs
    have hb : 1 - N * ulp ≤ (1 - ulp) ^ N := by
      have := one_add_mul_le_pow (a := -ulp) (by have := ulp_lt; linarith) N
      have e : 1 + (N : ℚ) * -ulp = 1 - N * ulp := by ring
      rw [e] at this
      simpa [sub_eq_add_neg] using this
    have hnn : (1 : ℚ) ≤ n := by exact_mod_cast hn
    have hq : (n : ℚ) * (N * ulp) < 1 / 4 := by
      have : (n : ℚ) * (N * ulp) = n * N * ulp := by ring
      rw [this]
      calc (n : ℚ) * N * ulp < 2 ^ 51 * ulp := mul_lt_mul_of_pos_right hsq ulp_pos
        _ = 1 / 4 := by unfold ulp; norm_num
    have hNu : 0 ≤ (N : ℚ) * ulp := mul_nonneg (by positivity) ulp_pos.le
    have hNu' : (N : ℚ) * ulp < 1 / 4 := by nlinarith
    have hlo : (n : ℚ) * (1 - N * ulp) ≤ a := le_trans (mul_le_mul_of_nonneg_left hb h1) h2
    have hup : a * (1 - N * ulp) ≤ n := le_trans (mul_le_mul_of_nonneg_left hb h0) h3
    have hgoal : |a - ((n : Int) : ℚ)| < 1 / 2 := by
      rw [abs_lt]
      push_cast
      constructor
      · nlinarith
      · by_contra hc
        push Not at hc
        nlinarith
    exact roundHalfEven_eq_of_lt a n hgoal

end Ramwich
