import Verif.Spec.Accuracy
import Verif.Lemmas.SpecMvm
import Mathlib.Algebra.Order.BigOperators.Group.List
import Mathlib.Algebra.Order.Group.Unbundled.Abs
import Mathlib.Algebra.Order.Group.MinMax
import Mathlib.Tactic.Linarith
import Mathlib.Tactic.FieldSimp

/-! # Accuracy of fixed-point layers -/
namespace Ramwich

open Spec

/-! ## One product -/

theorem slice1_le (i : Nat) (x : Int) : inputSlice 1 i x ≤ 1 := by
  have := inputSlice_lt 1 i x
  omega

theorem partialSum_le {st : List BitConfig} {frac size : Nat} {W : Nat → Nat → ℚ} {x : Nat → Int} {k i r m : Nat}
    (hp : ∑ j ∈ Finset.range size, (if 0 < W r j then level st frac (W r j) k else 0) < m)
    (hn : ∑ j ∈ Finset.range size, (if W r j < 0 then level st frac (W r j) k else 0) < m) :
    |partialSum st frac size 1 W x k i r| ≤ (m : Int) - 1 := by
  have h1 : partialSum st frac size 1 W x k i r
      ≤ ∑ j ∈ Finset.range size, (((if 0 < W r j then level st frac (W r j) k else 0 : Nat)) : Int) := by
    apply Finset.sum_le_sum
    intro j _
    have a := inputSlice_nonneg 1 i (x j)
    have b := slice1_le i (x j)
    rcases sgn_cases (W r j) with ⟨e0, e⟩ | ⟨e0, e⟩ | ⟨e0, e⟩
    · rw [e, if_pos e0, one_mul]
      nlinarith [Int.natCast_nonneg (level st frac (W r j) k)]
    · rw [e, if_neg (by rw [e0]; exact lt_irrefl _)]
      simp
    · rw [e, if_neg (by linarith)]
      have := Int.natCast_nonneg (level st frac (W r j) k)
      push_cast
      nlinarith
  have h2 : -∑ j ∈ Finset.range size, (((if W r j < 0 then level st frac (W r j) k else 0 : Nat)) : Int)
      ≤ partialSum st frac size 1 W x k i r := by
    rw [← Finset.sum_neg_distrib]
    apply Finset.sum_le_sum
    intro j _
    have a := inputSlice_nonneg 1 i (x j)
    have b := slice1_le i (x j)
    rcases sgn_cases (W r j) with ⟨e0, e⟩ | ⟨e0, e⟩ | ⟨e0, e⟩
    · rw [e, if_neg (by linarith)]
      have := Int.natCast_nonneg (level st frac (W r j) k)
      push_cast
      nlinarith
    · rw [e, if_neg (by rw [e0]; exact lt_irrefl _)]
      simp
    · rw [e, if_pos e0]
      nlinarith [Int.natCast_nonneg (level st frac (W r j) k)]
  rw [← Nat.cast_sum] at h1 h2
  have h3 : ((∑ j ∈ Finset.range size, (if 0 < W r j then level st frac (W r j) k else 0) : Nat) : Int) < m := by
    exact_mod_cast hp
  have h4 : ((∑ j ∈ Finset.range size, (if W r j < 0 then level st frac (W r j) k else 0) : Nat) : Int) < m := by
    exact_mod_cast hn
  rw [abs_le]
  constructor <;> omega

theorem disturbance_lt {err : Nat → Nat → Nat → Nat → ℚ} {unit : ℚ} {rank size : Nat} {x : Nat → Int} {i r : Nat}
    (hu : 0 < unit) (h : ∑ j ∈ Finset.range size, |err i rank r j| < unit / 2) :
    |disturbance err unit rank size 1 x i r| < 1 / 2 := by
  unfold disturbance
  refine (Finset.abs_sum_le_sum_abs _ _).trans_lt ?_
  have : ∑ j ∈ Finset.range size, |err i rank r j / unit * (inputSlice 1 i (x j) : ℚ)|
      ≤ ∑ j ∈ Finset.range size, |err i rank r j| / unit := by
    apply Finset.sum_le_sum
    intro j _
    rw [abs_mul, abs_div, abs_of_pos hu]
    have a : (0 : ℚ) ≤ inputSlice 1 i (x j) := by exact_mod_cast inputSlice_nonneg 1 i (x j)
    have b : (inputSlice 1 i (x j) : ℚ) ≤ 1 := by exact_mod_cast slice1_le i (x j)
    rw [abs_of_nonneg a]
    have c : 0 ≤ |err i rank r j| / unit := by positivity
    nlinarith
  refine this.trans_lt ?_
  rw [← Finset.sum_div, div_lt_iff₀ hu]
  linarith

theorem wrap32_small (v : Int) (h : |v| < 2 ^ 31) : wrap32 v = v := by
  rw [abs_lt] at h
  unfold wrap32
  exact Int.bmod_eq_of_le (by omega) (by omega)

/-- The exact contents of an output register. -/
theorem value_exact {p : UnitParams} (hg : p.gmin = 0) (hm : 0 < p.gmax) (hr : p.res = 1)
    (hs : (p.size : Int) * ((2 ^ slicePos p.storage p.storage.length - 1) * (2 ^ p.width - 1)) < 2 ^ 31)
    {W : Nat → Nat → ℚ} {e : MvmErrors} (hu : exactUnit p W e) {x : List Int}
    (hx : ∀ j, 0 ≤ x.getD j 0 ∧ x.getD j 0 < 2 ^ p.width) {r : Nat} (hrs : r < p.size) :
    wrap32 ((p.analog (e.pos 0) (e.neg 0)).mvmValue p.storage p.frac p.size p.res p.width p.adcBits W (fun j => x.getD j 0) r)
      = ∑ j ∈ Finset.range p.size, fixedWeight p.frac (W r j) * x.getD j 0 := by
  have hunit : ∀ k, isRram p.storage k = true → 0 < p.gmax / (2 ^ bitsOf p.storage k - 1) := by
    intro k _
    have : 1 ≤ bitsOf p.storage k := by
      unfold bitsOf
      cases p.storage.getD k .sram <;> simp [cellBits]
    have h2 : (2 : ℚ) ^ 1 ≤ 2 ^ bitsOf p.storage k := pow_le_pow_right₀ (by norm_num) this
    apply div_pos hm
    linarith
  rw [mvmValue_robust _ _ _ _ _ _ _ _ _ _ hg]
  · rw [hr, mvmValue_res1]
    · have e1 : ∀ j ∈ Finset.range p.size,
          heldWeight p.frac (slicePos p.storage p.storage.length) (W r j) * (x.getD j 0 % 2 ^ p.width)
            = fixedWeight p.frac (W r j) * x.getD j 0 := by
        intro j hj
        rw [Finset.mem_range] at hj
        rw [heldWeight_eq _ _ _ (hu.fit r hrs j hj), Int.emod_eq_of_lt (hx j).1 (hx j).2]
      rw [Finset.sum_congr rfl e1, wrap32_small]
      refine lt_of_le_of_lt ((Finset.abs_sum_le_sum_abs _ _).trans ?_) hs
      have : ∀ j ∈ Finset.range p.size, |fixedWeight p.frac (W r j) * x.getD j 0|
          ≤ ((2 : Int) ^ slicePos p.storage p.storage.length - 1) * (2 ^ p.width - 1) := by
        intro j hj
        rw [Finset.mem_range] at hj
        rw [abs_mul]
        have h1 : |fixedWeight p.frac (W r j)| ≤ 2 ^ slicePos p.storage p.storage.length - 1 := by
          unfold fixedWeight
          have h2 : (magnitude p.frac (W r j) : Int) < 2 ^ slicePos p.storage p.storage.length := by
            exact_mod_cast hu.fit r hrs j hj
          have h3 := Int.natCast_nonneg (magnitude p.frac (W r j))
          rcases sgn_cases (W r j) with ⟨-, e⟩ | ⟨-, e⟩ | ⟨-, e⟩ <;> rw [e, abs_le] <;> constructor <;> omega
        have h2 : |x.getD j 0| ≤ 2 ^ p.width - 1 := by
          rw [abs_of_nonneg (hx j).1]
          have := (hx j).2
          omega
        exact mul_le_mul h1 h2 (abs_nonneg _) (le_trans (abs_nonneg _) h1)
      refine (Finset.sum_le_sum this).trans ?_
      rw [Finset.sum_const, Finset.card_range, nsmul_eq_mul]
    · intro i _ k hk hkr
      obtain ⟨h1, h2⟩ := hu.adc r hrs k hk hkr
      have := partialSum_le (x := fun j => x.getD j 0) (i := i) h1 h2
      push_cast at this
      exact this
  · intro i _ k hk hkr
    rw [hr]
    by_cases hb : p.hasNoise = true
    · have h1 := hu.noise hb (e.pos 0) (by simp) i r hrs k hk hkr
      have h2 := disturbance_lt (x := fun j => x.getD j 0) (hunit k hkr) h1
      unfold UnitParams.analog Analog.unit
      simpa only [hb, if_true, hg, sub_zero] using h2
    · simp [disturbance, UnitParams.analog, hb]
  · intro i _ k hk hkr
    rw [hr]
    by_cases hb : p.hasNoise = true
    · have h1 := hu.noise hb (e.neg 0) (by simp) i r hrs k hk hkr
      have h2 := disturbance_lt (x := fun j => x.getD j 0) (hunit k hkr) h1
      unfold UnitParams.analog Analog.unit
      simpa only [hb, if_true, hg, sub_zero] using h2
    · simp [disturbance, UnitParams.analog, hb]

/-- The exact product. -/
theorem product_exact {p : CoreParams} (hg : p.unit.gmin = 0) (hm : 0 < p.unit.gmax) (hr : p.unit.res = 1)
    (hs : (p.unit.size : Int) * ((2 ^ slicePos p.unit.storage p.unit.storage.length - 1) * (2 ^ p.unit.width - 1)) < 2 ^ 31)
    {W : Nat → Nat → ℚ} {e : MvmErrors} (hu : exactUnit p.unit W e) {x : List Int}
    (hx : ∀ j, 0 ≤ x.getD j 0 ∧ x.getD j 0 < 2 ^ p.unit.width) {n : Nat} (hn : n ≤ p.unit.size) :
    p.product W e x n = (List.range n).map fun r =>
      (∑ j ∈ Finset.range p.unit.size, fixedWeight p.unit.frac (W r j) * x.getD j 0) / 2 ^ p.unit.frac := by
  unfold CoreParams.product
  apply List.map_congr_left
  intro r hrn
  rw [List.mem_range] at hrn
  rw [value_exact hg hm hr hs hu hx (by omega : r < p.unit.size)]

/-! ## Saturation -/

theorem saturatedTo_close (width frac : Nat) (u v : ℚ) :
    |saturatedTo width frac u - saturatedTo width frac v| ≤ |u - v| := by
  unfold saturatedTo
  generalize (-2 ^ width / 2 ^ frac : ℚ) = a
  generalize ((2 ^ width - 1) / 2 ^ frac : ℚ) = b
  have h1 := abs_max_sub_max_le_abs (min u b) (min v b) a
  have h2 := abs_min_sub_min_le_max u b v b
  rw [sub_self, abs_zero, max_eq_left (abs_nonneg _)] at h2
  rw [max_comm a, max_comm a]
  exact h1.trans h2

theorem clampTo_div (width frac : Nat) (v : Int) :
    (clampTo width v : ℚ) / 2 ^ frac = saturatedTo width frac (v / 2 ^ frac) := by
  unfold clampTo saturatedTo
  have h : (0 : ℚ) ≤ 2 ^ frac := by positivity
  rw [Int.cast_max, Int.cast_min]
  have hm : ∀ a b : ℚ, max a b / 2 ^ frac = max (a / 2 ^ frac) (b / 2 ^ frac) := fun a b =>
    (Monotone.map_max (f := fun v : ℚ => v / 2 ^ frac) fun a b hab => div_le_div_of_nonneg_right hab h)
  have hn : ∀ a b : ℚ, min a b / 2 ^ frac = min (a / 2 ^ frac) (b / 2 ^ frac) := fun a b =>
    (Monotone.map_min (f := fun v : ℚ => v / 2 ^ frac) fun a b hab => div_le_div_of_nonneg_right hab h)
  rw [hm, hn]
  push_cast
  rfl

/-- Saturating sum of integers. -/
def clampSum (width : Nat) : List Int → Int
  | [] => 0
  | x :: xs => xs.foldl (fun acc y => clampTo width (y + acc)) x

theorem clampSum_close {ι : Type} (width frac : Nat) (l : List ι) (a : ι → Int) (b e : ι → ℚ)
    (h : ∀ i ∈ l, |(a i : ℚ) / 2 ^ frac - b i| ≤ e i) :
    |(clampSum width (l.map a) : ℚ) / 2 ^ frac - satSum (saturatedTo width frac) (l.map b)| ≤ (l.map e).sum := by
  cases l with
  | nil => simp [clampSum, satSum]
  | cons i l =>
    have key : ∀ (l : List ι) (z : Int) (q ε : ℚ), (∀ i ∈ l, |(a i : ℚ) / 2 ^ frac - b i| ≤ e i) → |(z : ℚ) / 2 ^ frac - q| ≤ ε →
        |(((l.map a).foldl (fun acc y => clampTo width (y + acc)) z : Int) : ℚ) / 2 ^ frac
          - (l.map b).foldl (fun acc y => saturatedTo width frac (y + acc)) q| ≤ ε + (l.map e).sum := by
      intro l
      induction l with
      | nil => intro z q ε _ hz; simpa using hz
      | cons i l ih =>
        intro z q ε hl hz
        simp only [List.map_cons, List.foldl_cons, List.sum_cons]
        have := ih (clampTo width (a i + z)) (saturatedTo width frac (b i + q)) (ε + e i)
          (fun i hi => hl i (by simp [hi])) (by
            rw [clampTo_div]
            refine (saturatedTo_close _ _ _ _).trans ?_
            have h1 := hl i (by simp)
            push_cast
            rw [show ((a i : ℚ) + z) / 2 ^ frac - (b i + q) = (z / 2 ^ frac - q) + (a i / 2 ^ frac - b i) by ring]
            exact (abs_add_le _ _).trans (add_le_add hz h1))
        linarith
    have := key l (a i) (b i) (e i) (fun i hi => h i (by simp [hi])) (h i (by simp))
    rw [List.map_cons, List.map_cons, List.map_cons, List.sum_cons]
    exact this

theorem sumUp_getD (p : CoreParams) (ls : List (List Int)) (n r : Nat) (h : ∀ l ∈ ls, l.length = n) (hr : r < n) :
    (p.sumUp ls).getD r 0 = clampSum p.actWidth (ls.map (·.getD r 0)) := by
  cases ls with
  | nil => rfl
  | cons x xs =>
    have key : ∀ (xs : List (List Int)) (x : List Int), (∀ l ∈ xs, l.length = n) → x.length = n →
        (xs.foldl (fun acc y => p.plus y acc) x).getD r 0
          = (xs.map (·.getD r 0)).foldl (fun acc y => clampTo p.actWidth (y + acc)) (x.getD r 0) := by
      intro xs
      induction xs with
      | nil => intros; rfl
      | cons y xs ih =>
        intro x hxs hx
        have hy := hxs y (by simp)
        have hpl : (p.plus y x).length = n := by
          unfold CoreParams.plus
          rw [List.length_zipWith, hx, hy, min_self]
        simp only [List.foldl_cons, List.map_cons]
        rw [ih (p.plus y x) (fun l hl => hxs l (by simp [hl])) hpl]
        congr 1
        unfold CoreParams.plus
        simp only [List.getD_eq_getElem?_getD, List.getElem?_zipWith]
        rw [List.getElem?_eq_getElem (by omega : r < y.length), List.getElem?_eq_getElem (by omega : r < x.length)]
        rfl
    exact key xs x (fun l hl => h l (by simp [hl])) (h x (by simp))

theorem sumUp_length (p : CoreParams) (ls : List (List Int)) (n : Nat) (h : ∀ l ∈ ls, l.length = n) :
    (p.sumUp ls).length ≤ n := by
  cases ls with
  | nil => exact Nat.zero_le _
  | cons x xs =>
    have key : ∀ (xs : List (List Int)) (x : List Int), x.length ≤ n →
        (xs.foldl (fun acc y => p.plus y acc) x).length ≤ n := by
      intro xs
      induction xs with
      | nil => exact fun x h => h
      | cons y xs ih =>
        intro x hx
        refine ih _ ?_
        unfold CoreParams.plus
        rw [List.length_zipWith]
        omega
    exact key xs x (h x (by simp)).le

/-! ## One layer -/

/-- One product of a row with a block, rounded down. -/
theorem row_close (wf af size : Nat) (w : Nat → ℚ) (u : Nat → ℚ) (X : Nat → Int) (x : Nat → ℚ) (δ ρ : ℚ)
    (hρ : ∀ c < size, |roundedWeight wf (w c) - u c| ≤ ρ) (hδ : ∀ c < size, |(X c : ℚ) / 2 ^ af - x c| ≤ δ) :
    |(((∑ c ∈ Finset.range size, fixedWeight wf (w c) * X c) / 2 ^ wf : Int) : ℚ) / 2 ^ af - ∑ c ∈ Finset.range size, u c * x c|
      ≤ (∑ c ∈ Finset.range size, |roundedWeight wf (w c)|) * δ + ρ * (∑ c ∈ Finset.range size, |x c|) + 1 / 2 ^ af := by
  have hwf : (0 : ℚ) < 2 ^ wf := by positivity
  have haf : (0 : ℚ) < 2 ^ af := by positivity
  set M : Int := ∑ c ∈ Finset.range size, fixedWeight wf (w c) * X c with hM
  have h1 : |((M / 2 ^ wf : Int) : ℚ) / 2 ^ af - (M : ℚ) / 2 ^ wf / 2 ^ af| ≤ 1 / 2 ^ af := by
    rw [← sub_div, abs_div, abs_of_pos haf]
    apply div_le_div_of_nonneg_right _ haf.le
    have a := Int.ediv_mul_le M (show (2 ^ wf : Int) ≠ 0 by positivity)
    have b := Int.lt_ediv_add_one_mul_self M (show (0 : Int) < 2 ^ wf by positivity)
    have a' : ((M / 2 ^ wf : Int) : ℚ) ≤ M / 2 ^ wf := by
      rw [le_div_iff₀ hwf]; exact_mod_cast a
    have b' : (M : ℚ) / 2 ^ wf ≤ ((M / 2 ^ wf : Int) : ℚ) + 1 := by
      rw [div_le_iff₀ hwf]; exact_mod_cast b.le
    rw [abs_le]
    constructor <;> linarith
  have h2 : (M : ℚ) / 2 ^ wf / 2 ^ af = ∑ c ∈ Finset.range size, roundedWeight wf (w c) * ((X c : ℚ) / 2 ^ af) := by
    rw [hM, Int.cast_sum, Finset.sum_div, Finset.sum_div]
    apply Finset.sum_congr rfl
    intro c _
    unfold roundedWeight
    push_cast
    ring
  have h3 : |∑ c ∈ Finset.range size, roundedWeight wf (w c) * ((X c : ℚ) / 2 ^ af) - ∑ c ∈ Finset.range size, u c * x c|
      ≤ (∑ c ∈ Finset.range size, |roundedWeight wf (w c)|) * δ + ρ * (∑ c ∈ Finset.range size, |x c|) := by
    rw [← Finset.sum_sub_distrib, Finset.sum_mul, Finset.mul_sum, ← Finset.sum_add_distrib]
    refine (Finset.abs_sum_le_sum_abs _ _).trans (Finset.sum_le_sum fun c hc => ?_)
    rw [Finset.mem_range] at hc
    rw [show roundedWeight wf (w c) * ((X c : ℚ) / 2 ^ af) - u c * x c
      = roundedWeight wf (w c) * ((X c : ℚ) / 2 ^ af - x c) + (roundedWeight wf (w c) - u c) * x c by ring]
    refine (abs_add_le _ _).trans ?_
    rw [abs_mul, abs_mul]
    exact add_le_add (mul_le_mul_of_nonneg_left (hδ c hc) (abs_nonneg _))
      (mul_le_mul_of_nonneg_right (hρ c hc) (abs_nonneg _))
  rw [h2] at h1
  have := abs_add_le (((M / 2 ^ wf : Int) : ℚ) / 2 ^ af - ∑ c ∈ Finset.range size, roundedWeight wf (w c) * ((X c : ℚ) / 2 ^ af))
    (∑ c ∈ Finset.range size, roundedWeight wf (w c) * ((X c : ℚ) / 2 ^ af) - ∑ c ∈ Finset.range size, u c * x c)
  rw [sub_add_sub_cancel] at this
  linarith

/-- The fixed-point blocks `X` are close to `x`. -/
def NearBlocks (af size blocks : Nat) (δ : ℚ) (X : List (List Int)) (x : Nat → Nat → ℚ) : Prop :=
  ∀ i < blocks, ∀ c < size, |((X.getD i []).getD c 0 : ℚ) / 2 ^ af - x i c| ≤ δ

/-- Inputs that a unit can take. -/
def Unsigned (width : Nat) (X : List (List Int)) : Prop :=
  ∀ b ∈ X, ∀ j, 0 ≤ b.getD j 0 ∧ b.getD j 0 < 2 ^ width

theorem layer_near {p : CoreParams} (hg : p.unit.gmin = 0) (hm : 0 < p.unit.gmax) (hr : p.unit.res = 1)
    (hs : (p.unit.size : Int) * ((2 ^ slicePos p.unit.storage p.unit.storage.length - 1) * (2 ^ p.unit.width - 1)) < 2 ^ 31)
    {W u : Nat → Nat → Nat → ℚ} {e : Nat → MvmErrors} {first : Nat} {sizes : List Nat} {X : List (List Int)}
    {x : Nat → Nat → ℚ} {δ ρ N S : ℚ}
    (hu : ∀ g, first ≤ g → g < first + sizes.length * X.length → exactUnit p.unit (W g) (e g))
    (hsz : ∀ n ∈ sizes, n ≤ p.unit.size)
    (hρ : ∀ g, first ≤ g → g < first + sizes.length * X.length → ∀ r < p.unit.size, ∀ c < p.unit.size,
      |roundedWeight p.unit.frac (W g r c) - u g r c| ≤ ρ) (hρ0 : 0 ≤ ρ) (hδ0 : 0 ≤ δ) (hN0 : 0 ≤ N)
    (hN : ∀ j < sizes.length, ∀ r < p.unit.size, ∑ i ∈ Finset.range X.length, ∑ c ∈ Finset.range p.unit.size,
      |roundedWeight p.unit.frac (W (first + j * X.length + i) r c)| ≤ N)
    (hS : ∑ i ∈ Finset.range X.length, ∑ c ∈ Finset.range p.unit.size, |x i c| ≤ S)
    (hX : Unsigned p.unit.width X) (h : NearBlocks p.actFrac p.unit.size X.length δ X x) :
    NearBlocks p.actFrac p.unit.size sizes.length (layerError p.actFrac N δ ρ S X.length)
      (p.layer (fun g x n => p.product (W g) (e g) x n) first sizes X)
      (exactLayer (saturatedTo p.actWidth p.actFrac) p.unit.size u first X.length sizes x) := by
  intro j hj r hrs
  have hS0 : 0 ≤ S := le_trans (Finset.sum_nonneg fun i _ => Finset.sum_nonneg fun c _ => abs_nonneg _) hS
  have hlayer : (p.layer (fun g x n => p.product (W g) (e g) x n) first sizes X).getD j []
      = p.sumUp (X.zipIdx.map fun (x, i) => p.product (W (first + j * X.length + i)) (e (first + j * X.length + i)) x sizes[j]) := by
    unfold CoreParams.layer
    rw [List.getD_eq_getElem?_getD, List.getElem?_map, List.getElem?_zipIdx, List.getElem?_eq_getElem hj]
    simp
  have hsj : sizes.getD j 0 = sizes[j] := by
    rw [List.getD_eq_getElem?_getD, List.getElem?_eq_getElem hj]; rfl
  have hle : sizes[j] ≤ p.unit.size := hsz _ (List.getElem_mem hj)
  have hgi : ∀ i < X.length, first + j * X.length + i < first + sizes.length * X.length := by
    intro i hi
    have h1 : (j + 1) * X.length ≤ sizes.length * X.length := Nat.mul_le_mul_right _ hj
    rw [Nat.add_mul, Nat.one_mul] at h1
    omega
  have hzip : (X.zipIdx.map fun (x, i) => p.product (W (first + j * X.length + i)) (e (first + j * X.length + i)) x sizes[j])
      = (List.range X.length).map fun i => (List.range sizes[j]).map fun r =>
        (∑ c ∈ Finset.range p.unit.size, fixedWeight p.unit.frac (W (first + j * X.length + i) r c) * (X.getD i []).getD c 0)
          / 2 ^ p.unit.frac := by
    apply List.ext_getElem?
    intro i
    rw [List.getElem?_map, List.getElem?_map, List.getElem?_zipIdx]
    by_cases hi : i < X.length
    · rw [List.getElem?_eq_getElem hi, List.getElem?_range hi]
      simp only [Option.map_some, Nat.zero_add, Option.some.injEq]
      have e1 : X.getD i [] = X[i] := by rw [List.getD_eq_getElem?_getD, List.getElem?_eq_getElem hi]; rfl
      rw [e1]
      exact product_exact hg hm hr hs (hu _ (by omega) (hgi i hi)) (hX _ (List.getElem_mem hi)) hle
    · rw [List.getElem?_eq_none (by omega), List.getElem?_eq_none (by simpa using hi)]
      rfl
  rw [hlayer, hzip]
  unfold exactLayer
  rw [hsj]
  by_cases hrj : r < sizes[j]
  · rw [if_pos hrj, sumUp_getD p _ sizes[j] r (by
      intro l hl
      obtain ⟨i, -, rfl⟩ := List.mem_map.1 hl
      simp) hrj, List.map_map]
    have hcl := clampSum_close p.actWidth p.actFrac (List.range X.length)
      ((fun l => l.getD r 0) ∘ fun i => (List.range sizes[j]).map fun r =>
        (∑ c ∈ Finset.range p.unit.size, fixedWeight p.unit.frac (W (first + j * X.length + i) r c) * (X.getD i []).getD c 0)
          / 2 ^ p.unit.frac)
      (fun i => ∑ c ∈ Finset.range p.unit.size, u (first + j * X.length + i) r c * x i c)
      (fun i => (∑ c ∈ Finset.range p.unit.size, |roundedWeight p.unit.frac (W (first + j * X.length + i) r c)|) * δ
        + ρ * (∑ c ∈ Finset.range p.unit.size, |x i c|) + 1 / 2 ^ p.actFrac) (by
        intro i hi
        rw [List.mem_range] at hi
        have e1 : ((fun l : List Int => l.getD r 0) ∘ fun i => (List.range sizes[j]).map fun r =>
          (∑ c ∈ Finset.range p.unit.size, fixedWeight p.unit.frac (W (first + j * X.length + i) r c) * (X.getD i []).getD c 0)
            / 2 ^ p.unit.frac) i = (∑ c ∈ Finset.range p.unit.size,
              fixedWeight p.unit.frac (W (first + j * X.length + i) r c) * (X.getD i []).getD c 0) / 2 ^ p.unit.frac := by
          simp only [Function.comp]
          rw [List.getD_eq_getElem?_getD, List.getElem?_map, List.getElem?_range hrj]
          rfl
        rw [e1]
        exact row_close p.unit.frac p.actFrac p.unit.size (fun c => W (first + j * X.length + i) r c)
          (fun c => u (first + j * X.length + i) r c) (fun c => (X.getD i []).getD c 0) (fun c => x i c) δ ρ
          (fun c hc => hρ _ (by omega) (hgi i hi) r hrs c hc) (fun c hc => h i hi c hc))
    refine hcl.trans ?_
    have hsum : ∀ f : Nat → ℚ, ((List.range X.length).map f).sum = ∑ i ∈ Finset.range X.length, f i := fun f => rfl
    rw [hsum, Finset.sum_add_distrib, Finset.sum_add_distrib, ← Finset.sum_mul, ← Finset.mul_sum, Finset.sum_const,
      Finset.card_range, nsmul_eq_mul]
    unfold layerError
    have h1 := mul_le_mul_of_nonneg_right (hN j hj r hrs) hδ0
    have h2 := mul_le_mul_of_nonneg_left hS hρ0
    rw [mul_one_div]
    linarith
  · rw [if_neg hrj]
    have h0 : (p.sumUp ((List.range X.length).map fun i => (List.range sizes[j]).map fun r =>
        (∑ c ∈ Finset.range p.unit.size, fixedWeight p.unit.frac (W (first + j * X.length + i) r c) * (X.getD i []).getD c 0)
          / 2 ^ p.unit.frac)).getD r 0 = 0 := by
      have hlen := sumUp_length p ((List.range X.length).map fun i => (List.range sizes[j]).map fun r =>
        (∑ c ∈ Finset.range p.unit.size, fixedWeight p.unit.frac (W (first + j * X.length + i) r c) * (X.getD i []).getD c 0)
          / 2 ^ p.unit.frac) sizes[j] (by
          intro l hl
          obtain ⟨i, -, rfl⟩ := List.mem_map.1 hl
          simp)
      rw [List.getD_eq_getElem?_getD, List.getElem?_eq_none (by omega)]
      rfl
    rw [h0]
    unfold layerError
    have : (0 : ℚ) ≤ X.length / 2 ^ p.actFrac := by positivity
    simp only [Int.cast_zero, zero_div, sub_self, abs_zero]
    positivity

/-! ## The network -/

theorem relu_near {p : CoreParams} {size blocks : Nat} {δ : ℚ} {Y : List (List Int)} {y : Nat → Nat → ℚ}
    (h : NearBlocks p.actFrac size blocks δ Y y) :
    NearBlocks p.actFrac size blocks δ (Y.map p.rectified) (exactRelu (saturatedTo p.actWidth p.actFrac) y) := by
  intro i hi c hc
  have h1 := h i hi c hc
  have e1 : ((Y.map p.rectified).getD i []).getD c 0 = clampTo p.actWidth (max 0 ((Y.getD i []).getD c 0)) := by
    have h0 : (0 : Int) = clampTo p.actWidth (max 0 0) := by
      unfold clampTo
      have : (1 : Int) ≤ 2 ^ p.actWidth := one_le_pow₀ (by norm_num)
      omega
    simp only [List.getD_eq_getElem?_getD, List.getElem?_map]
    cases Y[i]? with
    | none => simpa using h0
    | some b =>
      simp only [Option.map_some, Option.getD_some, CoreParams.rectified, List.getElem?_map]
      cases b[c]? with
      | none => simpa using h0
      | some v => rfl
  rw [e1, clampTo_div]
  unfold exactRelu
  refine (saturatedTo_close _ _ _ _).trans ?_
  have e2 : ((max 0 ((Y.getD i []).getD c 0) : Int) : ℚ) / 2 ^ p.actFrac = max 0 (((Y.getD i []).getD c 0 : ℚ) / 2 ^ p.actFrac) := by
    have hp : (0 : ℚ) < 2 ^ p.actFrac := by positivity
    rw [Int.cast_max, Int.cast_zero]
    rcases le_total (0 : ℚ) ((Y.getD i []).getD c 0 : ℚ) with h2 | h2
    · rw [max_eq_right h2, max_eq_right (by positivity)]
    · rw [max_eq_left h2, max_eq_left (div_nonpos_of_nonpos_of_nonneg h2 hp.le), zero_div]
  rw [e2, max_comm (0 : ℚ), max_comm (0 : ℚ)]
  exact (abs_max_sub_max_le_abs _ _ _).trans h1

theorem relu_unsigned {p : CoreParams} (Y : List (List Int)) : Unsigned p.actWidth (Y.map p.rectified) := by
  intro b hb j
  obtain ⟨a, -, rfl⟩ := List.mem_map.1 hb
  have hpos : (1 : Int) ≤ 2 ^ p.actWidth := one_le_pow₀ (by norm_num)
  rw [List.getD_eq_getElem?_getD]
  unfold CoreParams.rectified
  rw [List.getElem?_map]
  cases a[j]? with
  | none => simp only [Option.map_none, Option.getD_none]; omega
  | some v =>
    simp only [Option.map_some, Option.getD_some, clampTo]
    omega

theorem rounded_close (frac : Nat) (w : ℚ) : |roundedWeight frac w - w| ≤ 1 / 2 / 2 ^ frac := by
  have hp : (0 : ℚ) < 2 ^ frac := by positivity
  have h1 := roundHalfEven_le (|w| * 2 ^ frac)
  have h0 : 0 ≤ roundHalfEven (|w| * 2 ^ frac) := by
    rcases lt_or_ge (roundHalfEven (|w| * 2 ^ frac)) 0 with h | h
    · have h2 : (roundHalfEven (|w| * 2 ^ frac) : ℚ) ≤ -1 := by exact_mod_cast Int.le_sub_one_of_lt h
      have h3 : 0 ≤ |w| * 2 ^ frac := by positivity
      rw [abs_le] at h1
      linarith [h1.2]
    · exact h
  have h2 : ((magnitude frac w : Nat) : ℚ) = roundHalfEven (|w| * 2 ^ frac) := by
    unfold magnitude
    exact_mod_cast Int.toNat_of_nonneg h0
  unfold roundedWeight fixedWeight
  have e1 : (((sgn w * magnitude frac w : Int)) : ℚ) / 2 ^ frac - w
      = (sgn w * (((magnitude frac w : Nat) : ℚ) - |w| * 2 ^ frac)) / 2 ^ frac := by
    push_cast
    rcases sgn_cases w with ⟨e0, e⟩ | ⟨e0, e⟩ | ⟨e0, e⟩
    · rw [e, abs_of_pos e0]; field_simp; push_cast; ring
    · rw [e, e0]; simp
    · rw [e, abs_of_neg e0]; field_simp; push_cast; ring
  rw [e1, h2, abs_div, abs_of_pos hp]
  apply div_le_div_of_nonneg_right _ hp.le
  rw [abs_mul, abs_sub_comm]
  have h3 : |(sgn w : ℚ)| ≤ 1 := by
    rcases sgn_cases w with ⟨-, e⟩ | ⟨-, e⟩ | ⟨-, e⟩ <;> rw [e] <;> norm_num
  have h4 := abs_nonneg (|w| * 2 ^ frac - (roundHalfEven (|w| * 2 ^ frac) : ℚ))
  nlinarith

theorem layer_length (p : CoreParams) (mul : Nat → List Int → Nat → List Int) (first : Nat) (sizes : List Nat)
    (X : List (List Int)) : (p.layer mul first sizes X).length = sizes.length := by
  unfold CoreParams.layer
  simp

/-- The parameters of the example. -/
structure MnistLike (p : CoreParams) : Prop where
  gmin : p.unit.gmin = 0
  gmax : 0 < p.unit.gmax
  res : p.unit.res = 1
  size : p.unit.size = 128
  storage : slicePos p.unit.storage p.unit.storage.length = 8
  width : p.unit.width = 16
  frac : p.unit.frac = 8
  actFrac : p.actFrac = 8
  actWidth : p.actWidth = 16

theorem MnistLike.layer {p : CoreParams} (hp : MnistLike p)
    {W u : Nat → Nat → Nat → ℚ} {e : Nat → MvmErrors} {first : Nat} {sizes : List Nat} {blocks : Nat} {X : List (List Int)}
    {x : Nat → Nat → ℚ} {δ ρ N S : ℚ} (hb : X.length = blocks)
    (hu : ∀ g < 98, exactUnit p.unit (W g) (e g)) (h98 : first + sizes.length * blocks ≤ 98)
    (hsz : ∀ n ∈ sizes, n ≤ 128)
    (hρ : ∀ g < 98, ∀ r < 128, ∀ c < 128, |roundedWeight 8 (W g r c) - u g r c| ≤ ρ) (hρ0 : 0 ≤ ρ) (hδ0 : 0 ≤ δ) (hne : 0 < sizes.length)
    (hN : ∀ j < sizes.length, ∀ r < 128, ∑ i ∈ Finset.range blocks, ∑ c ∈ Finset.range 128,
      |roundedWeight 8 (W (first + j * blocks + i) r c)| ≤ N)
    (hS : ∑ i ∈ Finset.range blocks, ∑ c ∈ Finset.range 128, |x i c| ≤ S)
    (hX : Unsigned 16 X) (h : NearBlocks 8 128 blocks δ X x) :
    NearBlocks 8 128 sizes.length (layerError 8 N δ ρ S blocks)
      (p.layer (fun g x n => p.product (W g) (e g) x n) first sizes X)
      (exactLayer (saturatedTo 16 8) 128 u first blocks sizes x) ∧ 0 ≤ layerError 8 N δ ρ S blocks := by
  have hN0 : 0 ≤ N := le_trans (Finset.sum_nonneg fun i _ => Finset.sum_nonneg fun c _ => abs_nonneg _)
    (hN 0 hne 0 (by norm_num))
  have hS0 : 0 ≤ S := le_trans (Finset.sum_nonneg fun i _ => Finset.sum_nonneg fun c _ => abs_nonneg _) hS
  subst hb
  refine ⟨?_, by unfold layerError; positivity⟩
  have := layer_near (p := p) (W := W) (u := u) (e := e) (first := first) (sizes := sizes) (X := X) (x := x) (δ := δ) (ρ := ρ)
    (N := N) (S := S) hp.gmin hp.gmax hp.res (by rw [hp.size, hp.storage, hp.width]; decide)
    (fun g _ hg => hu g (by omega)) (by rw [hp.size]; exact hsz)
    (by rw [hp.size, hp.frac]; exact fun g _ hg => hρ g (by omega)) hρ0 hδ0 hN0
    (by rw [hp.size, hp.frac]; exact hN) (by rw [hp.size]; exact hS) (by rw [hp.width]; exact hX)
    (by rw [hp.actFrac, hp.size]; exact h)
  rw [hp.actFrac, hp.actWidth, hp.size] at this
  exact this

theorem input_near (image : List ℚ) (hi : image.length = 784) (h : ∀ x ∈ image, 0 ≤ x ∧ x < 256) :
    NearBlocks 8 128 7 (1 / 256) ((List.range 7).map fun i => ((image.map (fixedPoint 8)).drop (128 * i)).take 128)
      (exactInput image) ∧
    Unsigned 16 ((List.range 7).map fun i => ((image.map (fixedPoint 8)).drop (128 * i)).take 128) := by
  have key : ∀ x : ℚ, 0 ≤ x → x < 256 → 0 ≤ fixedPoint 8 x ∧ fixedPoint 8 x < 2 ^ 16 ∧
      |(fixedPoint 8 x : ℚ) / 2 ^ 8 - x| ≤ 1 / 256 := by
    intro x h0 h1
    unfold fixedPoint
    rw [if_pos h0]
    have a := Int.floor_le (x * 2 ^ 8)
    have b := Int.lt_floor_add_one (x * 2 ^ 8)
    refine ⟨Int.floor_nonneg.2 (by positivity), ?_, ?_⟩
    · rw [Int.floor_lt]; push_cast; linarith
    · rw [abs_le]
      have e8 : (2 : ℚ) ^ 8 = 256 := by norm_num
      rw [e8] at a b ⊢
      constructor
      · rw [le_sub_iff_add_le, le_div_iff₀ (by norm_num)]; linarith
      · rw [sub_le_iff_le_add, div_le_iff₀ (by norm_num)]; linarith
  have hget : ∀ i c, c < 128 → ((((image.map (fixedPoint 8)).drop (128 * i)).take 128).getD c 0)
      = fixedPoint 8 (exactInput image i c) := by
    intro i c hc
    unfold exactInput
    rw [List.getD_eq_getElem?_getD, List.getD_eq_getElem?_getD, List.getElem?_take, if_pos hc, List.getElem?_drop, List.getElem?_map]
    cases image[128 * i + c]? with
    | none => simp [fixedPoint]
    | some x => rfl
  have hin : ∀ i c, 0 ≤ exactInput image i c ∧ exactInput image i c < 256 := by
    intro i c
    unfold exactInput
    rw [List.getD_eq_getElem?_getD]
    cases hx : image[128 * i + c]? with
    | none => norm_num
    | some x => exact h x (List.mem_of_getElem? hx)
  constructor
  · intro i hi7 c hc
    have e1 : ((List.range 7).map fun i => ((image.map (fixedPoint 8)).drop (128 * i)).take 128).getD i []
        = ((image.map (fixedPoint 8)).drop (128 * i)).take 128 := by
      rw [List.getD_eq_getElem?_getD, List.getElem?_map, List.getElem?_range hi7]; rfl
    rw [e1, hget i c hc]
    exact (key _ (hin i c).1 (hin i c).2).2.2
  · intro b hb j
    obtain ⟨i, -, rfl⟩ := List.mem_map.1 hb
    by_cases hj : j < 128
    · rw [hget i j hj]
      exact ⟨(key _ (hin i j).1 (hin i j).2).1, (key _ (hin i j).1 (hin i j).2).2.1⟩
    · rw [List.getD_eq_getElem?_getD, List.getElem?_eq_none (by rw [List.length_take]; omega)]
      norm_num

theorem perceptron_near {p : CoreParams} (hp : MnistLike p) {W u : Nat → Nat → Nat → ℚ} {e : Nat → MvmErrors}
    {image : List ℚ} (hi : image.length = 784) (him : ∀ x ∈ image, 0 ≤ x ∧ x < 256)
    (hu : ∀ g < 98, exactUnit p.unit (W g) (e g)) {ρ : ℚ} (hρ0 : 0 ≤ ρ)
    (hρ : ∀ g < 98, ∀ r < 128, ∀ c < 128, |roundedWeight 8 (W g r c) - u g r c| ≤ ρ) {N S : Nat → ℚ}
    (hb : networkBounds (saturatedTo 16 8) W u image N S) (r : Nat) (hr : r < 10) :
    |((p.perceptron (fun g x n => p.product (W g) (e g) x n) (image.map (fixedPoint 8))).getD r 0 : ℚ) / 256
      - exactOutput (saturatedTo 16 8) u image r| ≤ outputError N S ρ := by
  obtain ⟨n0, s0⟩ := input_near image hi him
  have R : ∀ {blocks : Nat} {δ : ℚ} {Y : List (List Int)} {y : Nat → Nat → ℚ}, NearBlocks 8 128 blocks δ Y y →
      NearBlocks 8 128 blocks δ (Y.map p.rectified) (exactRelu (saturatedTo 16 8) y) := by
    intro blocks δ Y y h
    have := relu_near (p := p) (size := 128) (blocks := blocks) (δ := δ) (Y := Y) (y := y) (by rw [hp.actFrac]; exact h)
    rw [hp.actFrac, hp.actWidth] at this
    exact this
  have U : ∀ Y : List (List Int), Unsigned 16 (Y.map p.rectified) := by
    intro Y
    have := relu_unsigned (p := p) Y
    rw [hp.actWidth] at this
    exact this
  obtain ⟨n1, d1⟩ := hp.layer (first := 0) (sizes := List.replicate 8 128) (by simp) hu (by simp) (by simp) hρ hρ0
    (by norm_num) (by simp) (by rw [List.length_replicate]; exact hb.norm₁) hb.inputs₁ s0 n0
  rw [List.length_replicate] at n1
  obtain ⟨n2, d2⟩ := hp.layer (first := 56) (sizes := List.replicate 4 128) (blocks := 8)
    (by rw [List.length_map, layer_length, List.length_replicate]) hu (by simp) (by simp) hρ hρ0
    d1 (by simp) (by rw [List.length_replicate]; exact hb.norm₂) hb.inputs₂ (U _) (R n1)
  rw [List.length_replicate] at n2
  obtain ⟨n3, d3⟩ := hp.layer (first := 88) (sizes := [128, 72]) (blocks := 4)
    (by rw [List.length_map, layer_length, List.length_replicate]) hu (by simp) (by simp) hρ hρ0
    d2 (by simp) hb.norm₃ hb.inputs₃ (U _) (R n2)
  obtain ⟨n4, d4⟩ := hp.layer (first := 96) (sizes := [10]) (blocks := 2)
    (by rw [List.length_map, layer_length]; rfl) hu (by simp) (by simp) hρ hρ0
    d3 (by simp) (by
      intro j hj r hr
      have : j = 0 := by simpa using hj
      subst this
      exact hb.norm₄ r hr) hb.inputs₄ (U _) (R n3)
  have h4 := n4 0 (by simp) r (by omega)
  unfold exactOutput outputError
  have e1 : (p.perceptron (fun g x n => p.product (W g) (e g) x n) (image.map (fixedPoint 8)))
      = (p.layer (fun g x n => p.product (W g) (e g) x n) 96 [10]
          ((p.layer (fun g x n => p.product (W g) (e g) x n) 88 [128, 72]
            ((p.layer (fun g x n => p.product (W g) (e g) x n) 56 (List.replicate 4 128)
              ((p.layer (fun g x n => p.product (W g) (e g) x n) 0 (List.replicate 8 128)
                ((List.range 7).map fun i => ((image.map (fixedPoint 8)).drop (128 * i)).take 128)).map p.rectified)).map
                  p.rectified)).map p.rectified)).getD 0 [] := by
    unfold CoreParams.perceptron
    dsimp only
    generalize hL : p.layer (fun g x n => p.product (W g) (e g) x n) 96 [10] _ = L
    have hlen : L.length = 1 := by rw [← hL, layer_length]; rfl
    obtain ⟨b, rfl⟩ := List.length_eq_one_iff.1 hlen
    simp
  rw [e1]
  have h256 : (256 : ℚ) = 2 ^ 8 := by norm_num
  rw [h256]
  exact h4

end Ramwich
