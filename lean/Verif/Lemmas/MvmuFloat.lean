import Verif.Lemmas.Float64
import Verif.Lemmas.UnitRefine

/-! # The unit in float64 computes what the exact unit computes -/
namespace Ramwich

open Spec

/-! ## Sums -/

theorem plan_near (p : SumPlan) (row v : List ℚ) (x y : Nat → ℚ) (a b : Nat)
    (h : ∀ j ∈ p.terms, Near a (row.getD j 0) (x j) ∧ Near b (v.getD j 0) (y j)) :
    Near (a + b + p.depth) (p.eval row v) ((p.terms.map fun j => x j * y j).sum) := by
  induction p with
  | zero => simpa [SumPlan.eval, SumPlan.terms, SumPlan.depth] using near_zero (a + b)
  | term j =>
    have hj := h j (by simp [SumPlan.terms])
    simpa [SumPlan.eval, SumPlan.terms, SumPlan.depth] using near_f64 (near_mul hj.1 hj.2)
  | add p q ihp ihq =>
    have hp := ihp fun j hj => h j (by simp [SumPlan.terms, hj])
    have hq := ihq fun j hj => h j (by simp [SumPlan.terms, hj])
    simp only [SumPlan.eval, SumPlan.terms, SumPlan.depth, List.map_append, List.sum_append]
    have := near_f64 (near_add (near_mono hp (m := a + b + max p.depth q.depth) (by omega))
      (near_mono hq (m := a + b + max p.depth q.depth) (by omega)))
    exact this
  | fma j p ih =>
    have hp := ih fun j hj => h j (by simp [SumPlan.terms, hj])
    have hj := h j (by simp [SumPlan.terms])
    simp only [SumPlan.eval, SumPlan.terms, SumPlan.depth, List.map_cons, List.sum_cons]
    exact near_f64 (near_add (near_mono (near_mul hj.1 hj.2) (Nat.le_add_right _ _)) hp)

/-- A plan that adds each of `n` products once. -/
def SumPlan.Covers (p : SumPlan) (n : Nat) : Prop := p.terms.Perm (List.range n)

theorem plan_near_range (p : SumPlan) (n : Nat) (hc : p.Covers n) (f g x y : Nat → ℚ) (a b : Nat)
    (h : ∀ j, j < n → Near a (f j) (x j) ∧ Near b (g j) (y j)) :
    Near (a + b + p.depth) (p.eval ((List.range n).map f) ((List.range n).map g))
      (∑ j ∈ Finset.range n, x j * y j) := by
  have := plan_near p ((List.range n).map f) ((List.range n).map g) x y a b (by
    intro j hj
    have hj' : j < n := List.mem_range.1 (hc.mem_iff.1 hj)
    rw [getD_range_map _ _ _ _ hj', getD_range_map _ _ _ _ hj']
    exact h j hj')
  rwa [(hc.map _).sum_eq, sum_range_map] at this

/-! ## Cells, voltages and steps -/

/-- Conductance that represents `v` in a cell of `b` bits. -/
def conductanceF (c : MVMUConfig) (b v : Nat) : ℚ :=
  f64 (c.conductanceMin + f64 (v * f64 (f64 (c.conductanceMax - c.conductanceMin) / (2 ^ b - 1))))

/-- Signed conductance of cell `(r, j)` of analog crossbar `k`. -/
def rramCellF (m : Mvmu) (W : Nat → Nat → ℚ) (k r j : Nat) : ℚ :=
  f64 ((sgn (W r j) : ℚ) * conductanceF m.cfg (bitsOf m.data.storageConfig k)
    (level m.data.storageConfig m.data.weightFracBits (W r j) k))

theorem intToConductanceF_eq (c : MVMUConfig) (v b : Nat) (hb : 0 < b) (hv : v < 2 ^ b) :
    intToConductanceF v b c.conductanceMin c.conductanceMax = .ok (conductanceF c b v) := by
  unfold intToConductanceF conductanceF
  rw [if_neg (by simpa using hv), if_neg (by omega)]

theorem near_const (x : ℚ) (h : 0 ≤ x) : Near 0 x x := near_refl x h

theorem conductance_near (c : MVMUConfig) (he : Electrical c) (b v : Nat) (hb : 0 < b) :
    Near 4 (conductanceF c b v) (conductance c b v) := by
  unfold conductanceF conductance
  have h1 := maxValue_pos b (by omega)
  have hg : 0 ≤ c.conductanceMax - c.conductanceMin := by have := he.gmax; linarith
  have hstep : Near 2 (f64 (f64 (c.conductanceMax - c.conductanceMin) / (2 ^ b - 1)))
      ((c.conductanceMax - c.conductanceMin) / (2 ^ b - 1)) :=
    near_f64 (near_div h1 (near_f64 (near_refl _ hg)) (near_refl _ h1.le))
  have hm := near_f64 (near_mul (near_refl (v : ℚ) (by positivity)) hstep)
  exact near_f64 (near_add (near_mono (near_refl _ he.gmin) (by omega)) hm)

theorem sgn_three (w : ℚ) : sgn w = 1 ∨ sgn w = 0 ∨ sgn w = -1 := by
  unfold sgn; split_ifs <;> simp

theorem signed_near (s : Int) (hs : s = 1 ∨ s = 0 ∨ s = -1) (n : Nat) (a x : ℚ) (h : Near n a x) :
    Near (n + 1) (max (f64 ((s : ℚ) * a)) 0) (max ((s : ℚ) * x) 0) ∧
    Near (n + 1) (max (-f64 ((s : ℚ) * a)) 0) (max (-((s : ℚ) * x)) 0) := by
  have h' := near_f64 h
  have h0 := h.1; have h1 := h.2.1; have h2 := h'.1
  rcases hs with rfl | rfl | rfl
  · have e1 : max (-f64 a) 0 = 0 := max_eq_right (by linarith)
    have e2 : max (-x) 0 = 0 := max_eq_right (by linarith)
    simp only [Int.cast_one, one_mul, e1, e2, max_eq_left h2, max_eq_left h1]
    exact ⟨h', near_zero _⟩
  · simp only [Int.cast_zero, zero_mul, f64_zero, neg_zero, max_self]
    exact ⟨near_zero _, near_zero _⟩
  · have e1 : max (-f64 a) 0 = 0 := max_eq_right (by linarith)
    have e2 : max (-x) 0 = 0 := max_eq_right (by linarith)
    simp only [Int.cast_neg, Int.cast_one, neg_mul, one_mul, f64_neg, neg_neg, e1, e2, max_eq_left h2,
      max_eq_left h1]
    exact ⟨near_zero _, h'⟩

theorem cell_near (m : Mvmu) (he : Electrical m.cfg) (W : Nat → Nat → ℚ) (k r j : Nat) :
    Near 5 (max (rramCellF m W k r j) 0) (max (rramCell m W k r j) 0) ∧
    Near 5 (max (-rramCellF m W k r j) 0) (max (-rramCell m W k r j) 0) :=
  signed_near _ (sgn_three _) 4 _ _ (conductance_near m.cfg he _ _ (bitsOf_pos _ _))

/-- Voltage produced by the DAC for a slice. -/
def voltOfF (c : MVMUConfig) (x : I32) : ℚ :=
  f64 (npClip (f64 (((sliceOf c x).toInt : ℚ) / (((1 <<< c.dacResolution) - 1 : Nat) : ℚ))) 0 1 * c.vdd)

theorem slice_range (c : MVMUConfig) (hres : c.dacResolution < 32) (x : I32) :
    0 ≤ (sliceOf c x).toInt ∧ (sliceOf c x).toInt < 2 ^ c.dacResolution := by
  have h := sliceOf_toInt c hres x 0
  simp only [Nat.mul_zero, BitVec.sshiftRight_zero] at h
  rw [h]
  exact ⟨inputSlice_nonneg _ _ _, inputSlice_lt _ _ _⟩

theorem voltOf_eq' (c : MVMUConfig) (h0 : c.dacResolution ≠ 0) (hres : c.dacResolution < 32) (x : I32) :
    voltOf c x = ((sliceOf c x).toInt : ℚ) * (c.vdd / (2 ^ c.dacResolution - 1)) := by
  have h := voltOf_eq c h0 hres x 0
  have h2 := sliceOf_toInt c hres x 0
  simp only [Nat.mul_zero, BitVec.sshiftRight_zero] at h h2
  rw [h, h2]

theorem dacMax_cast (n : Nat) : (((1 <<< n) - 1 : Nat) : ℚ) = 2 ^ n - 1 := by
  rw [Nat.one_shiftLeft, Nat.cast_sub (Nat.one_le_two_pow)]; norm_num

theorem volt_near (c : MVMUConfig) (he : Electrical c) (x : I32) : Near 2 (voltOfF c x) (voltOf c x) := by
  obtain ⟨h0, h1⟩ := slice_range c he.res' x
  have hp := maxValue_pos c.dacResolution he.res
  unfold voltOfF voltOf
  rw [dacMax_cast]
  have hs0 : (0 : ℚ) ≤ (sliceOf c x).toInt := by exact_mod_cast h0
  have hs1 : ((sliceOf c x).toInt : ℚ) ≤ 2 ^ c.dacResolution - 1 := by
    have h2 : (sliceOf c x).toInt ≤ 2 ^ c.dacResolution - 1 := by omega
    exact_mod_cast h2
  have hq : 0 ≤ ((sliceOf c x).toInt : ℚ) / (2 ^ c.dacResolution - 1) := div_nonneg hs0 hp.le
  have hq1 : ((sliceOf c x).toInt : ℚ) / (2 ^ c.dacResolution - 1) ≤ 1 := by rw [div_le_one hp]; exact hs1
  have hc : npClip (((sliceOf c x).toInt : ℚ) / (2 ^ c.dacResolution - 1)) 0 1
      = ((sliceOf c x).toInt : ℚ) / (2 ^ c.dacResolution - 1) := by
    unfold npClip; rw [max_eq_left hq, min_eq_right hq1]
  rw [hc]
  exact near_f64 (near_mul (near_clip (near_f64 (near_refl _ hq)) hq1) (near_refl _ he.vdd.le))

theorem step_near (c : MVMUConfig) (he : Electrical c) (b : Nat) (hb : 0 < b) :
    0 < c.currentStep b ∧ Near 4 (c.currentStepF b) (c.currentStep b) := by
  have h1 := maxValue_pos b (by omega)
  have h2 := maxValue_pos c.dacResolution he.res
  have hg : 0 < c.conductanceMax - c.conductanceMin := by have := he.gmax; linarith
  unfold MVMUConfig.currentStep MVMUConfig.currentStepF
  refine ⟨mul_pos (div_pos he.vdd h2) (div_pos hg h1), ?_⟩
  exact near_f64 (near_mul (near_f64 (near_div h2 (near_refl _ he.vdd.le) (near_refl _ h2.le)))
    (near_f64 (near_div h1 (near_f64 (near_refl _ hg.le)) (near_refl _ h1.le))))

/-! ## One converter -/

/-- Current on a line of the analog crossbars. -/
def lineCurrentF (c : MVMUConfig) (plan : Nat → Nat → SumPlan) (st : List BitConfig) (P : Nat → Nat → Nat → ℚ)
    (X : Nat → I32) (k r : Nat) : ℚ :=
  (plan (rramRank st k) r).eval ((List.range c.xbarSize).map (P k r))
    ((List.range c.xbarSize).map fun j => voltOfF c (X j))

/-- The exact reading of a line, in steps, if every cell holds a multiple `C` of the unit. -/
theorem line_steps (c : MVMUConfig) (he : Electrical c) (hg : c.conductanceMin = 0) (hn : c.hasNoise = false)
    (st : List BitConfig) (P : Nat → Nat → Nat → ℚ) (C : Nat → Nat) (noise : Nat → Nat → Nat → ℚ) (X : Nat → I32)
    (k r : Nat) (hb : 0 < bitsOf st k) (hP : ∀ j, P k r j = conductance c (bitsOf st k) (C j)) :
    lineCurrent c st P noise X k r / c.currentStep (bitsOf st k)
      = ((∑ j ∈ Finset.range c.xbarSize, C j * (sliceOf c (X j)).toInt.toNat : Nat) : ℚ) := by
  have h1 := maxValue_pos (bitsOf st k) (by omega)
  have h2 := maxValue_pos c.dacResolution he.res
  have hgm : 0 < c.conductanceMax := by have := he.gmax; rw [hg] at this; exact this
  have hv := he.vdd
  unfold lineCurrent
  rw [Finset.sum_div]
  push_cast
  apply Finset.sum_congr rfl
  intro j _
  obtain ⟨s0, -⟩ := slice_range c he.res' (X j)
  have hs : (((sliceOf c (X j)).toInt.toNat : Nat) : ℚ) = ((sliceOf c (X j)).toInt : ℚ) := by
    have : (((sliceOf c (X j)).toInt.toNat : Nat) : Int) = (sliceOf c (X j)).toInt := Int.toNat_of_nonneg s0
    exact_mod_cast congrArg (fun z : Int => (z : ℚ)) this
  rw [hs, hP, voltOf_eq' c he.res he.res', hn]
  unfold conductance MVMUConfig.currentStep
  rw [hg]
  simp only [Bool.false_eq_true, if_false, add_zero, zero_add, sub_zero]
  field_simp

theorem line_round (c : MVMUConfig) (he : Electrical c) (hg : c.conductanceMin = 0) (hn : c.hasNoise = false)
    (plan : Nat → Nat → SumPlan) (st : List BitConfig) (P PF : Nat → Nat → Nat → ℚ) (C : Nat → Nat)
    (noise : Nat → Nat → Nat → ℚ) (X : Nat → I32) (k r D : Nat)
    (hb : 0 < bitsOf st k) (hP : ∀ j, P k r j = conductance c (bitsOf st k) (C j))
    (hC : ∀ j, C j < 2 ^ bitsOf st k) (hF : ∀ j, Near 5 (PF k r j) (P k r j))
    (hc : (plan (rramRank st k) r).Covers c.xbarSize) (hD : (plan (rramRank st k) r).depth ≤ D)
    (hsmall : c.xbarSize * (2 ^ bitsOf st k - 1) * (2 ^ c.dacResolution - 1) * (D + 12) < 2 ^ 51) :
    roundHalfEven (f64 (lineCurrentF c plan st PF X k r / c.currentStepF (bitsOf st k)))
      = roundHalfEven (lineCurrent c st P noise X k r / c.currentStep (bitsOf st k)) := by
  set n := ∑ j ∈ Finset.range c.xbarSize, C j * (sliceOf c (X j)).toInt.toNat with hndef
  have hexact := line_steps c he hg hn st P C noise X k r hb hP
  rw [← hndef] at hexact
  obtain ⟨hsp, hsn⟩ := step_near c he (bitsOf st k) hb
  have hline : Near (7 + D) (lineCurrentF c plan st PF X k r) (lineCurrent c st P noise X k r) := by
    unfold lineCurrentF lineCurrent
    have := plan_near_range _ _ hc (PF k r) (fun j => voltOfF c (X j)) (P k r) (fun j => voltOf c (X j)) 5 2
      (fun j _ => ⟨hF j, volt_near c he _⟩)
    simp only [hn, Bool.false_eq_true, if_false, add_zero]
    exact near_mono this (by omega)
  have hq := near_f64 (near_div hsp hline hsn)
  rw [hexact] at hq ⊢
  have hle : n ≤ c.xbarSize * (2 ^ bitsOf st k - 1) * (2 ^ c.dacResolution - 1) := by
    have hterm : ∀ j ∈ Finset.range c.xbarSize, C j * (sliceOf c (X j)).toInt.toNat
        ≤ (2 ^ bitsOf st k - 1) * (2 ^ c.dacResolution - 1) := by
      intro j _
      apply Nat.mul_le_mul
      · have := hC j; omega
      · obtain ⟨s0, s1⟩ := slice_range c he.res' (X j)
        have : (sliceOf c (X j)).toInt.toNat < 2 ^ c.dacResolution := by
          rw [Int.toNat_lt s0]; exact_mod_cast s1
        omega
    have := Finset.sum_le_card_nsmul _ _ _ hterm
    rw [Finset.card_range, smul_eq_mul] at this
    calc n ≤ _ := this
      _ = _ := by ring
  have hr := near_round hq (lt_of_le_of_lt (Nat.mul_le_mul_right _ hle) (by
    have e : 7 + D + 4 + 1 = D + 12 := by ring
    rw [e]; exact hsmall))
  rw [hr]
  have := roundHalfEven_intCast (n : Int)
  rw [Int.cast_natCast] at this
  exact this.symm

end Ramwich
