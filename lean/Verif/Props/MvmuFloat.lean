import Verif.Lemmas.MvmuFloatRun
import Verif.Lemmas.Float64Nearest
import Verif.Props.Mvm

/-! # C77: float64 rounding never changes a product -/
namespace Ramwich

open Spec

/-- C77: the rounding used here is the rounding of float64: the result is a float64 number, and no float64
number is closer. -/
theorem C77_rounding (x : ℚ) : IsFloat64 (f64 x) ∧ ∀ y, IsFloat64 y → |f64 x - x| ≤ |y - x| :=
  f64_nearest x

-- 1/3 is not a float64 number
example : f64 (1 / 3) = 6004799503160661 / 2 ^ 54 := by decide +kernel

theorem floatSafe_of (c c' : Config) (h : c.build = .ok c') (D : Nat)
    (hg : c.mvmuConfig.conductanceMin = 0) (hn : c.mvmuConfig.hasNoise = false)
    (hsmall : ∀ k, k < c.dataConfig.storageConfig.length → isRram c.dataConfig.storageConfig k = true →
      c.mvmuConfig.xbarSize * (2 ^ bitsOf c.dataConfig.storageConfig k - 1) *
        (2 ^ c.mvmuConfig.dacResolution - 1) * (D + 12) < 2 ^ 51) :
    FloatSafe c'.mvmuConfig c'.dataConfig.storageConfig D := by
  obtain ⟨h1, h2, h3, h4, h5, h6, h7, h8, h9⟩ := build_fields c c' h
  refine ⟨by rw [h6, hg], by rw [h9, hn], ?_⟩
  intro k hk
  rw [h1] at hk ⊢
  rw [h2, h4]
  simp only [rramIdx, List.mem_filter, List.mem_range] at hk
  exact hsmall k hk.1 hk.2

/-- C77: if the conductances start at 0, no noise is added and the line currents are small enough, then a unit
that rounds every operation to float64, and adds up the products of a row in any order, gives the same answers
to every history of calls as a unit with exact real numbers. Afterwards the two agree in all registers, in the
digital cells and in all counters; only the contents of the analog cells and the sum of conversion errors are
rounded. -/
theorem C77_float64_exact (c c' : Config) (hs : Simulable c) (h : c.build = .ok c') (D : Nat)
    (hg : c.mvmuConfig.conductanceMin = 0) (hn : c.mvmuConfig.hasNoise = false)
    (hsmall : ∀ k, k < c.dataConfig.storageConfig.length → isRram c.dataConfig.storageConfig k = true →
      c.mvmuConfig.xbarSize * (2 ^ bitsOf c.dataConfig.storageConfig k - 1) *
        (2 ^ c.mvmuConfig.dacResolution - 1) * (D + 12) < 2 ^ 51)
    (ops : List (UnitOp × Plans))
    (hw : ∀ W plans, (UnitOp.load W, plans) ∈ ops → ∀ row ∈ W, ∀ w ∈ row, f64 w = w)
    (hp : ∀ op ∈ ops, ∀ i k r, ∀ plan ∈ [op.2.pos i k r, op.2.neg i k r],
      plan.terms.Perm (List.range c.mvmuConfig.xbarSize) ∧ plan.depth ≤ D) :
    (Mvmu.new c').runF ops = (Mvmu.new c').run (ops.map Prod.fst) ∧
    ∃ P N e, (Mvmu.new c').execF ops =
      let m := (Mvmu.new c').exec (ops.map Prod.fst)
      { m with
        rram := { m.rram with posXbar := P, negXbar := N }
        adcStats := { m.adcStats with conversionErrors := e } } := by
  obtain ⟨h1, h2, -⟩ := build_fields c c' h
  have hr := refines_new c c' h hs.rramFlag hs.sramFlag
  obtain ⟨a1, e, a2⟩ := image_run (Mvmu.new c') {} hr (electrical_of c c' hs h) _ _ (latencies_of c c' hs h) D
    (floatSafe_of c c' h D hg hn hsmall) (Mvmu.new c') (image_new c c' h hs.rramFlag hs.sramFlag) ops (by
      intro op hop
      constructor
      · intro i k r
        have hx : (Mvmu.new c').cfg.xbarSize = c.mvmuConfig.xbarSize := h2
        rw [hx]
        have := hp op hop i k r
        exact ⟨(this _ (by simp)).1, (this _ (by simp)).2, (this _ (by simp)).1, (this _ (by simp)).2⟩
      · obtain ⟨op, plans⟩ := op
        cases op with
        | load W => exact hw W plans hop
        | _ => trivial)
  exact ⟨a1, _, _, e, a2⟩

theorem bitsOf_le_four (st : List BitConfig) (k : Nat) : bitsOf st k ≤ 4 := by
  unfold bitsOf
  cases st.getD k .sram <;> decide

/-- C77: up to 32768 rows any order of summation with at most as many roundings as there are products (and one
more for a start at zero) is good enough. -/
theorem C77_float64_any_order (c c' : Config) (hs : Simulable c) (h : c.build = .ok c')
    (hg : c.mvmuConfig.conductanceMin = 0) (hn : c.mvmuConfig.hasNoise = false)
    (hsize : c.mvmuConfig.xbarSize ≤ 32768)
    (ops : List (UnitOp × Plans))
    (hw : ∀ W plans, (UnitOp.load W, plans) ∈ ops → ∀ row ∈ W, ∀ w ∈ row, f64 w = w)
    (hp : ∀ op ∈ ops, ∀ i k r, ∀ plan ∈ [op.2.pos i k r, op.2.neg i k r],
      plan.terms.Perm (List.range c.mvmuConfig.xbarSize) ∧ plan.depth ≤ c.mvmuConfig.xbarSize + 1) :
    (Mvmu.new c').runF ops = (Mvmu.new c').run (ops.map Prod.fst) ∧
    ((Mvmu.new c').execF ops).outreg = ((Mvmu.new c').exec (ops.map Prod.fst)).outreg := by
  obtain ⟨h1, P, N, e, h2⟩ := C77_float64_exact c c' hs h (c.mvmuConfig.xbarSize + 1) hg hn (by
    intro k hk hr
    have hdac := hs.dacTable ⟨c.dataConfig.storageConfig.getD k .sram, by
      rw [List.getD_eq_getElem?_getD, List.getElem?_eq_getElem hk]; exact List.getElem_mem hk,
      by simpa [isRram] using hr⟩
    have hres : c.mvmuConfig.dacResolution ≤ 16 := by
      simp only [List.mem_cons, List.not_mem_nil, or_false] at hdac
      omega
    have hb : 2 ^ bitsOf c.dataConfig.storageConfig k - 1 ≤ 15 := by
      have := Nat.pow_le_pow_right (show 0 < 2 by norm_num) (bitsOf_le_four c.dataConfig.storageConfig k)
      omega
    have hd : 2 ^ c.mvmuConfig.dacResolution - 1 ≤ 65535 := by
      have := Nat.pow_le_pow_right (show 0 < 2 by norm_num) hres
      omega
    calc c.mvmuConfig.xbarSize * (2 ^ bitsOf c.dataConfig.storageConfig k - 1) *
          (2 ^ c.mvmuConfig.dacResolution - 1) * (c.mvmuConfig.xbarSize + 1 + 12)
        ≤ 32768 * 15 * 65535 * (32768 + 1 + 12) :=
          Nat.mul_le_mul (Nat.mul_le_mul (Nat.mul_le_mul hsize hb) hd) (by omega)
      _ < 2 ^ 51 := by norm_num) ops hw hp
  exact ⟨h1, by rw [h2]⟩

/-- One product after the other, beginning with 0. -/
def sequential (n : Nat) : SumPlan := (List.range n).foldl (fun p j => .add p (.term j)) .zero

/-- Two accumulators and fused multiply-add for 4 products: `(x2*y2 + x0*y0) + (x3*y3 + x1*y1)`. -/
def fused4 : SumPlan := .add (.fma 2 (.fma 0 .zero)) (.fma 3 (.fma 1 .zero))

theorem sequential_ok (n : Nat) : (sequential n).terms = List.range n ∧ (sequential n).depth ≤ n + 1 := by
  unfold sequential
  induction n with
  | zero => exact ⟨rfl, by decide⟩
  | succ n ih =>
    rw [List.range_succ, List.foldl_append]
    refine ⟨by simp [SumPlan.terms, ih.1], ?_⟩
    simp only [List.foldl_cons, List.foldl_nil, SumPlan.depth]
    omega

/-- Plans with one order for all sums. -/
def Plans.const (p : SumPlan) : Plans := { pos := fun _ _ _ => p, neg := fun _ _ _ => p }

def demoFloatOps (p : SumPlan) : List (UnitOp × Plans) :=
  [(.load demoWeights, .const p), (.write 0 demoInput, .const p), (.mvm quiet quiet, .const p),
    (.read 0 4, .const p)]

-- the hypotheses hold for the demonstration unit with two different orders
example : ∀ p ∈ [sequential 4, fused4],
    (∀ W plans, (UnitOp.load W, plans) ∈ demoFloatOps p → ∀ row ∈ W, ∀ w ∈ row, f64 w = w) ∧
    (∀ op ∈ demoFloatOps p, ∀ i k r, ∀ plan ∈ [op.2.pos i k r, op.2.neg i k r],
      plan.terms.Perm (List.range demo.mvmuConfig.xbarSize) ∧ plan.depth ≤ demo.mvmuConfig.xbarSize + 1) := by
  intro p hp
  have hpp : p.terms.Perm (List.range 4) ∧ p.depth ≤ 5 := by
    simp only [List.mem_cons, List.not_mem_nil, or_false] at hp
    rcases hp with rfl | rfl <;> decide
  constructor
  · intro W plans hW
    simp only [demoFloatOps, List.mem_cons, Prod.mk.injEq, UnitOp.load.injEq, reduceCtorEq, false_and,
      List.not_mem_nil, or_false] at hW
    obtain ⟨rfl, -⟩ := hW
    decide +kernel
  · intro op hop i k r plan hplan
    have : plan = p := by
      simp only [demoFloatOps, List.mem_cons, List.not_mem_nil, or_false] at hop
      rcases hop with rfl | rfl | rfl | rfl <;> simpa [Plans.const] using hplan
    rw [this]; exact hpp

-- what the model computes, by evaluation
example : (((Mvmu.new demoBuilt).execF (demoFloatOps (sequential 4))).outreg.registers.map BitVec.toInt)
    = [-15, 126, 0, -232] := by decide +kernel

/-- C77: the product of `C04_mvm_is_product`, in float64. -/
theorem C77_float64_product (c c' : Config) (hs : Simulable c) (h : c.build = .ok c')
    (W : List (List ℚ)) (x : List Int)
    (hW : W.length = c.mvmuConfig.xbarSize ∧ ∀ row ∈ W, row.length = c.mvmuConfig.xbarSize)
    (hf : ∀ row ∈ W, ∀ w ∈ row, f64 w = w)
    (hx : x.length = c.mvmuConfig.xbarSize)
    (hg : c.mvmuConfig.conductanceMin = 0) (hn : c.mvmuConfig.hasNoise = false)
    (h1 : c.mvmuConfig.dacResolution = 1) (hsize : c.mvmuConfig.xbarSize ≤ 32768)
    (hadc : ∀ k, k < c.dataConfig.storageConfig.length → isRram c.dataConfig.storageConfig k = true →
      (c.mvmuConfig.xbarSize : Int) * (2 ^ bitsOf c.dataConfig.storageConfig k - 1)
        ≤ 2 ^ c.mvmuConfig.adcResolution - 1)
    (hfit : ∀ row ∈ W, ∀ w ∈ row,
      magnitude c.dataConfig.weightFracBits w < 2 ^ c.dataConfig.weightWidth)
    (haw : c.dataConfig.activationWidth ≤ 31)
    (hin : ∀ v ∈ x, 0 ≤ v ∧ v < 2 ^ c.dataConfig.activationWidth)
    (ep en : Nat → Nat → Nat → Nat → ℚ) (plans : Plans)
    (hp : ∀ i k r, ∀ plan ∈ [plans.pos i k r, plans.neg i k r],
      plan.terms.Perm (List.range c.mvmuConfig.xbarSize) ∧ plan.depth ≤ c.mvmuConfig.xbarSize + 1) :
    ((Mvmu.new c').execF [(.load W, plans), (.write 0 x, plans), (.mvm ep en, plans)]).outreg.registers
      = (List.range c.mvmuConfig.xbarSize).map fun r => BitVec.ofInt 32
          (matVec c.dataConfig.weightFracBits c.mvmuConfig.xbarSize
            (fun r j => (W.getD r []).getD j 0) (fun j => x.getD j 0) r) := by
  have := (C77_float64_any_order c c' hs h hg hn hsize
    [(.load W, plans), (.write 0 x, plans), (.mvm ep en, plans)] (by
      intro W' plans' hmem
      simp only [List.mem_cons, Prod.mk.injEq, UnitOp.load.injEq, reduceCtorEq, false_and,
        List.not_mem_nil, or_false] at hmem
      rw [hmem.1]
      exact hf) (by
      intro op hop
      have : op.2 = plans := by
        simp only [List.mem_cons, List.not_mem_nil, or_false] at hop
        rcases hop with rfl | rfl | rfl <;> rfl
      rw [this]
      exact hp)).2
  rw [this]
  exact C04_mvm_is_product c c' hs h W x hW hx hg hn h1 hadc hfit haw hin [] ep en

/-- The demonstration unit with conductances from 1 to 3. -/
def demoOffset : Config := { demo with mvmuConfig := { demo.mvmuConfig with conductanceMin := 1 } }

def demoOffsetBuilt : Config := match demoOffset.build with | .ok c => c | .error _ => demoOffset

/-- C77: the condition on the smallest conductance is needed: with conductances from 1 to 3 readings can be half
integers, and float64 rounds them differently than exact arithmetic. -/
theorem C77_offset_rounds_differently :
    (((Mvmu.new demoOffsetBuilt).exec [.load [[1 / 4, 0, 0, 0], [0, 0, 0, 0], [0, 0, 0, 0], [0, 0, 0, 0]],
      .write 0 [1, 0, 0, 0], .mvm quiet quiet]).outreg.registers.map BitVec.toInt) = [20, 0, 0, 0] ∧
    (((Mvmu.new demoOffsetBuilt).execF [
      (.load [[1 / 4, 0, 0, 0], [0, 0, 0, 0], [0, 0, 0, 0], [0, 0, 0, 0]], .const (sequential 4)),
      (.write 0 [1, 0, 0, 0], .const (sequential 4)),
      (.mvm quiet quiet, .const (sequential 4))]).outreg.registers.map BitVec.toInt) = [19, 0, 0, 0] := by
  decide +kernel

end Ramwich
