import Verif.Model.Vfu
import Verif.Spec.Vfu
import Verif.Lemmas.UnitRefine

/-! # Lemmas about the vector functional unit -/
namespace Ramwich

open Spec

theorem testBit_toInt32 (x : I32) (k : Nat) :
    Int.testBit x.toInt k = if k < 32 then x.getLsbD k else x.msb := by
  rw [BitVec.toInt_eq_msb_cond]
  cases h : x.msb with
  | false =>
    simp only [Bool.false_eq_true, if_false]
    change x.toNat.testBit k = _
    by_cases hk : k < 32
    · rw [if_pos hk]; rfl
    · rw [if_neg hk]
      apply Nat.testBit_lt_two_pow
      exact lt_of_lt_of_le x.isLt (Nat.pow_le_pow_right (by norm_num) (by omega))
  | true =>
    simp only [if_true]
    have hn : ((x.toNat : Int) - ((2 ^ 32 : Nat) : Int)) = Int.negSucc (~~~x).toNat := by
      rw [BitVec.toNat_not, Int.negSucc_eq]
      have := x.isLt
      omega
    rw [hn]
    change (!(~~~x).toNat.testBit k) = _
    have : (~~~x).toNat.testBit k = (~~~x).getLsbD k := rfl
    rw [this, BitVec.getLsbD_not]
    by_cases hk : k < 32
    · simp [hk]
    · simp [hk]

theorem int_ext_testBit (a b : Int) (h : ∀ k, Int.testBit a k = Int.testBit b k) : a = b := by
  cases a with
  | ofNat m =>
    cases b with
    | ofNat n =>
      congr 1
      exact Nat.eq_of_testBit_eq h
    | negSucc n =>
      exfalso
      have hk := h (m + n)
      change m.testBit (m + n) = !n.testBit (m + n) at hk
      rw [Nat.testBit_lt_two_pow (lt_of_le_of_lt (Nat.le_add_right m n) Nat.lt_two_pow_self),
        Nat.testBit_lt_two_pow (lt_of_le_of_lt (Nat.le_add_left n m) Nat.lt_two_pow_self)] at hk
      cases hk
  | negSucc m =>
    cases b with
    | ofNat n =>
      exfalso
      have hk := h (m + n)
      change (!m.testBit (m + n)) = n.testBit (m + n) at hk
      rw [Nat.testBit_lt_two_pow (lt_of_le_of_lt (Nat.le_add_right m n) Nat.lt_two_pow_self),
        Nat.testBit_lt_two_pow (lt_of_le_of_lt (Nat.le_add_left n m) Nat.lt_two_pow_self)] at hk
      cases hk
    | negSucc n =>
      congr 1
      apply Nat.eq_of_testBit_eq
      intro k
      have hk := h k
      change (!m.testBit k) = !n.testBit k at hk
      cases h1 : m.testBit k <;> cases h2 : n.testBit k <;> simp_all

theorem toInt_and32 (x y : I32) : (x &&& y).toInt = Int.land x.toInt y.toInt := by
  apply int_ext_testBit
  intro k
  rw [Int.testBit_land, testBit_toInt32, testBit_toInt32, testBit_toInt32]
  by_cases hk : k < 32
  · simp [hk]
  · simp [hk]

theorem toInt_or32 (x y : I32) : (x ||| y).toInt = Int.lor x.toInt y.toInt := by
  apply int_ext_testBit
  intro k
  rw [Int.testBit_lor, testBit_toInt32, testBit_toInt32, testBit_toInt32]
  by_cases hk : k < 32
  · simp [hk]
  · simp [hk]

theorem toInt_range32 (x : I32) : -2 ^ 31 ≤ x.toInt ∧ x.toInt < 2 ^ 31 := by
  have h1 := BitVec.le_toInt x
  have h2 := BitVec.toInt_lt (x := x)
  norm_num at h1 h2 ⊢
  omega

theorem wrap32_fits (v : Int) (h : fits32 v) : wrap32 v = v := by
  unfold wrap32 fits32 at *
  rw [Int.bmod_eq_of_le] <;> norm_num at h ⊢ <;> omega

theorem toInt_not32 (x : I32) : (~~~x).toInt = -x.toInt - 1 := by
  apply int_ext_testBit
  intro k
  have : -x.toInt - 1 = Int.lnot x.toInt := by
    cases h : x.toInt with
    | ofNat n => simp [Int.lnot, Int.negSucc_eq]; omega
    | negSucc n => simp [Int.lnot, Int.negSucc_eq]
  rw [this, Int.testBit_lnot, testBit_toInt32, testBit_toInt32]
  by_cases hk : k < 32
  · simp [hk]
  · simp [hk]

theorem toInt_shl32 (x : I32) (f : Nat) : (x <<< f).toInt = wrap32 (x.toInt * 2 ^ f) := by
  rw [BitVec.toInt_shiftLeft]
  unfold wrap32
  have h : ((x.toNat <<< f : Nat) : Int) = x.toNat * 2 ^ f := by
    rw [Nat.shiftLeft_eq]; push_cast; rfl
  rw [h]
  rw [BitVec.toInt_eq_toNat_bmod]
  simp [Int.bmod_mul_bmod]

theorem toInt_sshr32 (x : I32) (f : Nat) : (x.sshiftRight f).toInt = Int.fdiv x.toInt (2 ^ f) := by
  rw [BitVec.toInt_sshiftRight, Int.shiftRight_eq_div_pow, Int.fdiv_eq_ediv_of_nonneg _ (by positivity)]
  norm_num

theorem vfuUnary_value (fl : FloatActs) (frac : Nat) (op : VfuOp) (h : op.unary = true) (x y : I32) :
    (vfuUnary fl frac op x).toInt = vfuValue (fun v => (fl.sig frac (BitVec.ofInt 32 v)).toInt)
      (fun v => (fl.tanh frac (BitVec.ofInt 32 v)).toInt) frac op x.toInt y.toInt := by
  cases op <;> simp only [VfuOp.unary, Bool.false_eq_true] at h
  · exact toInt_not32 x
  · simp only [vfuUnary, vfuValue, BitVec.ofInt_toInt]
  · simp only [vfuUnary, vfuValue, BitVec.ofInt_toInt]
  · simp only [vfuUnary, vfuValue]
    rw [BitVec.sle_eq_decide]
    have h0 : (0 : I32).toInt = 0 := rfl
    rw [h0]
    simp only [decide_eq_true_eq]
    by_cases hx : 0 ≤ x.toInt
    · rw [if_pos hx]; omega
    · rw [if_neg hx, h0]; omega

theorem vfuBinary_value (s t : Int → Int) (frac : Nat) (op : VfuOp) (h : op.unary = false) (x y : I32) :
    (vfuBinary frac op x y).toInt = vfuValue s t frac op x.toInt y.toInt := by
  cases op <;> simp only [VfuOp.unary, Bool.true_eq_false] at h <;> simp only [vfuBinary, vfuValue]
  · exact toInt_and32 x y
  · exact toInt_or32 x y
  · rw [BitVec.toInt_add]; rfl
  · rw [BitVec.toInt_sub]; rfl
  · rw [toInt_sshr32, BitVec.toInt_mul]; rfl
  · rw [toInt_ofInt32, toInt_shl32]
  · rw [BitVec.sle_eq_decide]
    by_cases hx : x.toInt ≤ y.toInt
    · simp [hx]
    · simp [hx]; omega
  · rw [BitVec.sle_eq_decide]
    by_cases hx : x.toInt ≤ y.toInt
    · simp [hx]
    · simp [hx]; omega

theorem vfuClip_toInt (width : Nat) (x : I32) : (vfuClip width x).toInt = clampTo width x.toInt := by
  have hx := toInt_range32 x
  have hp : (1 : Int) ≤ 2 ^ width := one_le_pow₀ (by norm_num)
  unfold vfuClip
  rw [toInt_ofInt32]
  have e : npClip x.toInt (-1 * 2 ^ width) (2 ^ width - 1) = clampTo width x.toInt := by
    unfold npClip clampTo; omega
  rw [e]
  apply wrap32_fits
  unfold fits32 clampTo
  omega

theorem unary_eq (op : VfuOp) : vfuIsUnary op = op.unary := by cases op <;> rfl

theorem sat_width (width : Nat) (v : Int) :
    -2 ^ width ≤ clampTo width v ∧ clampTo width v ≤ 2 ^ width - 1 := by
  have hp : (1 : Int) ≤ 2 ^ width := one_le_pow₀ (by norm_num)
  unfold clampTo; omega

theorem zero_mem_map (b : List I32) : (b.any fun y => y == 0) = true ↔ (0 : Int) ∈ b.map BitVec.toInt := by
  simp only [List.any_eq_true, List.mem_map, beq_iff_eq]
  constructor
  · rintro ⟨x, hx, rfl⟩; exact ⟨_, hx, by simp⟩
  · rintro ⟨x, hx, h0⟩
    refine ⟨x, hx, ?_⟩
    exact BitVec.eq_of_toInt_eq (by simpa using h0)

theorem broadcast2_eq (f : I32 → I32 → I32) (a b : List I32) (h : a.length = b.length) :
    broadcast2 f a b = .ok (List.zipWith f a b) := if_pos h

/-- `calculate` on array operands of equal length. -/
theorem calculate_arrays (s : VfuStats) (fl : FloatActs) (d : DataConfig) (op : VfuOp) (a : List I32)
    (b : Option (List I32)) (hb : ∀ b', b = some b' → b'.length = a.length) :
    let sig := fun v => (fl.sig d.activationFracBits (BitVec.ofInt 32 v)).toInt
    let tanh := fun v => (fl.tanh d.activationFracBits (BitVec.ofInt 32 v)).toInt
    let spec := vfuVector sig tanh d.activationFracBits d.activationWidth op (a.map BitVec.toInt)
      (b.map fun l => l.map BitVec.toInt)
    let r := s.calculate fl d op (.arr a) (b.map .arr)
    (r.1.map (fun l => l.map BitVec.toInt) = spec) ∧
    r.2 = (if spec.isOk then s.update op a.length else s) := by
  intro sig tanh spec r
  have hsec : vfuSecond a.length (b.map Operand.arr) = .ok b := by
    cases b <;> rfl
  have hr : r = match vfuHandle fl d.activationFracBits op a b with
      | .error e => (.error e, s)
      | .ok v => (.ok (v.map (vfuClip d.activationWidth)), s.update op a.length) := by
    simp only [r, VfuStats.calculate, Operand.toArray, hsec]
    cases vfuHandle fl d.activationFracBits op a b <;> rfl
  by_cases hu : op.unary = true
  · have hh : vfuHandle fl d.activationFracBits op a b
        = .ok (a.map (vfuUnary fl d.activationFracBits op)) := if_pos hu
    rw [hh] at hr
    have hspec : spec = .ok ((a.map BitVec.toInt).map fun x =>
        clampTo d.activationWidth (vfuValue sig tanh d.activationFracBits op x 0)) := by
      simp only [spec, vfuVector, unary_eq, hu, if_true]
    rw [hr, hspec]
    refine ⟨?_, rfl⟩
    simp only [Except.map, List.map_map]
    congr 1
    apply List.map_congr_left
    intro x _
    simp only [Function.comp, vfuClip_toInt]
    rw [vfuUnary_value fl _ op hu x 0]
    simp [sig, tanh]
  · have hu' : op.unary = false := by simpa using hu
    cases b with
    | none =>
      have hh : vfuHandle fl d.activationFracBits op a none = .error .valueError := if_neg hu
      rw [hh] at hr
      have hspec : spec = .error .valueError := by
        simp only [spec, vfuVector, unary_eq, hu', Bool.false_eq_true, if_false, Option.map_none]
      rw [hr, hspec]
      exact ⟨rfl, rfl⟩
    | some b =>
      have hlen := hb b rfl
      have hh : vfuHandle fl d.activationFracBits op a (some b) =
          if op = .div ∧ b.any (fun y => y == 0) then .error .zeroDivisionError
          else broadcast2 (vfuBinary d.activationFracBits op) a b := if_neg hu
      have hspec0 : spec = if op = .div ∧ 0 ∈ b.map BitVec.toInt then .error .zeroDivisionError
          else .ok (List.zipWith (fun x y => clampTo d.activationWidth
            (vfuValue sig tanh d.activationFracBits op x y)) (a.map BitVec.toInt)
              (b.map BitVec.toInt)) := by
        simp only [spec, vfuVector, unary_eq, hu', Bool.false_eq_true, if_false, Option.map_some]
      by_cases hz : op = .div ∧ (b.any fun y => y == 0) = true
      · rw [if_pos hz] at hh
        rw [if_pos ⟨hz.1, (zero_mem_map b).1 hz.2⟩] at hspec0
        rw [hh] at hr
        rw [hr, hspec0]
        exact ⟨rfl, rfl⟩
      · rw [if_neg hz] at hh
        rw [if_neg (fun h => hz ⟨h.1, (zero_mem_map b).2 h.2⟩)] at hspec0
        rw [broadcast2_eq _ _ _ hlen.symm] at hh
        rw [hh] at hr
        rw [hr, hspec0]
        refine ⟨?_, rfl⟩
        simp only [Except.map]
        congr 1
        rw [List.map_map, List.zipWith_map, List.map_zipWith]
        congr 1
        funext x y
        simp only [Function.comp, vfuClip_toInt, vfuBinary_value sig tanh _ op hu']

end Ramwich
