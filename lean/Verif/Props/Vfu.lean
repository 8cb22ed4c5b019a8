import Verif.Lemmas.Vfu
import Verif.Model.Core
import Verif.Props.Demo

/-! # Properties of the vector functional unit and of the execution latencies (C18-C23) -/
namespace Ramwich

open Spec

/-- A data format for the examples: activations Q8.8. -/
def q88 : DataConfig :=
  { storageConfig := [.mlc, .mlc], weightIntBits := 0, weightFracBits := 4
    activationIntBits := 8, activationFracBits := 8 }

/-- Some float functions for the examples. -/
def someActs : FloatActs := { sig := fun f _ => BitVec.ofNat 32 (2 ^ f / 2), tanh := fun _ x => x }

/-- C18: whenever `calculate` returns for arrays of equal length, the result has that length and
every element lies in `[-2^width, 2^width - 1]`. -/
theorem C18_vfu_range (s : VfuStats) (fl : FloatActs) (d : DataConfig) (op : VfuOp) (a : List I32)
    (b : Option (List I32)) (hb : ∀ b', b = some b' → b'.length = a.length) (r : List I32)
    (h : (s.calculate fl d op (.arr a) (b.map .arr)).1 = .ok r) :
    r.length = a.length ∧
    ∀ v ∈ r, -2 ^ d.activationWidth ≤ v.toInt ∧ v.toInt ≤ 2 ^ d.activationWidth - 1 := by
  have hc := (calculate_arrays s fl d op a b hb).1
  rw [h] at hc
  simp only [Except.map, vfuVector] at hc
  split at hc
  · injection hc with hc
    constructor
    · have := congrArg List.length hc; simpa using this
    · intro v hv
      have : v.toInt ∈ r.map BitVec.toInt := List.mem_map_of_mem hv
      rw [hc, List.mem_map] at this
      obtain ⟨x, _, hx⟩ := this
      rw [← hx]
      exact sat_width _ _
  · cases b with
    | none => cases hc
    | some b =>
      simp only [Option.map_some] at hc
      split at hc
      · cases hc
      · injection hc with hc
        have hl := hb b rfl
        constructor
        · have := congrArg List.length hc; simpa [hl] using this
        · intro v hv
          have hm : v.toInt ∈ r.map BitVec.toInt := List.mem_map_of_mem hv
          rw [hc] at hm
          obtain ⟨i, hi, hx⟩ := List.mem_iff_getElem.1 hm
          rw [List.getElem_zipWith] at hx
          rw [← hx]
          exact sat_width _ _

example : (({} : VfuStats).calculate someActs q88 .add (.arr [60000, 5, 0x80000000#32])
    (some (.arr [60000, 7, 0]))).1 = .ok [65535, 12, BitVec.ofInt 32 (-65536)] := by decide +kernel

/-- C18 also for every form of operand the method accepts (Python ints, arrays of different lengths
that numpy broadcasts). -/
theorem C18_vfu_range_all (s : VfuStats) (fl : FloatActs) (d : DataConfig) (op : VfuOp) (a : Operand)
    (b : Option Operand) (r : List I32) (h : (s.calculate fl d op a b).1 = .ok r) :
    ∀ v ∈ r, -2 ^ d.activationWidth ≤ v.toInt ∧ v.toInt ≤ 2 ^ d.activationWidth - 1 := by
  unfold VfuStats.calculate at h
  split at h
  · cases h
  · split at h
    · cases h
    · split at h
      · cases h
      · injection h with h
        subst h
        intro v hv
        obtain ⟨x, _, rfl⟩ := List.mem_map.1 hv
        rw [vfuClip_toInt]
        exact sat_width _ _

example : (({} : VfuStats).calculate someActs q88 .mul (.arr [512, 513, 60000]) (some (.arr [0x300]))).1
    = .ok [1536, 1539, BitVec.ofInt 32 65535] := by decide +kernel

/-- C19: for every opcode computed in integers, if the intermediate integers fit in 32 bits then each
element of the result is the clamp of the mathematical result of the corresponding elements. -/
theorem C19_vfu_math (s : VfuStats) (fl : FloatActs) (d : DataConfig) (op : VfuOp) (a b : List I32)
    (hb : b.length = a.length) (hop : op ≠ .sig ∧ op ≠ .tanh)
    (hz : op = .div → ∀ y ∈ b, y ≠ 0)
    (hfit : ∀ i (h : i < a.length),
      ∀ v ∈ vfuIntermediates d.activationFracBits op a[i].toInt (b[i]'(by omega)).toInt, fits32 v) :
    ∃ r, (s.calculate fl d op (.arr a) (some (.arr b))).1 = .ok r ∧ r.length = a.length ∧
      ∀ i (h : i < a.length), ∃ v,
        vfuMath d.activationFracBits op a[i].toInt (b[i]'(by omega)).toInt = some v ∧
        r[i]?.map BitVec.toInt = some (clampTo d.activationWidth v) := by
  have hc := (calculate_arrays s fl d op a (some b) (by rintro b' h; injection h with h; rw [← h]; exact hb)).1
  dsimp only [Option.map_some] at hc
  generalize hr : (s.calculate fl d op (.arr a) (some (.arr b))).1 = res at hc
  set sig := fun v => (fl.sig d.activationFracBits (BitVec.ofInt 32 v)).toInt
  set tanh := fun v => (fl.tanh d.activationFracBits (BitVec.ofInt 32 v)).toInt
  have key : ∀ x y, (∀ v ∈ vfuIntermediates d.activationFracBits op x y, fits32 v) →
      vfuMath d.activationFracBits op x y = some (vfuValue sig tanh d.activationFracBits op x y) := by
    intro x y hv
    cases op <;> simp only [vfuIntermediates, List.mem_cons, List.not_mem_nil, or_false,
      forall_eq_or_imp, forall_eq, ne_eq, not_true_eq_false, false_and, and_false] at hv hop <;>
      simp only [vfuMath, vfuValue]
    · rw [wrap32_fits _ hv]
    · rw [wrap32_fits _ hv]
    · rw [wrap32_fits _ hv]
    · rw [wrap32_fits _ hv.1, wrap32_fits _ hv.2]
  by_cases hu : vfuIsUnary op = true
  · rw [vfuVector, if_pos hu] at hc
    cases res with
    | error e => cases hc
    | ok r =>
      simp only [Except.map] at hc
      injection hc with hc
      refine ⟨r, rfl, by simpa using congrArg List.length hc, fun i hi => ⟨_, key _ _ (hfit i hi), ?_⟩⟩
      rw [← List.getElem?_map, hc]
      simp only [List.getElem?_map, List.getElem?_eq_getElem hi, Option.map_some]
      congr 2
      cases op <;> simp [vfuIsUnary] at hu <;> rfl
  · rw [vfuVector, if_neg hu] at hc
    rw [if_neg (by
      rintro ⟨h1, h2⟩
      obtain ⟨y, hy, hy0⟩ := List.mem_map.1 h2
      exact hz h1 y hy (BitVec.eq_of_toInt_eq (by simpa using hy0)))] at hc
    cases res with
    | error e => cases hc
    | ok r =>
      simp only [Except.map] at hc
      injection hc with hc
      refine ⟨r, rfl, by simpa [hb] using congrArg List.length hc,
        fun i hi => ⟨_, key _ _ (hfit i hi), ?_⟩⟩
      rw [← List.getElem?_map, hc]
      have hi2 : i < b.length := by omega
      simp [List.getElem?_zipWith, List.getElem?_eq_getElem hi, List.getElem?_eq_getElem hi2]

example := C19_vfu_math {} someActs q88 .mul [300, BitVec.ofInt 32 (-300)] [512, 100] rfl (by decide)
    (by decide) (by
      intro i hi
      have : i = 0 ∨ i = 1 := by simp at hi; omega
      rcases this with rfl | rfl <;> simp only [List.getElem_cons_zero, List.getElem_cons_succ] <;>
        decide +kernel)

/-- Bitwise operations on integers mean what they should: bit by bit. -/
theorem C19_bits (a b : Int) (k : Nat) :
    (Int.land a b).testBit k = (a.testBit k && b.testBit k) ∧
    (Int.lor a b).testBit k = (a.testBit k || b.testBit k) :=
  ⟨Int.testBit_land a b k, Int.testBit_lor a b k⟩

/-- C20, the claim "mul saturates" is false in the shipped Q8.8 format: 181.02 * 181.02 comes out as
the most negative number, (-256) * (-256) as 0, 255.99 * 255.99 as -2. -/
theorem C20_mul_wraps_witness :
    (({} : VfuStats).calculate someActs q88 .mul (.arr [46341, BitVec.ofInt 32 (-65536), 65535])
      (some (.arr [46341, BitVec.ofInt 32 (-65536), 65535]))).1
      = .ok [BitVec.ofInt 32 (-65536), 0, BitVec.ofInt 32 (-512)] ∧
    (clampTo 16 <$> vfuMath 8 .mul 46341 46341 = some 65535) ∧
    (clampTo 16 <$> vfuMath 8 .mul (-65536) (-65536) = some 65535) ∧
    (clampTo 16 <$> vfuMath 8 .mul 65535 65535 = some 65535) := by decide +kernel

/-- C20: for activation widths up to 16 bits and operands in the clip range, `mul` returns the
saturated product exactly when the integer product fits in 32 bits. -/
theorem C20_mul_exact_iff (s : VfuStats) (fl : FloatActs) (d : DataConfig) (a b : I32)
    (hw : d.activationWidth ≤ 16)
    (ha : -2 ^ d.activationWidth ≤ a.toInt ∧ a.toInt ≤ 2 ^ d.activationWidth - 1)
    (hb : -2 ^ d.activationWidth ≤ b.toInt ∧ b.toInt ≤ 2 ^ d.activationWidth - 1) :
    (s.calculate fl d .mul (.arr [a]) (some (.arr [b]))).1.map (fun l => l.map BitVec.toInt)
        = .ok [clampTo d.activationWidth (Int.fdiv (a.toInt * b.toInt) (2 ^ d.activationFracBits))]
      ↔ fits32 (a.toInt * b.toInt) := by
  have hc := (calculate_arrays s fl d .mul [a] (some [b]) (by rintro b' h; injection h with h; rw [← h]; rfl)).1
  dsimp only [Option.map_some] at hc
  have hv : ∀ sig tanh, vfuVector sig tanh d.activationFracBits d.activationWidth .mul [a.toInt]
      (some [b.toInt]) = .ok [clampTo d.activationWidth
        (Int.fdiv (wrap32 (a.toInt * b.toInt)) (2 ^ d.activationFracBits))] := by
    intro sig tanh
    simp [vfuVector, vfuIsUnary, vfuValue]
  rw [hc]
  simp only [List.map_cons, List.map_nil]
  rw [hv]
  constructor
  · intro h
    injection h with h
    injection h with h _
    by_contra hf
    set w := d.activationWidth
    set f := d.activationFracBits
    have hfw : f ≤ w := Nat.le_add_left _ _
    have hp16 : (2 : Int) ^ w ≤ 2 ^ 16 := pow_le_pow_right₀ (by norm_num) hw
    have hpf : (2 : Int) ^ f ≤ 2 ^ 16 := pow_le_pow_right₀ (by norm_num) (by omega)
    have hf1 : (1 : Int) ≤ 2 ^ f := one_le_pow₀ (by norm_num)
    have hw1 : (1 : Int) ≤ 2 ^ w := one_le_pow₀ (by norm_num)
    set p := a.toInt * b.toInt with hpdef
    have hub : p ≤ 2 ^ 32 := by nlinarith
    have hlb : -2 ^ 32 ≤ p := by nlinarith
    rw [Int.fdiv_eq_ediv_of_nonneg _ (by positivity), Int.fdiv_eq_ediv_of_nonneg _ (by positivity)] at h
    unfold fits32 at hf
    have hcases : 2 ^ 31 ≤ p ∨ p < -2 ^ 31 := by omega
    have hwne : (2 : Int) ^ w = 1 → p ≤ 1 := by intro h1; rw [h1] at ha hb; nlinarith
    rcases hcases with hpos | hneg
    · have hmath : 2 ≤ p / 2 ^ f := by
        rw [Int.le_ediv_iff_mul_le (by omega)]; norm_num at hpos ⊢; omega
      have hw2 : (2 : Int) ≤ 2 ^ w := by
        by_contra hlt
        have := hwne (by omega)
        norm_num at hpos; omega
      have hwrap : wrap32 p / 2 ^ f ≤ 0 := by
        have : wrap32 p ≤ 0 := by
          unfold wrap32 Int.bmod
          norm_num at hpos hub ⊢
          omega
        exact Int.ediv_le_of_le_mul (by omega) (by omega)
      unfold clampTo at h
      omega
    · have hmath : p / 2 ^ f < 0 := Int.ediv_neg_of_neg_of_pos (by norm_num at hneg; omega) (by omega)
      have hwrap : 0 ≤ wrap32 p / 2 ^ f := by
        have : 0 ≤ wrap32 p := by
          unfold wrap32 Int.bmod
          norm_num at hneg hlb ⊢
          omega
        exact Int.ediv_nonneg this (by omega)
      unfold clampTo at h
      omega
  · intro h
    rw [wrap32_fits _ h]

example := C20_mul_exact_iff {} someActs q88 46341 46341 (by decide) (by decide +kernel) (by decide +kernel)

/-- C21: on arrays of equal length, `calculate` raises ZeroDivisionError exactly for `div` with a
zero divisor and ValueError exactly for a binary opcode without second operand, and raises nothing
else. -/
theorem C21_vfu_errors (s : VfuStats) (fl : FloatActs) (d : DataConfig) (op : VfuOp) (a : List I32)
    (b : Option (List I32)) (hb : ∀ b', b = some b' → b'.length = a.length) :
    let r := (s.calculate fl d op (.arr a) (b.map .arr)).1
    let binary := op ≠ .not ∧ op ≠ .sig ∧ op ≠ .tanh ∧ op ≠ .relu
    (r = .error .zeroDivisionError ↔ op = .div ∧ ∃ b', b = some b' ∧ 0 ∈ b') ∧
    (r = .error .valueError ↔ binary ∧ b = none) ∧
    (∀ e, r = .error e → e = .zeroDivisionError ∨ e = .valueError) := by
  intro r binary
  have hsec : vfuSecond a.length (b.map Operand.arr) = .ok b := by cases b <;> rfl
  have hr : r = (vfuHandle fl d.activationFracBits op a b).map fun v =>
      v.map (vfuClip d.activationWidth) := by
    simp only [r, VfuStats.calculate, Operand.toArray, hsec]
    cases vfuHandle fl d.activationFracBits op a b <;> rfl
  rw [hr]
  unfold vfuHandle
  have hbin : binary ↔ op.unary = false := by
    simp only [binary]; cases op <;> simp [VfuOp.unary]
  rw [hbin]
  by_cases hu : op.unary = true
  · rw [if_pos hu]
    have hd : op ≠ .div := by rintro rfl; cases hu
    simp [Except.map, hu, hd]
  · rw [if_neg hu]
    have hu' : op.unary = false := by simpa using hu
    cases b with
    | none => simp [Except.map, hu']
    | some b =>
      have hl := hb b rfl
      have hmem : (b.any fun y => y == 0) = true ↔ 0 ∈ b := by simp
      by_cases hz : op = .div ∧ (b.any fun y => y == 0) = true
      · simp only [if_pos hz]
        have h0 : (0 : I32) ∈ b := hmem.1 hz.2
        refine ⟨⟨fun _ => ⟨hz.1, b, rfl, h0⟩, fun _ => rfl⟩, ?_, ?_⟩ <;> simp [Except.map]
      · simp only [if_neg hz]
        rw [broadcast2_eq _ _ _ hl.symm]
        have : ¬ (op = .div ∧ 0 ∈ b) := fun h => hz ⟨h.1, hmem.2 h.2⟩
        simpa [Except.map] using this

example : (({} : VfuStats).calculate someActs q88 .div (.arr [1, 2]) (some (.arr [3, 0]))).1
    = .error .zeroDivisionError := by decide +kernel

/-- C21: a call that raises, with operands of any form, leaves the counters alone. -/
theorem C21_vfu_errors_no_stats (s : VfuStats) (fl : FloatActs) (d : DataConfig) (op : VfuOp)
    (a : Operand) (b : Option Operand) (e : PyErr) (h : (s.calculate fl d op a b).1 = .error e) :
    (s.calculate fl d op a b).2 = s := by
  unfold VfuStats.calculate at h ⊢
  split
  · rfl
  · rename_i a' ha
    simp only [ha] at h
    split
    · rfl
    · rename_i b' hb
      simp only [hb] at h
      split
      · rfl
      · rename_i r hr
        simp only [hr] at h
        cases h

example : (({} : VfuStats).calculate someActs q88 .div (.arr [1, 2]) (some (.arr [3, 0]))).2 = {} :=
  C21_vfu_errors_no_stats _ _ _ _ _ _ .zeroDivisionError (by decide +kernel)

/-- C21: unary opcodes ignore a second array. -/
theorem C21_unary_ignores_second (s : VfuStats) (fl : FloatActs) (d : DataConfig) (op : VfuOp)
    (hop : op = .not ∨ op = .sig ∨ op = .tanh ∨ op = .relu) (a b : List I32) :
    s.calculate fl d op (.arr a) (some (.arr b)) = s.calculate fl d op (.arr a) none := by
  rcases hop with rfl | rfl | rfl | rfl <;> rfl

example := C21_unary_ignores_second {} someActs q88 .relu (by decide) [1, 2] [7]

/-- C21, arrays of different lengths and a binary opcode: a one-element array is used for every element of the
other one, and any other pair of lengths raises ValueError (ZeroDivisionError if a divisor is 0). -/
theorem C21_vfu_lengths (s : VfuStats) (fl : FloatActs) (d : DataConfig) (op : VfuOp)
    (hop : op ≠ .not ∧ op ≠ .sig ∧ op ≠ .tanh ∧ op ≠ .relu) (a b : List I32) (hne : a.length ≠ b.length) :
    (∀ y, b = [y] → (s.calculate fl d op (.arr a) (some (.arr b))).1 =
      if op = .div ∧ y = 0 then .error .zeroDivisionError
      else (s.calculate fl d op (.arr a) (some (.arr (List.replicate a.length y)))).1) ∧
    (∀ x, a = [x] → (s.calculate fl d op (.arr a) (some (.arr b))).1 =
      (s.calculate fl d op (.arr (List.replicate b.length x)) (some (.arr b))).1) ∧
    (a.length ≠ 1 → b.length ≠ 1 → (s.calculate fl d op (.arr a) (some (.arr b))).1 =
      .error (if op = .div ∧ 0 ∈ b then .zeroDivisionError else .valueError)) := by
  have hu : ¬op.unary = true := by cases op <;> simp_all [VfuOp.unary]
  have hcalc : ∀ a b : List I32, (s.calculate fl d op (.arr a) (some (.arr b))).1 =
      (if op = .div ∧ 0 ∈ b then .error .zeroDivisionError
       else broadcast2 (vfuBinary d.activationFracBits op) a b).map fun v => v.map (vfuClip d.activationWidth) := by
    intro a b
    have hz : (op = .div ∧ (b.any fun y => y == 0) = true) ↔ (op = .div ∧ 0 ∈ b) := by simp
    have hh : vfuHandle fl d.activationFracBits op a (some b) = if op = .div ∧ 0 ∈ b then .error .zeroDivisionError
       else broadcast2 (vfuBinary d.activationFracBits op) a b := by
      unfold vfuHandle
      rw [if_neg hu]
      dsimp only
      by_cases h : op = .div ∧ 0 ∈ b
      · rw [if_pos h, if_pos (hz.2 h)]
      · rw [if_neg h, if_neg (fun h' => h (hz.1 h'))]
    simp only [VfuStats.calculate, Operand.toArray, vfuSecond, hh]
    split <;> rename_i h <;> rw [h] <;> rfl
  refine ⟨?_, ?_, ?_⟩
  · rintro y rfl
    rw [hcalc, hcalc]
    by_cases h : op = .div ∧ y = 0
    · rw [if_pos h, if_pos ⟨h.1, by simp [h.2]⟩]; rfl
    · rw [if_neg h, if_neg (fun h' => h ⟨h'.1, (List.mem_singleton.1 h'.2).symm⟩), if_neg]
      · rw [broadcast2_eq _ a (List.replicate _ _) (by simp)]
        have : broadcast2 (vfuBinary d.activationFracBits op) a [y] =
            .ok (a.map fun x => vfuBinary d.activationFracBits op x y) := by
          unfold broadcast2
          rw [if_neg hne]
        rw [this]
        congr 2
        apply List.ext_getElem
        · simp
        · intro k h1 h2; simp
      · rintro ⟨h1, h2⟩
        exact h ⟨h1, (List.eq_of_mem_replicate h2).symm⟩
  · rintro x rfl
    rw [hcalc, hcalc]
    have : broadcast2 (vfuBinary d.activationFracBits op) [x] b =
        broadcast2 (vfuBinary d.activationFracBits op) (List.replicate b.length x) b := by
      rw [broadcast2_eq _ (List.replicate _ _) b (by simp)]
      unfold broadcast2
      rw [if_neg hne]
      have hb : ∀ y, b ≠ [y] := by rintro y rfl; exact hne rfl
      split
      · rename_i y; exact absurd rfl (hb y)
      · rename_i heq _
        injection heq with heq _
        subst heq
        congr 1
        apply List.ext_getElem
        · simp
        · intro k h1 h2; simp
      · rename_i h1 h2; exact absurd rfl (h2 x)
    rw [this]
  · intro h1 h2
    rw [hcalc]
    by_cases h : op = .div ∧ 0 ∈ b
    · rw [if_pos h, if_pos h]; rfl
    · rw [if_neg h, if_neg h]
      unfold broadcast2
      rw [if_neg hne]
      split
      · exact absurd rfl h2
      · exact absurd rfl h1
      · rfl

example : (({} : VfuStats).calculate someActs q88 .add (.arr [1, 2, 3]) (some (.arr [5]))).1 = .ok [6, 7, 8] := by
  decide +kernel
example := C21_vfu_lengths {} someActs q88 .add (by decide) [1, 2, 3] [5] (by decide)

/-- One call of `calculate` on arrays. -/
structure VfuCall where
  op : VfuOp
  a : List I32
  b : Option (List I32)
  equalLength : ∀ b', b = some b' → b'.length = a.length

/-- The call returns (it does not raise). -/
def VfuCall.returns (c : VfuCall) : Prop :=
  (c.op = .div → ∀ b, c.b = some b → 0 ∉ b) ∧
  (c.op = .not ∨ c.op = .sig ∨ c.op = .tanh ∨ c.op = .relu ∨ c.b ≠ none)

instance (c : VfuCall) : Decidable c.returns := by
  unfold VfuCall.returns
  have : Decidable (∀ b, c.b = some b → 0 ∉ b) := by
    cases c.b with
    | none => exact isTrue (by simp)
    | some b => exact decidable_of_iff (0 ∉ b) (by simp)
  infer_instance

/-- The counters after a history of calls. -/
def vfuHistory (fl : FloatActs) (d : DataConfig) (calls : List VfuCall) : VfuStats :=
  calls.foldl (fun s c => (s.calculate fl d c.op (.arr c.a) (c.b.map .arr)).2) {}

/-- Total length of the returning calls of a history whose opcode satisfies `p`. -/
def lengthsOf (p : VfuOp → Bool) (calls : List VfuCall) : Nat :=
  ((calls.filter fun c => p c.op && decide c.returns).map fun c => c.a.length).sum

/-- C22: after any history of calls each counter is the summed vector length of the returning calls
of its class, and the total is the sum of the four. -/
theorem C22_vfu_stats (fl : FloatActs) (d : DataConfig) (calls : List VfuCall) :
    let s := vfuHistory fl d calls
    s.mulOperations = lengthsOf (· = .mul) calls ∧
    s.divOperations = lengthsOf (· = .div) calls ∧
    s.actOperations = lengthsOf (fun o => o = .sig ∨ o = .tanh) calls ∧
    s.otherOperations = lengthsOf (fun o => o ≠ .mul ∧ o ≠ .div ∧ o ≠ .sig ∧ o ≠ .tanh) calls ∧
    s.totalOperations = s.mulOperations + s.divOperations + s.actOperations + s.otherOperations := by
  induction calls using List.reverseRecOn with
  | nil => exact ⟨rfl, rfl, rfl, rfl, rfl⟩
  | append_singleton calls c ih =>
    dsimp only at ih ⊢
    obtain ⟨i1, i2, i3, i4, i5⟩ := ih
    have hstep : vfuHistory fl d (calls ++ [c])
        = if c.returns then (vfuHistory fl d calls).update c.op c.a.length else vfuHistory fl d calls := by
      have h1 : vfuHistory fl d (calls ++ [c])
          = ((vfuHistory fl d calls).calculate fl d c.op (.arr c.a) (c.b.map .arr)).2 := by
        simp [vfuHistory]
      rw [h1]
      have h2 := (calculate_arrays (vfuHistory fl d calls) fl d c.op c.a c.b c.equalLength).2
      have h3 := C21_vfu_errors (vfuHistory fl d calls) fl d c.op c.a c.b c.equalLength
      dsimp only at h2 h3
      by_cases hret : c.returns
      · rw [if_pos hret]
        cases hres : ((vfuHistory fl d calls).calculate fl d c.op (.arr c.a) (c.b.map .arr)).1 with
        | error e =>
          exfalso
          rw [hres] at h3
          obtain ⟨hz, hv, he⟩ := h3
          rcases he e rfl with rfl | rfl
          · obtain ⟨ho, b', hb', h0⟩ := hz.1 rfl
            exact hret.1 ho b' hb' h0
          · obtain ⟨⟨n1, n2, n3, n4⟩, hnone⟩ := hv.1 rfl
            rcases hret.2 with h | h | h | h | h
            · exact n1 h
            · exact n2 h
            · exact n3 h
            · exact n4 h
            · exact h hnone
        | ok r =>
          have h4 := (calculate_arrays (vfuHistory fl d calls) fl d c.op c.a c.b c.equalLength).1
          rw [hres] at h4
          rw [h2, ← h4]
          rfl
      · rw [if_neg hret]
        cases hres : ((vfuHistory fl d calls).calculate fl d c.op (.arr c.a) (c.b.map .arr)).1 with
        | error e => exact C21_vfu_errors_no_stats _ _ _ _ _ _ e hres
        | ok r =>
          exfalso
          apply hret
          rw [hres] at h3
          obtain ⟨hz, hv, _⟩ := h3
          constructor
          · intro ho b hb h0
            have := hz.2 ⟨ho, b, hb, h0⟩
            cases this
          · by_contra hn
            simp only [not_or, not_not] at hn
            have := hv.2 ⟨⟨hn.1, hn.2.1, hn.2.2.1, hn.2.2.2.1⟩, hn.2.2.2.2⟩
            cases this
    have hlen : ∀ p, lengthsOf p (calls ++ [c])
        = lengthsOf p calls + if p c.op && decide c.returns then c.a.length else 0 := by
      intro p
      unfold lengthsOf
      rw [List.filter_append]
      cases hp : p c.op && decide c.returns
      · simp [List.filter, hp]
      · simp [List.filter, hp]
    simp only [hlen]
    rw [hstep]
    by_cases hret : c.returns
    · simp only [if_pos hret, hret, decide_true, Bool.and_true]
      cases hop : c.op <;> simp [VfuStats.update, i1, i2, i3, i4, i5] <;> omega
    · simp only [if_neg hret, hret, decide_false, Bool.and_false, Bool.false_eq_true, if_false, add_zero]
      exact ⟨i1, i2, i3, i4, i5⟩

example : (vfuHistory someActs q88 [⟨.mul, [1, 2], some [3, 4], by simp⟩, ⟨.div, [1], some [0], by simp⟩,
    ⟨.sig, [1, 2, 3], none, by simp⟩]).totalOperations = 5 := by decide +kernel

/-- C21, ints as operands: an int that fits in 32 bits stands for the array with this element; as second operand it is only
accepted if the first one has one element, any other length raises ValueError, also for the unary opcodes, which then ignore it.
An int that does not fit raises OverflowError. -/
theorem C21_vfu_ints (s : VfuStats) (fl : FloatActs) (d : DataConfig) (op : VfuOp) (v : Int) :
    (-2 ^ 31 ≤ v ∧ v < 2 ^ 31 →
      (∀ b, s.calculate fl d op (.int v) b = s.calculate fl d op (.arr [BitVec.ofInt 32 v]) b) ∧
      (∀ x, s.calculate fl d op (.arr [x]) (some (.int v)) = s.calculate fl d op (.arr [x]) (some (.arr [BitVec.ofInt 32 v]))) ∧
      (∀ a : List I32, a.length ≠ 1 → s.calculate fl d op (.arr a) (some (.int v)) = (.error .valueError, s))) ∧
    (¬(-2 ^ 31 ≤ v ∧ v < 2 ^ 31) →
      (∀ b, s.calculate fl d op (.int v) b = (.error .overflowError, s)) ∧
      ∀ a, s.calculate fl d op (.arr a) (some (.int v)) = (.error .overflowError, s)) := by
  refine ⟨fun h => ?_, fun h => ?_⟩
  · refine ⟨fun b => ?_, fun x => ?_, fun a ha => ?_⟩
    · simp only [VfuStats.calculate, Operand.toArray, if_pos h]
    · simp only [VfuStats.calculate, vfuSecond, Operand.toArray, if_pos h, List.length_singleton, ne_eq, not_true_eq_false, if_false]
    · simp only [VfuStats.calculate, vfuSecond, Operand.toArray, if_pos h]
      rw [if_pos (by simpa using Ne.symm ha)]
  · refine ⟨fun b => ?_, fun a => ?_⟩
    · simp only [VfuStats.calculate, Operand.toArray, if_neg h]
    · simp only [VfuStats.calculate, vfuSecond, Operand.toArray, if_neg h]

example := (C21_vfu_ints {} someActs q88 .mul 300).1 (by decide)
example := (C21_vfu_ints {} someActs q88 .mul (2 ^ 31)).2 (by decide)

/-- C23: Set and Copy take one access of the data memory, whatever their length, and a halt one cycle; asking for the time of
a Load or Store raises. -/
theorem C23_memory_latency (c : Config) (dest read vec width imm : Int) :
    c.executionLatency (.set dest imm vec) = .ok c.coreConfig.dataMemLat ∧
    c.executionLatency (.copy dest read vec) = .ok c.coreConfig.dataMemLat ∧
    c.executionLatency .hlt = .ok 1 ∧
    c.executionLatency (.load dest read width vec) = .error .runtimeError ∧
    c.executionLatency (.store dest read width vec) = .error .runtimeError :=
  ⟨rfl, rfl, rfl, rfl, rfl⟩

/-- C23: the VFU latency of a vector operation is never below `alu_lat` times the number
`⌈vec / num_alu⌉` of passes over the ALUs and exceeds it by less than `alu_lat` cycles; with
`alu_lat = 1` it is exactly the number of passes. -/
theorem C23_vfu_latency (c : Config) (op : VfuOp) (dest r1 : Int) (r2 : Option Int) (vec : Int)
    (hn : 0 < c.coreConfig.numAluPerVfu) :
    ∃ lat, c.executionLatency (.vfu op dest r1 r2 vec) = .ok lat ∧
      c.coreConfig.aluLat * ⌈(vec : ℚ) / c.coreConfig.numAluPerVfu⌉ ≤ lat ∧
      (0 < c.coreConfig.aluLat →
        lat < c.coreConfig.aluLat * ⌈(vec : ℚ) / c.coreConfig.numAluPerVfu⌉ + c.coreConfig.aluLat) ∧
      (c.coreConfig.aluLat = 1 → lat = ⌈(vec : ℚ) / c.coreConfig.numAluPerVfu⌉) := by
  set n := c.coreConfig.numAluPerVfu
  set L := c.coreConfig.aluLat
  have hlat : c.executionLatency (.vfu op dest r1 r2 vec) = .ok (L * (vec + n - 1) / n) :=
    if_neg (by omega)
  have hn' : (0 : Int) < n := by exact_mod_cast hn
  have hceil : ⌈(vec : ℚ) / n⌉ = (vec + n - 1) / n := by
    rw [Int.ceil_eq_iff]
    have hq : (0 : ℚ) < n := by exact_mod_cast hn
    have e := Int.mul_ediv_add_emod (vec + n - 1) n
    have h1 := Int.emod_nonneg (vec + n - 1) (by omega : (n : Int) ≠ 0)
    have h2 := Int.emod_lt_of_pos (vec + n - 1) hn'
    set q := (vec + n - 1) / (n : Int)
    constructor
    · rw [lt_div_iff₀ hq]
      have : (q - 1) * n < vec := by nlinarith
      exact_mod_cast this
    · rw [div_le_iff₀ hq]
      have : vec ≤ q * n := by nlinarith
      exact_mod_cast this
  rw [hceil]
  have e := Int.mul_ediv_add_emod (vec + n - 1) n
  have h1 := Int.emod_nonneg (vec + n - 1) (by omega : (n : Int) ≠ 0)
  have h2 := Int.emod_lt_of_pos (vec + n - 1) hn'
  set q := (vec + n - 1) / (n : Int)
  refine ⟨_, hlat, ?_, ?_, ?_⟩
  · rw [Int.le_ediv_iff_mul_le hn']
    have : (0 : Int) ≤ L := by positivity
    nlinarith
  · intro hL
    rw [Int.ediv_lt_iff_lt_mul hn']
    have : (0 : Int) < L := by exact_mod_cast hL
    nlinarith
  · intro hL
    rw [hL]; simp only [Nat.cast_one, one_mul]; rfl

example := C23_vfu_latency demo .add 0 0 none 13 (by decide)

/-- C23: with `alu_lat > 1` the excess is real: 12 elements on 12 ALUs of latency 2 take 3 cycles. -/
theorem C23_latency_excess_witness :
    { demo with coreConfig := { aluLat := 2, numAluPerVfu := 12 } }.executionLatency
      (.vfu .add 0 0 none 12) = .ok 3 ∧ 2 * ⌈((12 : Int) : ℚ) / 12⌉ = 2 := by
  constructor
  · rfl
  · norm_num

/-- C23: a longer vector never takes less time. -/
theorem C23_latency_monotone (c : Config) (op : VfuOp) (dest r1 : Int) (r2 : Option Int) (v w : Int)
    (h : v ≤ w) (a b : Int) (ha : c.executionLatency (.vfu op dest r1 r2 v) = .ok a)
    (hb : c.executionLatency (.vfu op dest r1 r2 w) = .ok b) : a ≤ b := by
  simp only [Config.executionLatency] at ha hb
  split at ha
  · cases ha
  · rename_i hn
    rw [if_neg hn] at hb
    injection ha with ha
    injection hb with hb
    rw [← ha, ← hb]
    apply Int.ediv_le_ediv (by omega)
    apply mul_le_mul_of_nonneg_left (by omega) (by positivity)

example := C23_latency_monotone demo .add 0 0 none 3 30 (by decide) 1 3 (by rfl) (by rfl)

/-- C23: the MVM latency is the ADC latency times (number of input slices + 2). -/
theorem C23_mvm_latency (c : Config) (xbar : List Int) (hres : 0 < c.mvmuConfig.dacResolution)
    (lat : Nat) (hlat : c.mvmuConfig.adcLat = some lat) :
    c.executionLatency (.mvm xbar)
      = .ok (lat * (⌈(c.dataConfig.activationWidth : ℚ) / c.mvmuConfig.dacResolution⌉ + 2)) := by
  simp only [Config.executionLatency, if_neg hres.ne', hlat]
  congr 3
  symm
  rw [Int.ceil_eq_iff]
  set n := c.mvmuConfig.dacResolution
  set v := c.dataConfig.activationWidth
  have hq : (0 : ℚ) < n := by exact_mod_cast hres
  have hn' : (0 : Int) < n := by exact_mod_cast hres
  have hcast : ((v + n - 1 : Nat) : Int) = v + n - 1 := by omega
  rw [hcast]
  have e := Int.mul_ediv_add_emod ((v : Int) + n - 1) n
  have h1 := Int.emod_nonneg ((v : Int) + n - 1) (by omega : (n : Int) ≠ 0)
  have h2 := Int.emod_lt_of_pos ((v : Int) + n - 1) hn'
  set q := ((v : Int) + n - 1) / (n : Int)
  constructor
  · rw [lt_div_iff₀ hq]
    have : (q - 1) * n < v := by nlinarith
    exact_mod_cast this
  · rw [div_le_iff₀ hq]
    have : (v : Int) ≤ q * n := by nlinarith
    exact_mod_cast this

example := C23_mvm_latency demo [0] (by decide) 50 (by decide)

end Ramwich
