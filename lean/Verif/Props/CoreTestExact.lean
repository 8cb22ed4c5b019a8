import Verif.Props.CoreTest
import Verif.Lemmas.CoreTest

/-! # tests/test_core_features.py: the result for integer weights, and when the assertion of the test holds (C106) -/
namespace Ramwich
open Spec

theorem rectified_clip (fl : FloatActs) (x : List Int) :
    (coreParamsWith tileTestBuilt fl).rectified x = x.map fun a => min 255 (max 0 a) := by
  unfold CoreParams.rectified
  apply List.map_congr_left
  intro a _
  have hw : (coreParamsWith tileTestBuilt fl).actWidth = 8 := tileTest_params.1
  rw [hw]
  unfold clampTo
  omega

theorem getD_clipped (l : List Int) (f : Nat → Int) (h : l = (List.range 128).map fun r => min 255 (max 0 (f r))) (j : Nat) :
    0 ≤ l.getD j 0 ∧ l.getD j 0 ≤ 255 ∧ (j < 128 → l.getD j 0 = min 255 (max 0 (f j))) := by
  subst h
  by_cases hj : j < 128
  · have : ((List.range 128).map fun r => min 255 (max 0 (f r))).getD j 0 = min 255 (max 0 (f j)) := by
      simp [List.getD_eq_getElem?_getD, hj]
    rw [this]
    exact ⟨by omega, by omega, fun _ => rfl⟩
  · have : ((List.range 128).map fun r => min 255 (max 0 (f r))).getD j 0 = 0 := by
      simp [List.getD_eq_getElem?_getD, hj]
    rw [this]
    exact ⟨by omega, by omega, fun h => absurd h hj⟩

theorem unit_mixed : mixedRows fun r j => if r = j then 1 else 0 := by
  intro r hr
  have key : ∀ (p : Prop) [Decidable p], parity (if p then 1 else 0) = if p then 1 else 0 := by
    intro p _
    split <;> decide
  refine ⟨⟨if r = 0 then 1 else 0, by split <;> omega, ?_⟩, r, hr, ?_⟩
  · rw [key]; by_cases h0 : r = 0 <;> simp [h0]
  · rw [key]; simp

section
variable {mat0 mat1 : List (List ℚ)} {activation : List Int} {i : SysInit} {cfg : SysCfg} (h : coreTest mat0 mat1 activation i)
  (ht : cfg.net.tiles = 3) (hk : cfg.cores = 2) (as : List SysAct) (s : Sys) (hrun : i.start.run cfg as = some s)
  (hs : coreTestSizes mat0 mat1 activation) (hf : finished cfg s) (m0 m1 : Nat → Nat → Int)
  (h0 : ∀ r < 128, ∀ j < 128, entry mat0 r j = m0 r j) (h1 : ∀ r < 128, ∀ j < 128, entry mat1 r j = m1 r j)
include h ht hk hrun hs hf

section
include h0 h1

/-- C106: with integer weights of which no row has 128 odd ones of the same sign, and an activation in 0..255, the test computes
the two layers with the parities of the weights. -/
theorem C106_parity (c0 : mixedRows m0) (c1 : mixedRows m1) (hx : ∀ v ∈ activation, 0 ≤ v ∧ v ≤ 255) :
    wordsAt (wordsOf (s.tile 2).ctrl.mem) 256 128 = parityOutput m0 m1 (fun j => activation.getD j 0) := by
  rw [C105_result h ht hk as s hrun hs hf]
  unfold tileTestOutput
  simp only [if_true, Nat.one_ne_zero, if_false]
  have e0 := product_parity cfg.fl (errorsOf (cfg.noise 2 0 3)) (entry mat0) m0 h0 c0 activation (fun j => by
    rw [List.getD_eq_getElem?_getD]
    cases hv : activation[j]? with
    | none => simp
    | some v => exact hx v (List.mem_of_getElem? hv))
  rw [e0, rectified_clip, rectified_clip, List.map_map]
  have q := getD_clipped _ (fun r => ∑ j ∈ Finset.range 128, parity (m0 r j) * activation.getD j 0) rfl
  change List.map _ (CoreParams.product _ _ _ ((List.range 128).map fun r =>
    min 255 (max 0 (∑ j ∈ Finset.range 128, parity (m0 r j) * activation.getD j 0))) 128) = _
  rw [product_parity cfg.fl _ (entry mat1) m1 h1 c1 _ (fun j => ⟨(q j).1, (q j).2.1⟩), List.map_map]
  unfold parityOutput
  apply List.map_congr_left
  intro r _
  simp only [Function.comp_apply]
  rw [Finset.sum_congr rfl fun j hj => by rw [(q j).2.2 (Finset.mem_range.1 hj)]]

/-- C106: the assertion of the test holds for weights -1, 0 and 1 and activations for which no product is greater than 255. -/
theorem C106_passes (c0 : mixedRows m0) (c1 : mixedRows m1) (hx : ∀ v ∈ activation, 0 ≤ v ∧ v ≤ 255)
    (b0 : ∀ r < 128, ∀ j < 128, |m0 r j| ≤ 1) (b1 : ∀ r < 128, ∀ j < 128, |m1 r j| ≤ 1)
    (d0 : ∀ r < 128, ((List.range 128).map fun j => m0 r j * activation.getD j 0).sum ≤ 255)
    (d1 : ∀ v ∈ tileTestExpected m0 m1 (fun j => activation.getD j 0), v ≤ 255) :
    wordsAt (wordsOf (s.tile 2).ctrl.mem) 256 128 = tileTestExpected m0 m1 (fun j => activation.getD j 0) := by
  rw [C106_parity h ht hk as s hrun hs hf m0 m1 h0 h1 c0 c1 hx]
  have hpar : ∀ w : Int, |w| ≤ 1 → parity w = w := by
    intro w hw
    rw [abs_le] at hw
    have : w = -1 ∨ w = 0 ∨ w = 1 := by omega
    rcases this with rfl | rfl | rfl <;> decide
  have hsum : ∀ f : Nat → Int, ((List.range 128).map f).sum = ∑ j ∈ Finset.range 128, f j := fun f => by
    rw [Finset.sum_range, ← List.sum_ofFn, List.ofFn_eq_map, ← List.map_coe_finRange_eq_range, List.map_map]
    rfl
  unfold tileTestExpected at d1 ⊢
  unfold parityOutput
  apply List.map_congr_left
  intro r hr
  have hd := d1 _ (List.mem_map.2 ⟨r, hr, rfl⟩)
  rw [List.mem_range] at hr
  have e : ∑ j ∈ Finset.range 128, parity (m1 r j) * min 255 (max 0 (∑ c ∈ Finset.range 128, parity (m0 j c) * activation.getD c 0))
      = ((List.range 128).map fun j => m1 r j * max 0 ((List.range 128).map fun m => m0 j m * activation.getD m 0).sum).sum := by
    rw [hsum]
    apply Finset.sum_congr rfl
    intro j hj
    rw [Finset.mem_range] at hj
    have e2 : ∑ c ∈ Finset.range 128, parity (m0 j c) * activation.getD c 0
        = ((List.range 128).map fun m => m0 j m * activation.getD m 0).sum := by
      rw [hsum]
      apply Finset.sum_congr rfl
      intro c hc
      rw [hpar _ (b0 j hj c (Finset.mem_range.1 hc))]
    have := d0 j hj
    rw [hpar _ (b1 r hr j hj), e2]
    congr 1
    omega
  rw [e]
  beta_reduce at hd ⊢
  omega

end

include h0 in
/-- C106: with even weights in the first core the output is zero whatever the activation and the other weights are, so the
assertion fails unless `expected_output` is zero. -/
theorem C106_even (h1 : ∀ r < 128, ∀ j < 128, entry mat1 r j = m1 r j) (c1 : mixedRows m1)
    (hx : ∀ v ∈ activation, 0 ≤ v ∧ v ≤ 255) (he : ∀ r j, m0 r j % 2 = 0) :
    wordsAt (wordsOf (s.tile 2).ctrl.mem) 256 128 = List.replicate 128 0 := by
  have hz : ∀ r j, parity (m0 r j) = 0 := by
    intro r j
    have := he r j
    unfold parity
    have : (m0 r j).natAbs % 2 = 0 := by omega
    rw [this]
    simp
  have c0 : mixedRows m0 := fun r _ => ⟨⟨0, by omega, by rw [hz]; decide⟩, 0, by omega, by rw [hz]; decide⟩
  rw [C106_parity h ht hk as s hrun hs hf m0 m1 h0 h1 c0 c1 hx]
  unfold parityOutput
  simp only [hz]
  simp

/-- C106: with all weights of the first core 1, those of the second the identity and all activations 1, the output is 127
everywhere and not 128: a converter of 8 bits does not hold the sum of 128 cells of value 2. -/
theorem C106_ones (hx : activation = List.replicate 128 1) (e0 : ∀ r < 128, ∀ j < 128, entry mat0 r j = 1)
    (e1 : ∀ r < 128, ∀ j < 128, entry mat1 r j = if r = j then 1 else 0) :
    wordsAt (wordsOf (s.tile 2).ctrl.mem) 256 128 = List.replicate 128 127 ∧
    tileTestExpected (fun _ _ => 1) (fun r j => if r = j then 1 else 0) (fun j => activation.getD j 0) = List.replicate 128 128 := by
  constructor
  · rw [C105_result h ht hk as s hrun hs hf]
    unfold tileTestOutput
    simp only [if_true, Nat.one_ne_zero, if_false]
    rw [product_ones cfg.fl _ (entry mat0) e0 activation (fun j hj => by
      rw [hx, List.getD_eq_getElem?_getD, List.getElem?_replicate, if_pos hj]; rfl), rectified_clip, rectified_clip,
      List.map_replicate]
    rw [product_parity cfg.fl _ (entry mat1) (fun r j => if r = j then 1 else 0) (fun r hr j hj => by rw [e1 r hr j hj]; split <;> simp)
      unit_mixed _ (fun j => by
        rw [List.getD_eq_getElem?_getD, List.getElem?_replicate]
        split <;> simp), List.map_map]
    have : ∀ r ∈ List.range 128, ((fun a => min (255 : Int) (max 0 a)) ∘ fun r => ∑ j ∈ Finset.range 128,
        parity (if r = j then 1 else 0) * (List.replicate 128 (min (255 : Int) (max 0 127))).getD j 0) r = 127 := by
      intro r hr
      rw [List.mem_range] at hr
      simp only [Function.comp_apply]
      rw [Finset.sum_eq_single r]
      · rw [if_pos rfl, List.getD_eq_getElem?_getD, List.getElem?_replicate, if_pos hr]
        decide
      · intro j _ hj
        rw [if_neg (Ne.symm hj)]
        have : parity 0 = 0 := by decide
        rw [this, zero_mul]
      · intro h
        exact absurd (Finset.mem_range.2 hr) h
    rw [List.map_congr_left this]
    simp
  · rw [hx]
    decide +kernel

end

/-! ## Cases -/

/-- The identity as a matrix of the test. -/
def unitMatrix : List (List ℚ) := (List.range 128).map fun r => (List.range 128).map fun j => if r = j then 1 else 0

theorem unitMatrix_entry (r j : Nat) (hr : r < 128) (hj : j < 128) : entry unitMatrix r j = if r = j then 1 else 0 := by
  unfold entry unitMatrix
  simp [List.getD_eq_getElem?_getD, hr, hj]

theorem constMatrix_entry (w : ℚ) (r j : Nat) (hr : r < 128) (hj : j < 128) :
    entry (List.replicate 128 (List.replicate 128 w)) r j = w := by
  unfold entry
  simp only [List.getD_eq_getElem?_getD, List.getElem?_replicate, if_pos hr, Option.getD_some, if_pos hj]

theorem sizes_of {a b : List (List ℚ)} {x : List Int} (hx : x.length = 128) (ha : a.length = 128 ∧ ∀ row ∈ a, row.length = 128)
    (hb : b.length = 128 ∧ ∀ row ∈ b, row.length = 128) : coreTestSizes a b x := by
  refine ⟨hx, fun m hm => ?_⟩
  rcases List.mem_cons.1 hm with rfl | hm
  · exact ha
  · rw [List.mem_singleton.1 hm]; exact hb

theorem unitMatrix_size : unitMatrix.length = 128 ∧ ∀ row ∈ unitMatrix, row.length = 128 := by
  unfold unitMatrix
  refine ⟨by simp, fun row h => ?_⟩
  obtain ⟨r, -, rfl⟩ := List.mem_map.1 h
  simp

theorem constMatrix_size (w : ℚ) : (List.replicate 128 (List.replicate 128 w)).length = 128 ∧
    ∀ row ∈ List.replicate 128 (List.replicate 128 w), row.length = 128 :=
  ⟨List.length_replicate, fun row h => by rw [List.eq_of_mem_replicate h]; exact List.length_replicate⟩

/-- There is a finished run of the test with all matrices and activations. -/
theorem coreTest_runs (fl : FloatActs) (noise : Nat → Nat → Nat → Nat → Nat → Noise) (mat0 mat1 : List (List ℚ)) (activation : List Int)
    (hl : activation.length = 128) (hr : ∀ v ∈ activation, fits32 v) :
    ∃ i as s, coreTest mat0 mat1 activation i ∧ i.start.run (tileTestBuilt.sysCfg fl noise) as = some s ∧
      finished (tileTestBuilt.sysCfg fl noise) s := by
  have hi := coreTest_init tileTestBuilt.tileConfig.edramSize (by decide +kernel) rfl mat0 mat1 activation hl hr
  have ht : (tileTestBuilt.sysCfg fl noise).net.tiles = 3 := by
    show tileTestBuilt.numTilesPerNode = 3
    decide +kernel
  have hk : (tileTestBuilt.sysCfg fl noise).cores = 2 := by
    show tileTestBuilt.numCoresPerTile = 2
    decide +kernel
  obtain ⟨-, ⟨bs, s, h1, h2⟩, h3⟩ := C105_ends hi ht hk (coreTest_latencies _ _ _ _ fl noise) [] _ rfl
  exact ⟨_, bs, s, hi, h1, h3 bs s h1 h2⟩

/-- 128 ones times 128 ones is 127. -/
example (fl : FloatActs) (noise : Nat → Nat → Nat → Nat → Nat → Noise) : ∃ i as s,
    coreTest (List.replicate 128 (List.replicate 128 1)) unitMatrix (List.replicate 128 1) i ∧
    i.start.run (tileTestBuilt.sysCfg fl noise) as = some s ∧ finished (tileTestBuilt.sysCfg fl noise) s ∧
    wordsAt (wordsOf (s.tile 2).ctrl.mem) 256 128 = List.replicate 128 127 := by
  obtain ⟨i, as, s, h1, h2, h3⟩ := coreTest_runs fl noise (List.replicate 128 (List.replicate 128 1)) unitMatrix
    (List.replicate 128 1) List.length_replicate (fun v hv => by rw [List.eq_of_mem_replicate hv]; unfold fits32; norm_num)
  exact ⟨i, as, s, h1, h2, h3, (C106_ones h1 (by show tileTestBuilt.numTilesPerNode = 3; decide +kernel)
    (by show tileTestBuilt.numCoresPerTile = 2; decide +kernel) as s h2
    (sizes_of List.length_replicate (constMatrix_size 1) unitMatrix_size) h3 rfl (fun r hr j hj => constMatrix_entry 1 r j hr hj)
    (fun r hr j hj => unitMatrix_entry r j hr hj)).1⟩

/-- Weights 2: the output is zero. -/
example (fl : FloatActs) (noise : Nat → Nat → Nat → Nat → Nat → Noise) : ∃ i as s,
    coreTest (List.replicate 128 (List.replicate 128 2)) unitMatrix (List.replicate 128 1) i ∧
    i.start.run (tileTestBuilt.sysCfg fl noise) as = some s ∧ finished (tileTestBuilt.sysCfg fl noise) s ∧
    wordsAt (wordsOf (s.tile 2).ctrl.mem) 256 128 = List.replicate 128 0 := by
  obtain ⟨i, as, s, h1, h2, h3⟩ := coreTest_runs fl noise (List.replicate 128 (List.replicate 128 2)) unitMatrix
    (List.replicate 128 1) List.length_replicate (fun v hv => by rw [List.eq_of_mem_replicate hv]; unfold fits32; norm_num)
  exact ⟨i, as, s, h1, h2, h3, C106_even h1 (by show tileTestBuilt.numTilesPerNode = 3; decide +kernel)
    (by show tileTestBuilt.numCoresPerTile = 2; decide +kernel) as s h2
    (sizes_of List.length_replicate (constMatrix_size 2) unitMatrix_size) h3 (fun _ _ => 2) (fun r j => if r = j then 1 else 0)
    (fun r hr j hj => by rw [constMatrix_entry 2 r j hr hj]; norm_num) (fun r hr j hj => by
      rw [unitMatrix_entry r j hr hj]; split <;> simp) unit_mixed (fun v hv => by rw [List.eq_of_mem_replicate hv]; omega) (fun _ _ => rfl)⟩

/-- The identity twice, with the activation 1: the assertion of the test holds. -/
example (fl : FloatActs) (noise : Nat → Nat → Nat → Nat → Nat → Noise) : ∃ i as s,
    coreTest unitMatrix unitMatrix (List.replicate 128 1) i ∧
    i.start.run (tileTestBuilt.sysCfg fl noise) as = some s ∧ finished (tileTestBuilt.sysCfg fl noise) s ∧
    wordsAt (wordsOf (s.tile 2).ctrl.mem) 256 128 = tileTestExpected (fun r j => if r = j then 1 else 0)
      (fun r j => if r = j then 1 else 0) (fun j => (List.replicate 128 (1 : Int)).getD j 0) := by
  obtain ⟨i, as, s, h1, h2, h3⟩ := coreTest_runs fl noise unitMatrix unitMatrix
    (List.replicate 128 1) List.length_replicate (fun v hv => by rw [List.eq_of_mem_replicate hv]; unfold fits32; norm_num)
  have hu : ∀ r < 128, ∀ j < 128, entry unitMatrix r j = ((if r = j then 1 else 0 : Int) : ℚ) := fun r hr j hj => by
    rw [unitMatrix_entry r j hr hj]; split <;> simp
  have hb : ∀ r < 128, ∀ j < 128, |(if r = j then 1 else 0 : Int)| ≤ 1 := fun r _ j _ => by split <;> simp
  exact ⟨i, as, s, h1, h2, h3, C106_passes h1 (by show tileTestBuilt.numTilesPerNode = 3; decide +kernel)
    (by show tileTestBuilt.numCoresPerTile = 2; decide +kernel) as s h2
    (sizes_of List.length_replicate unitMatrix_size unitMatrix_size) h3 _ _ hu hu unit_mixed unit_mixed
    (fun v hv => by rw [List.eq_of_mem_replicate hv]; omega) hb hb (by decide +kernel) (by
      have : tileTestExpected (fun r j => if r = j then 1 else 0) (fun r j => if r = j then 1 else 0)
        (fun j => (List.replicate 128 (1 : Int)).getD j 0) = List.replicate 128 1 := by decide +kernel
      rw [this]
      intro v hv
      rw [List.eq_of_mem_replicate hv]
      omega)⟩

end Ramwich
