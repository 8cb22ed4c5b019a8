import Verif.Lemmas.Accuracy
import Verif.Lemmas.CoreReach
import Verif.Model.MvmTest
import Verif.Spec.MvmTest

/-! # Lemmas for tests/test_mvm.py -/
namespace Ramwich

open Spec

theorem loads_from (k : Core) (fl : FloatActs) (s : CoreState) (hr : CoreRefines k s) (weights : List (Nat × List (List ℚ)))
    (hw : ∀ w ∈ weights, w.1 < k.config.numMvmusPerCore ∧ w.2.length = k.config.mvmuConfig.xbarSize ∧
      ∀ row ∈ w.2, row.length = k.config.mvmuConfig.xbarSize) :
    (k.after fl (weights.map fun w => .load w.1 w.2)).config = k.config ∧
    CoreRefines (k.after fl (weights.map fun w => .load w.1 w.2)) (CoreState.loadAll s weights) := by
  unfold Core.after
  generalize hc : k.config = c' at hw ⊢
  induction weights generalizing k s with
  | nil => exact ⟨hc, hr⟩
  | cons mw ws ih =>
    obtain ⟨m, w⟩ := mw
    obtain ⟨hm, hlen, hrow⟩ := hw (m, w) (List.mem_cons_self ..)
    simp only at hm hlen hrow
    have hml : m < k.mvmus.length := by rw [hr.len, hc]; exact hm
    have hu := List.getElem?_eq_getElem hml
    obtain ⟨h1, h2, h3⟩ := hr.units m _ hu
    obtain ⟨e1, e2, e3, e4⟩ := agree_load k.mvmus[m] _ h3 w
    have hstep : (paramsOf k.mvmus[m].cfg k.mvmus[m].data).step (s.units m) (.load w)
        = (.ok [], { s.units m with weights := fun r j => (w.getD r []).getD j 0 }) :=
      if_pos ⟨by rw [hlen]; show _ = k.mvmus[m].cfg.xbarSize; rw [h1, hc],
        by intro row hrw; rw [hrow row hrw]; show _ = k.mvmus[m].cfg.xbarSize; rw [h1, hc]⟩
    rw [hstep] at e1 e4
    simp only [Mvmu.call] at e1 e2 e3 e4
    cases hl : k.mvmus[m].loadWeights w with
    | error e => rw [hl] at e1; cases e1
    | ok u' =>
      rw [hl] at e2 e3 e4
      have hk : (k.call fl (.load (m : Int) w)).2 = { k with mvmus := k.mvmus.set m u' } := by
        simp only [Core.call, Core.loadWeights, Core.getMvmu]
        rw [if_neg (by omega)]
        simp only [Int.toNat_natCast, hu, hl]
      rw [List.map_cons, List.foldl_cons, hk]
      refine ih { k with mvmus := k.mvmus.set m u' } _ ?_ hc (fun w hw' => hw w (List.mem_cons_of_mem _ hw'))
      exact refines_set k s hr m u' _ (by rw [hc]; exact hm) (e2.trans h1) (e3.trans h2) e4 _ rfl
        (if_pos rfl) (fun i hi => if_neg hi)

theorem loadAll_other (s : CoreState) (ws : List (Nat × List (List ℚ))) (m : Nat) (h : ∀ w ∈ ws, w.1 ≠ m) :
    (CoreState.loadAll s ws).units m = s.units m := by
  induction ws generalizing s with
  | nil => rfl
  | cons w ws ih =>
    obtain ⟨a, b⟩ := w
    unfold CoreState.loadAll
    rw [ih _ fun w hw => h w (List.mem_cons_of_mem _ hw)]
    exact if_neg (Ne.symm (h (a, b) (List.mem_cons_self ..)))

theorem core_after_append (k : Core) (fl : FloatActs) (a b : List CoreCall) : k.after fl (a ++ b) = (k.after fl a).after fl b := by
  unfold Core.after
  rw [List.foldl_append]

/-- The core of the test: unit 0 holds the matrix. -/
theorem mvmTest_core (c c' : Config) (fl : FloatActs) (hs : Simulable c) (hb : c.build = .ok c')
    (hp : 0 < c'.mvmuConfig.xbarSize * c'.numMvmusPerCore) (hist : List CoreCall) (W : List (List ℚ))
    (hW : W.length = c'.mvmuConfig.xbarSize ∧ ∀ row ∈ W, row.length = c'.mvmuConfig.xbarSize)
    (others : List (Nat × List (List ℚ)))
    (ho : ∀ w ∈ others, w.1 ≠ 0 ∧ w.1 < c'.numMvmusPerCore ∧ w.2.length = c'.mvmuConfig.xbarSize ∧
      ∀ row ∈ w.2, row.length = c'.mvmuConfig.xbarSize) :
    ∃ s, ((Core.new c').after fl (hist ++ (.load 0 W :: others.map fun w => .load w.1 w.2))).config = c' ∧
      CoreRefines ((Core.new c').after fl (hist ++ (.load 0 W :: others.map fun w => .load w.1 w.2))) s ∧
      (s.units 0).weights = fun r j => (W.getD r []).getD j 0 := by
  obtain ⟨hc, s, hr⟩ := coreOk_after c c' fl hs hb hp hist
  rw [core_after_append]
  have hpos : 0 < c'.numMvmusPerCore := Nat.pos_of_mul_pos_left hp
  have h := loads_from _ fl s hr ((0, W) :: others) (by
    rw [hc]
    intro w hw
    rcases List.mem_cons.1 hw with rfl | hw
    · exact ⟨hpos, hW⟩
    · exact (ho w hw).2)
  refine ⟨_, h.1.trans hc, h.2, ?_⟩
  unfold CoreState.loadAll
  rw [loadAll_other _ _ _ fun w hw => (ho w hw).1]
  rfl

theorem mvmTest_value (k : Core) (fl : FloatActs) (s : CoreState) (h : CoreRefines k s) (he : Electrical k.config.mvmuConfig)
    (lat dlat : Nat) (hlat : Latencies k.config.mvmuConfig lat dlat) (x : List I32)
    (hx : x.length = k.config.mvmuConfig.xbarSize) (noise : Nat → Noise) :
    mvmTest k x noise = .ok
      ((List.range k.config.mvmuConfig.xbarSize).map fun r =>
        ((registerValue (paramsOf k.config.mvmuConfig k.config.dataConfig) (s.units 0).weights (errorsOf fun _ => noise)
          (x.map BitVec.toInt) r / 2 ^ k.config.dataConfig.weightFracBits : Int) : ℚ) / 2 ^ 8,
       (List.range k.config.mvmuConfig.xbarSize).map fun r =>
        (registerValue (paramsOf k.config.mvmuConfig k.config.dataConfig) (s.units 0).weights (errorsOf fun _ => noise)
          (x.map BitVec.toInt) r : ℚ) / 2 ^ 16) := by
  set S := k.config.mvmuConfig.xbarSize with hS
  set N := k.config.numMvmusPerCore with hN
  have hprod : 0 < S * N := h.pos
  have hSpos : 0 < S := Nat.pos_of_mul_pos_right hprod
  have hNpos : 0 < N := Nat.pos_of_mul_pos_left hprod
  have hpar : ∀ k' : Core, k'.config = k.config → k'.params fl = k.params fl := fun k' e => params_config _ _ fl e
  -- the write
  have hx0 : x ≠ [] := by intro h0; rw [h0] at hx; simp at hx; omega
  have w := (core_write k fl s h 0 x hx0).1
  have pl : (k.params fl).place 0 (x.map BitVec.toInt).length = some (.input 0 0) := by
    have := place_input (k.params fl) 0 (x.map BitVec.toInt).length 0 (by rw [List.length_map]; omega) hNpos (by
      unfold inside
      rw [List.length_map, hx]
      show ((0 * S : Nat) : Int) ≤ 0 ∧ (0 : Int) + S ≤ ((0 * S + S : Nat) : Int)
      simp)
    simpa using this
  unfold CoreParams.write at w
  rw [pl] at w
  obtain ⟨a1, a2, a3⟩ := w
  unfold mvmTest
  generalize hk1 : k.writeToRegister 0 x = r1 at a1 a2 a3
  obtain ⟨b1, k1⟩ := r1
  simp only at a1 a2 a3
  subst a1
  simp only
  -- the product
  have m := core_mvmOne k1 fl _ a3 (by rw [a2]; exact he) lat dlat (by rw [a2]; exact hlat) 0 (fun i => (noise i).pos) (fun i => (noise i).neg)
  rw [hpar k1 a2, if_pos ⟨le_refl _, by exact_mod_cast hNpos⟩] at m
  obtain ⟨c1, c2, c3⟩ := m
  generalize hk2 : k1.mvmOne 0 noise = r2
  have hk2' : (k1.mvmOne 0 fun n => { pos := (noise n).pos, neg := (noise n).neg }) = r2 := hk2
  rw [hk2'] at c1 c2 c3
  obtain ⟨b2, k2⟩ := r2
  simp only at c1 c2 c3
  subst c1
  have e2 : k2.config = k.config := c2.trans a2
  simp only [e2]
  -- the registers after the product
  generalize hs2 : ({ units := _, cache := _ } : CoreState) = s2 at c3
  have hval : ∀ r, (s2.units 0).outputs r = registerValue (paramsOf k.config.mvmuConfig k.config.dataConfig) (s.units 0).weights
      (errorsOf fun _ => noise) (x.map BitVec.toInt) r := by
    intro r
    rw [← hs2]
    show wrap32 _ = wrap32 _
    congr 1
    refine analog_mvmValue_congr _ _ _ _ _ _ _ _ _ _ ?_ r
    intro j hj
    show (if 0 ≤ j ∧ j < 0 + (x.map BitVec.toInt).length then wrap32 ((x.map BitVec.toInt).getD (j - 0) 0) else _) = _
    rw [if_pos ⟨Nat.zero_le _, by rw [List.length_map, hx, Nat.zero_add]; exact hj⟩, Nat.sub_zero, getD_map_toInt, wrap32_toInt]
  -- the read
  have rd := core_read k2 fl s2 c3 (N * S) S hSpos
  rw [hpar k2 e2] at rd
  obtain ⟨d1, d2, d3, -⟩ := rd
  have po : (k.params fl).place ((N : Int) * S) S = some (.output 0 0) := by
    have := place_output (k.params fl) ((N : Int) * S) S 0 hSpos hNpos (by
      unfold inside
      show (((N + 0) * S : Nat) : Int) ≤ N * S ∧ (N * S : Int) + S ≤ (((N + 0) * S + S : Nat) : Int)
      push_cast
      simp)
    simpa [show (k.params fl).num = N from rfl, show (k.params fl).unit.size = S from rfl] using this
  unfold CoreParams.read at d1
  rw [po] at d1
  generalize hk3 : k2.readFromRegister (N * S) S = r3 at d1 d2 d3
  obtain ⟨b3, k3⟩ := r3
  simp only at d1 d2 d3
  cases b3 with
  | error e => cases d1
  | ok out =>
    injection d1 with d1
    replace d1 : out.map BitVec.toInt = _ := d1
    simp only
    have e3 : k3.config = k.config := d2.trans e2
    have hl3 : 0 < k3.mvmus.length := by rw [d3.len, e3]; exact hNpos
    have hg : k3.getMvmu 0 = .ok k3.mvmus[0] := by
      unfold Core.getMvmu
      rw [if_neg (by omega)]
      simp [List.getElem?_eq_getElem hl3]
    rw [hg]
    simp only
    obtain ⟨u1, u2, u3⟩ := d3.units 0 _ (List.getElem?_eq_getElem hl3)
    congr 2
    · have : out.map (fun v => (v.toInt : ℚ) / 2 ^ 8) = (out.map BitVec.toInt).map fun v : Int => (v : ℚ) / 2 ^ 8 := by
        rw [List.map_map]; rfl
      rw [this, d1, List.map_map]
      apply List.map_congr_left
      intro r _
      simp only [Function.comp_apply, Nat.zero_add]
      rw [hval]
      rfl
    · apply List.ext_getElem
      · rw [List.length_map, List.length_map, List.length_range, u3.stores.ok.outLen, u1, e3]
      · intro r h1 h2
        rw [List.length_map, List.length_range] at h2
        rw [List.getElem_map, List.getElem_map, List.getElem_range, ← hval r, u3.out r (by rw [u1, e3]; exact h2)]
        rw [List.getD_eq_getElem?_getD, List.getElem?_eq_getElem (by simpa using h1)]
        rfl

/-! ## Rounding of weights -/

theorem roundedWeight_multiple (n : Int) : roundedWeight 8 ((n : ℚ) / 256) = (n : ℚ) / 256 := by
  have h1 : |(n : ℚ) / 256| * 2 ^ 8 = ((|n| : Int) : ℚ) := by
    rw [abs_div, Int.cast_abs, abs_of_pos (by norm_num : (0 : ℚ) < 256)]
    norm_num
  unfold roundedWeight fixedWeight magnitude
  rw [h1, roundHalfEven_intCast]
  have h2 : sgn ((n : ℚ) / 256) * ((|n|.toNat : Nat) : Int) = n := by
    rw [Int.toNat_of_nonneg (abs_nonneg n)]
    unfold sgn
    rcases lt_trichotomy n 0 with h | h | h
    · have h' : (n : ℚ) < 0 := by exact_mod_cast h
      rw [if_neg (by linarith), if_pos (by linarith), abs_of_neg h]
      omega
    · subst h; simp
    · have h' : (0 : ℚ) < n := by exact_mod_cast h
      rw [if_pos (by linarith), abs_of_pos h, one_mul]
  rw [h2]
  norm_num

theorem roundHalfEven_half (q : ℚ) (h0 : 0 ≤ q) (h1 : q ≤ 1 / 2) : roundHalfEven q = 0 := by
  have hf : ⌊q⌋ = 0 := Int.floor_eq_zero_iff.2 ⟨h0, by linarith⟩
  unfold roundHalfEven
  simp only [hf, Int.cast_zero, sub_zero]
  rcases lt_or_eq_of_le h1 with h | h
  · rw [if_pos h]
  · rw [if_neg (by linarith), if_neg (by linarith), if_pos (by norm_num)]

theorem roundedWeight_small (w : ℚ) (h : |w| ≤ 1 / 512) : roundedWeight 8 w = 0 := by
  unfold roundedWeight fixedWeight magnitude
  rw [roundHalfEven_half _ (by positivity) (by linarith)]
  simp

/-! ## Constant rows -/

theorem partialSum_constant {st : List BitConfig} {frac size : Nat} {W : Nat → Nat → ℚ} {x : Nat → Int} {r : Nat} {w : ℚ} {v : Int}
    (hW : ∀ j < size, W r j = w) (hx : ∀ j < size, x j = v) (k i : Nat) :
    partialSum st frac size 1 W x k i r = size * (sgn w * level st frac w k * inputSlice 1 i v) := by
  unfold partialSum
  rw [Finset.sum_congr rfl (fun j hj => by rw [hW j (Finset.mem_range.1 hj), hx j (Finset.mem_range.1 hj)]), Finset.sum_const,
    Finset.card_range, nsmul_eq_mul]

end Ramwich
