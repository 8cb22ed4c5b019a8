import Verif.Lemmas.FileNode
import Verif.Lemmas.HeldCells
import Verif.Spec.LoadTest

/-! # The cells after loading a file of weights -/
namespace Ramwich

open Spec

/-- The weights after the arrays of a unit: the last matrix of its size. -/
def lastWeights (n : Nat) (l : List NpzArray) (W : Nat → Nat → ℚ) : Nat → Nat → ℚ :=
  match (l.filterMap (squareOf n)).getLast? with
  | some rows => fun r j => (rows.getD r []).getD j 0
  | none => W

theorem stores_loads (l : List NpzArray) : ∀ (u : Mvmu) (W : Nat → Nat → ℚ), Stores u W →
    Stores (l.foldl loadOr u) (lastWeights u.cfg.xbarSize l W) ∧ (l.foldl loadOr u).cfg = u.cfg ∧
      (l.foldl loadOr u).data = u.data := by
  induction l with
  | nil => exact fun u W h => ⟨h, rfl, rfl⟩
  | cons x l ih =>
    intro u W h
    rw [List.foldl_cons]
    cases hx : squareOf u.cfg.xbarSize x with
    | none =>
      rw [loadOr_square u x hx]
      have := ih u W h
      unfold lastWeights at this ⊢
      rw [List.filterMap_cons_none hx]
      exact this
    | some rows =>
      cases x with
      | other => cases hx
      | matrix rows' =>
        simp only [squareOf] at hx
        split at hx
        case isFalse => cases hx
        case isTrue hs =>
        cases hx
        obtain ⟨u', hl, hst, hc, hd, -, -⟩ := stores_load u h.ok rows ((shape2_iff _ _ _).2 hs)
        have e : loadOr u (.matrix rows) = u' := by simp [loadOr, hl]
        rw [e]
        obtain ⟨h1, h2, h3⟩ := ih u' _ hst
        refine ⟨?_, h2.trans hc, h3.trans hd⟩
        rw [hc] at h1
        have e2 : lastWeights u.cfg.xbarSize (.matrix rows :: l) W = lastWeights u.cfg.xbarSize l (entry rows) := by
          unfold lastWeights
          have : squareOf u.cfg.xbarSize (.matrix rows) = some rows := if_pos hs
          rw [List.filterMap_cons_some this, List.getLast?_cons]
          cases (l.filterMap (squareOf u.cfg.xbarSize)).getLast? with
          | none => rfl
          | some y => rfl
        rw [e2]
        exact h1

theorem rank_sub (st : List BitConfig) (k : Nat) : k - rramRank st k = sramRank st k := by
  unfold rramRank sramRank
  have : ∀ l : List Nat, (l.filter (isRram st)).length + (l.filter fun k => !isRram st k).length = l.length := by
    intro l
    induction l with
    | nil => rfl
    | cons a l ih => by_cases h : isRram st a <;> simp [h] <;> omega
  have := this (List.range k)
  rw [List.length_range] at this
  omega

theorem cellsHold_of (c c' : Config) (hs : Simulable c) (h : c.build = .ok c') (m : Mvmu)
    (W : Nat → Nat → ℚ) (hc : m.cfg = c'.mvmuConfig) (hd : m.data = c.dataConfig) (hst : Stores m W) :
    cellsHold c m W := by
  obtain ⟨f1, f2, f3, f4, f5, f6, f7, f8, f9⟩ := build_fields c c' h
  have hsz : m.cfg.xbarSize = c.mvmuConfig.xbarSize := by rw [hc, f2]
  have hcell : ∀ k r j, rramCell m W k r j = sgn (W r j) * cellConductance c k (W r j) := by
    intro k r j
    unfold rramCell conductance cellConductance
    rw [hc, hd, f6, f7]
  have hpos : ∀ k w, 0 ≤ cellConductance c k w := by
    intro k w
    unfold cellConductance
    refine add_nonneg hs.gminNonneg (mul_nonneg (Nat.cast_nonneg _) (div_nonneg ?_ ?_))
    · have := hs.gminLt; linarith
    · exact (maxValue_pos _ (bitsOf_pos _ _).ne').le
  refine ⟨?_, ?_, ?_, ?_⟩
  · intro k hk hkr r hr j hj
    have e1 : cellAt m.rram.posXbar (rramRank c.dataConfig.storageConfig k) r j
        = max (rramCell m W k r j) 0 := by
      rw [hst.rpos, hd]
      exact cell3_rank (isRram c.dataConfig.storageConfig) _ k hk hkr _ _ r j
        (by rw [hsz]; exact hr) (by rw [hsz]; exact hj) 0
    rw [e1, hcell]
    have := hpos k (W r j)
    rcases sgn_cases (W r j) with ⟨h0, e⟩ | ⟨h0, e⟩ | ⟨h0, e⟩ <;> rw [e]
    · simp [h0, this]
    · simp [h0]
    · simp [not_lt.2 h0.le, this]
  · intro k hk hkr r hr j hj
    have e1 : cellAt m.rram.negXbar (rramRank c.dataConfig.storageConfig k) r j
        = max (-rramCell m W k r j) 0 := by
      rw [hst.rneg, hd]
      exact cell3_rank (isRram c.dataConfig.storageConfig) _ k hk hkr _ _ r j
        (by rw [hsz]; exact hr) (by rw [hsz]; exact hj) 0
    rw [e1, hcell]
    have := hpos k (W r j)
    rcases sgn_cases (W r j) with ⟨h0, e⟩ | ⟨h0, e⟩ | ⟨h0, e⟩ <;> rw [e]
    · simp [not_lt.2 h0.le, this]
    · simp [h0]
    · simp [h0, this]
  · intro k hk hkr r hr j hj
    have e1 : cellAt m.sram.posXbar (k - rramRank c.dataConfig.storageConfig k) r j
        = if sramCell m W k r j = 1 then 1 else 0 := by
      rw [hst.spos, hd, rank_sub]
      exact cell3_rank (fun k => !isRram c.dataConfig.storageConfig k) _ k hk (by simp [hkr]) _ _ r j
        (by rw [hsz]; exact hr) (by rw [hsz]; exact hj) 0
    rw [e1]
    unfold sramCell
    rw [hd]
    generalize level c.dataConfig.storageConfig c.dataConfig.weightFracBits (W r j) k = v
    congr 1
    rcases sgn_cases (W r j) with ⟨h0, e⟩ | ⟨h0, e⟩ | ⟨h0, e⟩ <;> rw [e]
    · simp [h0]
    · simp [h0]
    · simp [not_lt.2 h0.le]; omega
  · intro k hk hkr r hr j hj
    have e1 : cellAt m.sram.negXbar (k - rramRank c.dataConfig.storageConfig k) r j
        = if sramCell m W k r j = -1 then 1 else 0 := by
      rw [hst.sneg, hd, rank_sub]
      exact cell3_rank (fun k => !isRram c.dataConfig.storageConfig k) _ k hk (by simp [hkr]) _ _ r j
        (by rw [hsz]; exact hr) (by rw [hsz]; exact hj) 0
    rw [e1]
    unfold sramCell
    rw [hd]
    generalize level c.dataConfig.storageConfig c.dataConfig.weightFracBits (W r j) k = v
    congr 1
    rcases sgn_cases (W r j) with ⟨h0, e⟩ | ⟨h0, e⟩ | ⟨h0, e⟩ <;> rw [e]
    · simp [not_lt.2 h0.le]
    · simp [h0]
    · simp [h0]

end Ramwich
