import Verif.Lemmas.MvmRun
import Mathlib.Tactic.IntervalCases

/-! # The numbers held by the crossbars of a unit, read off their cells -/
namespace Ramwich

open Spec

/-- Signed number represented by a pair of conductances when one step is `unit` and level 0 is
`gmin`. -/
def signedLevel (gmin unit pos neg : ℚ) : ℚ := ((pos - neg) - sgn (pos - neg) * gmin) / unit

/-- Position of crossbar `k` among the digital ones. -/
def sramRank (st : List BitConfig) (k : Nat) : Nat :=
  ((List.range k).filter fun k => !isRram st k).length

/-- Entry of a three-dimensional array. -/
def cell3 {α : Type} (a : List (List (List α))) (k r j : Nat) (d : α) : α :=
  ((a.getD k []).getD r []).getD j d

/-- Number that crossbar `k` of a unit holds at row `r`, column `j`, read off its cells. -/
def heldCell (c : Config) (m : Mvmu) (k r j : Nat) : ℚ :=
  let st := c.dataConfig.storageConfig
  if isRram st k then
    signedLevel c.mvmuConfig.conductanceMin
      ((c.mvmuConfig.conductanceMax - c.mvmuConfig.conductanceMin) / (2 ^ bitsOf st k - 1))
      (cell3 m.rram.posXbar (rramRank st k) r j 0) (cell3 m.rram.negXbar (rramRank st k) r j 0)
  else
    ((cell3 m.sram.posXbar (sramRank st k) r j 0).toInt -
      (cell3 m.sram.negXbar (sramRank st k) r j 0).toInt : Int)

theorem filter_rank (p : Nat → Bool) (n k : Nat) (hk : k < n) (hp : p k = true) :
    ((List.range n).filter p)[((List.range k).filter p).length]? = some k := by
  obtain ⟨d, rfl⟩ : ∃ d, n = k + (1 + d) := ⟨n - k - 1, by omega⟩
  rw [List.range_add, List.filter_append, List.getElem?_append_right le_rfl, Nat.sub_self,
    List.range_add]
  simp [hp]

theorem cell3_rank {α : Type} (p : Nat → Bool) (n k : Nat) (hk : k < n) (hp : p k = true)
    (size : Nat) (f : Nat → Nat → Nat → α) (r j : Nat) (hr : r < size) (hj : j < size) (d : α) :
    cell3 (((List.range n).filter p).map fun k => matOf size (f k))
      ((List.range k).filter p).length r j d = f k r j := by
  unfold cell3
  have h1 : (((List.range n).filter p).map fun k => matOf size (f k)).getD
      ((List.range k).filter p).length [] = matOf size (f k) := by
    rw [List.getD_eq_getElem?_getD, List.getElem?_map, filter_rank p n k hk hp]
    rfl
  rw [h1]
  unfold matOf
  rw [getD_range_map _ _ _ _ hr, getD_range_map _ _ _ _ hj]

theorem sgn_mul_pos (w q : ℚ) (hq : 0 < q) : sgn (sgn w * q) = sgn w := by
  rcases sgn_cases w with ⟨-, e⟩ | ⟨-, e⟩ | ⟨-, e⟩ <;> rw [e]
  · simp [sgn, hq]
  · simp [sgn]
  · simp [sgn, hq, not_lt.2 hq.le]

theorem max_sub_max_neg (q : ℚ) : max q 0 - max (-q) 0 = q := by
  rcases le_total q 0 with h | h
  · rw [max_eq_right h, max_eq_left (by linarith)]; ring
  · rw [max_eq_left h, max_eq_right (by linarith)]; ring

theorem heldCell_eq (c c' : Config) (hs : Simulable c) (h : c.build = .ok c') (m : Mvmu)
    (W : Nat → Nat → ℚ) (hc : m.cfg = c'.mvmuConfig) (hd : m.data = c.dataConfig) (hst : Stores m W)
    (k r j : Nat) (hk : k < c.dataConfig.storageConfig.length)
    (hr : r < c.mvmuConfig.xbarSize) (hj : j < c.mvmuConfig.xbarSize) :
    heldCell c m k r j
      = (sgn (W r j) * level c.dataConfig.storageConfig c.dataConfig.weightFracBits (W r j) k : Int) := by
  obtain ⟨f1, f2, f3, f4, f5, f6, f7, f8, f9⟩ := build_fields c c' h
  have hsz : m.cfg.xbarSize = c.mvmuConfig.xbarSize := by rw [hc, f2]
  unfold heldCell
  simp only
  split
  · rename_i hkr
    have e1 : cell3 m.rram.posXbar (rramRank c.dataConfig.storageConfig k) r j 0
        = max (rramCell m W k r j) 0 := by
      rw [hst.rpos, hd]
      exact cell3_rank (isRram c.dataConfig.storageConfig) _ k hk hkr _ _ r j
        (by rw [hsz]; exact hr) (by rw [hsz]; exact hj) 0
    have e2 : cell3 m.rram.negXbar (rramRank c.dataConfig.storageConfig k) r j 0
        = max (-rramCell m W k r j) 0 := by
      rw [hst.rneg, hd]
      exact cell3_rank (isRram c.dataConfig.storageConfig) _ k hk hkr _ _ r j
        (by rw [hsz]; exact hr) (by rw [hsz]; exact hj) 0
    unfold signedLevel
    rw [e1, e2, max_sub_max_neg]
    unfold rramCell conductance
    rw [hc, hd, f6, f7]
    set u := (c.mvmuConfig.conductanceMax - c.mvmuConfig.conductanceMin) /
      (2 ^ bitsOf c.dataConfig.storageConfig k - 1) with hu
    have hup : 0 < u := by
      apply div_pos
      · have := hs.gminLt; linarith
      · exact maxValue_pos _ (bitsOf_pos _ _).ne'
    have hg := hs.gminNonneg
    rcases (add_nonneg hg (mul_nonneg (Nat.cast_nonneg (α := ℚ)
        (level c.dataConfig.storageConfig c.dataConfig.weightFracBits (W r j) k)) hup.le)).eq_or_lt
      with h0 | h0
    · rw [← h0]
      have hl : (level c.dataConfig.storageConfig c.dataConfig.weightFracBits (W r j) k : ℚ) = 0 := by
        have := mul_nonneg (Nat.cast_nonneg (α := ℚ)
          (level c.dataConfig.storageConfig c.dataConfig.weightFracBits (W r j) k)) hup.le
        have h3 : (level c.dataConfig.storageConfig c.dataConfig.weightFracBits (W r j) k : ℚ) * u = 0 := by
          linarith
        rcases mul_eq_zero.1 h3 with h4 | h4
        · exact h4
        · linarith
      push_cast
      rw [hl]
      simp [sgn]
    · rw [sgn_mul_pos _ _ h0]
      push_cast
      field_simp
      ring
  · rename_i hkr
    have hkr' : (!isRram c.dataConfig.storageConfig k) = true := by simpa using hkr
    have e1 : cell3 m.sram.posXbar (sramRank c.dataConfig.storageConfig k) r j 0
        = if sramCell m W k r j = 1 then 1 else 0 := by
      rw [hst.spos, hd]
      exact cell3_rank (fun k => !isRram c.dataConfig.storageConfig k) _ k hk hkr' _ _ r j
        (by rw [hsz]; exact hr) (by rw [hsz]; exact hj) 0
    have e2 : cell3 m.sram.negXbar (sramRank c.dataConfig.storageConfig k) r j 0
        = if sramCell m W k r j = -1 then 1 else 0 := by
      rw [hst.sneg, hd]
      exact cell3_rank (fun k => !isRram c.dataConfig.storageConfig k) _ k hk hkr' _ _ r j
        (by rw [hsz]; exact hr) (by rw [hsz]; exact hj) 0
    rw [e1, e2]
    unfold sramCell
    rw [hd]
    have hlt : level c.dataConfig.storageConfig c.dataConfig.weightFracBits (W r j) k < 2 := by
      have hb : bitsOf c.dataConfig.storageConfig k = 1 := by
        have : c.dataConfig.storageConfig.getD k .sram = .sram := by
          simpa [isRram] using hkr
        rw [bitsOf, this]; rfl
      have := Nat.mod_lt (magnitude c.dataConfig.weightFracBits (W r j) /
        2 ^ slicePos c.dataConfig.storageConfig k)
        (show 0 < 2 ^ bitsOf c.dataConfig.storageConfig k by positivity)
      rw [hb] at this
      unfold level
      rw [hb]
      simpa using this
    generalize level c.dataConfig.storageConfig c.dataConfig.weightFracBits (W r j) k = l at hlt ⊢
    interval_cases l <;> rcases sgn_cases (W r j) with ⟨-, e⟩ | ⟨-, e⟩ | ⟨-, e⟩ <;> rw [e] <;> decide

theorem step_weights (p : UnitParams) (s : UnitState) (op : UnitOp) (h : ∀ W, op ≠ .load W) :
    (p.step s op).2.weights = s.weights := by
  cases op with
  | load W => exact absurd rfl (h W)
  | write a v => simp only [UnitParams.step]; split <;> rfl
  | mvm a b => rfl
  | read a b => simp only [UnitParams.step]; split; · rfl
                split <;> rfl
  | reset => simp only [UnitParams.step]; split <;> rfl

theorem exec_weights (p : UnitParams) (s : UnitState) (ops : List UnitOp)
    (h : ∀ op ∈ ops, ∀ W, op ≠ .load W) : (p.exec s ops).weights = s.weights := by
  induction ops generalizing s with
  | nil => rfl
  | cons op ops ih =>
    simp only [UnitParams.exec, List.foldl_cons]
    have := ih (p.step s op).2 (fun o ho => h o (List.mem_cons_of_mem _ ho))
    simp only [UnitParams.exec] at this
    rw [this, step_weights p s op (h op List.mem_cons_self)]

/-- The cells of every crossbar after loading `W` and then using the unit in any way. -/
theorem heldCell_after (c c' : Config) (hs : Simulable c) (h : c.build = .ok c')
    (W : List (List ℚ))
    (hW : W.length = c.mvmuConfig.xbarSize ∧ ∀ row ∈ W, row.length = c.mvmuConfig.xbarSize)
    (before after : List UnitOp) (hafter : ∀ op ∈ after, ∀ W, op ≠ .load W)
    (k r j : Nat) (hk : k < c.dataConfig.storageConfig.length)
    (hr : r < c.mvmuConfig.xbarSize) (hj : j < c.mvmuConfig.xbarSize) :
    heldCell c ((Mvmu.new c').exec (before ++ [.load W] ++ after)) k r j
      = (sgn ((W.getD r []).getD j 0) *
        level c.dataConfig.storageConfig c.dataConfig.weightFracBits ((W.getD r []).getD j 0) k
          : Int) := by
  obtain ⟨-, hc, hd, hR⟩ := refines_built c c' hs h (before ++ [.load W] ++ after)
  have hw : ((paramsOf c.mvmuConfig c.dataConfig).exec {} (before ++ [.load W] ++ after)).weights
      = fun r j => (W.getD r []).getD j 0 := by
    rw [exec_append, exec_weights _ _ _ hafter, exec_append]
    have h1 : ∀ s, (paramsOf c.mvmuConfig c.dataConfig).step s (.load W)
        = (.ok [], { s with weights := fun r j => (W.getD r []).getD j 0 }) := fun s => if_pos hW
    simp only [UnitParams.exec, List.foldl_cons, List.foldl_nil, h1]
  have hst := hR.stores
  rw [hw] at hst
  exact heldCell_eq c c' hs h _ _ hc hd hst k r j hk hr hj

/-- Bits per cell of the analog crossbars, in order. -/
def analogBits (st : List BitConfig) : List Nat :=
  (st.filter fun b => decide (b ≠ .sram)).map cellBits

theorem analogBits_eq (st : List BitConfig) : (rramIdx st).map (bitsOf st) = analogBits st := by
  have h1 : st = (List.range st.length).map fun k => st.getD k .sram := list_eq_range_map st .sram
  unfold analogBits
  conv => rhs; rw [h1]
  rw [List.filter_map, List.map_map]
  rfl

/-- Current that one unit makes in a `b`-bit cell at one voltage step. -/
def stepOf (c : Config) (b : Nat) : ℚ :=
  c.mvmuConfig.vdd / (2 ^ c.mvmuConfig.dacResolution - 1) *
    ((c.mvmuConfig.conductanceMax - c.mvmuConfig.conductanceMin) / (2 ^ b - 1))

end Ramwich
