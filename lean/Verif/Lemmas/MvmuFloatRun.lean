import Verif.Lemmas.MvmuFloatSim

/-! # Histories of calls on a unit in float64 -/
namespace Ramwich

open Spec

/-- The bounds under which float64 rounding cannot move a reading to another integer; sums have depth at most `D`. -/
structure FloatSafe (c : MVMUConfig) (st : List BitConfig) (D : Nat) : Prop where
  gmin : c.conductanceMin = 0
  noise : c.hasNoise = false
  small : ∀ k ∈ rramIdx st, c.xbarSize * (2 ^ bitsOf st k - 1) * (2 ^ c.dacResolution - 1) * (D + 12) < 2 ^ 51

/-- Every sum adds each of `n` products once, through at most `D` roundings. -/
def Plans.Ok (p : Plans) (n D : Nat) : Prop :=
  ∀ i k r, (p.pos i k r).Covers n ∧ (p.pos i k r).depth ≤ D ∧ (p.neg i k r).Covers n ∧ (p.neg i k r).depth ≤ D

/-- Float64 contents of the positive analog cells. -/
def cellsPos (m : Mvmu) (W : Nat → Nat → ℚ) : List (List (List ℚ)) :=
  (rramIdx m.data.storageConfig).map fun k => matOf m.cfg.xbarSize fun r j => max (rramCellF m W k r j) 0

/-- Float64 contents of the negative analog cells. -/
def cellsNeg (m : Mvmu) (W : Nat → Nat → ℚ) : List (List (List ℚ)) :=
  (rramIdx m.data.storageConfig).map fun k => matOf m.cfg.xbarSize fun r j => max (-rramCellF m W k r j) 0

theorem conductance_zero (c : MVMUConfig) (hg : c.conductanceMin = 0) (b : Nat) : conductance c b 0 = 0 := by
  simp [conductance, hg]

theorem level_lt (st : List BitConfig) (frac : Nat) (w : ℚ) (k : Nat) : level st frac w k < 2 ^ bitsOf st k := by
  unfold level; exact Nat.mod_lt _ (by positivity)

theorem same_readings (m : Mvmu) (he : Electrical m.cfg) (W : Nat → Nat → ℚ) (D : Nat)
    (hs : FloatSafe m.cfg m.data.storageConfig D) (plans : Plans) (hp : plans.Ok m.cfg.xbarSize D)
    (noise : Noise) (i : Nat) (X : Nat → I32) :
    SameReadings m.cfg m.data.storageConfig
      (lineCurrent m.cfg m.data.storageConfig (fun k r j => max (rramCell m W k r j) 0) noise.pos X)
      (lineCurrent m.cfg m.data.storageConfig (fun k r j => max (-rramCell m W k r j) 0) noise.neg X)
      (lineCurrentF m.cfg (plans.pos i) m.data.storageConfig (fun k r j => max (rramCellF m W k r j) 0) X)
      (lineCurrentF m.cfg (plans.neg i) m.data.storageConfig (fun k r j => max (-rramCellF m W k r j) 0) X) := by
  intro k hk r hr
  have hb := bitsOf_pos m.data.storageConfig k
  obtain ⟨p1, p2, p3, p4⟩ := hp i (rramRank m.data.storageConfig k) r
  unfold adcIntF adcInt
  rw [line_round m.cfg he hs.gmin hs.noise (plans.pos i) m.data.storageConfig
      (fun k r j => max (rramCell m W k r j) 0) (fun k r j => max (rramCellF m W k r j) 0)
      (fun j => if 0 < W r j then level m.data.storageConfig m.data.weightFracBits (W r j) k else 0)
      noise.pos X k r D hb ?_ ?_ (fun j => (cell_near m he W k r j).1) p1 p2 (hs.small k hk),
    line_round m.cfg he hs.gmin hs.noise (plans.neg i) m.data.storageConfig
      (fun k r j => max (-rramCell m W k r j) 0) (fun k r j => max (-rramCellF m W k r j) 0)
      (fun j => if W r j < 0 then level m.data.storageConfig m.data.weightFracBits (W r j) k else 0)
      noise.neg X k r D hb ?_ ?_ (fun j => (cell_near m he W k r j).2) p3 p4 (hs.small k hk)]
  · intro j
    beta_reduce
    rw [negCell m he]
    split_ifs
    · rfl
    · rw [conductance_zero _ hs.gmin]
  · intro j
    beta_reduce
    split_ifs
    · exact level_lt _ _ _ _
    · positivity
  · intro j
    beta_reduce
    rw [posCell m he]
    split_ifs
    · rfl
    · rw [conductance_zero _ hs.gmin]
  · intro j
    beta_reduce
    split_ifs
    · exact level_lt _ _ _ _
    · positivity

/-- `execute_mvm` in float64 follows the exact one. -/
theorem executeMvm_floatOf (m : Mvmu) (W : Nat → Nat → ℚ) (hst : Stores m W) (he : Electrical m.cfg)
    (lat dlat : Nat) (hlat : Latencies m.cfg lat dlat) (D : Nat)
    (hs : FloatSafe m.cfg m.data.storageConfig D) (plans : Plans) (hp : plans.Ok m.cfg.xbarSize D)
    (noise : Nat → Noise) (e : ℚ) :
    (m.floatOf (cellsPos m W) (cellsNeg m W) e).executeMvmF noise plans
      = (m.executeMvm noise).map (Mvmu.floatOf (cellsPos m W) (cellsNeg m W) e) := by
  have hm := hst.ok
  set P := cellsPos m W with hP
  set N := cellsNeg m W with hN
  unfold Mvmu.executeMvm Mvmu.executeMvmF
  have hc : (m.floatOf P N e).cfg = m.cfg := rfl
  have hi : (m.floatOf P N e).numIterations = m.numIterations := rfl
  rw [hc, hi, if_neg he.res, if_neg (by have := he.res'; omega), if_neg he.res,
    if_neg (by have := he.res'; omega)]
  set m0 : Mvmu := { m with outreg := m.outreg.cleanCells } with hm0
  have hok : MvmuOk m0 :=
    ⟨hm.layout, hm.inSize, hm.inLen, hm.outSize, by simp [m0, OutReg.cleanCells, hm.outLen],
      hm.rramPos, hm.rramNeg, hm.sramPos, hm.sramNeg⟩
  have hX : m.inreg.registers = vecOf m.cfg.xbarSize fun j => m.inreg.registers.getD j 0 := by
    have := list_eq_range_map m.inreg.registers 0
    rw [hm.inLen] at this
    exact this
  obtain ⟨s, h1, h2, -⟩ := foldlM_image (Mvmu.sliceStep noise) (Mvmu.sliceStepF noise plans)
    (Mvmu.floatOf P N e)
    (fun i s => ∃ X R ov er, s = exState m0 X R i (i * m.cfg.numColumnsPerAdc) lat dlat ov er)
    m.numIterations m0
    (by
      refine ⟨fun j => m.inreg.registers.getD j 0, fun _ => BitVec.ofInt 32 0,
        m.adcStats.overflowTimes, m.adcStats.conversionErrors, ?_⟩
      simp only [m0, exState, OutReg.cleanCells, hm.outLen, MemoryStats.plus, MemoryStats.addWrite,
        Nat.zero_mul, Nat.add_zero, Nat.cast_zero, zero_mul, add_zero, ite_self]
      simp only [← hX]
      have hr : List.replicate m.cfg.xbarSize (0 : I32)
          = vecOf m.cfg.xbarSize fun _ => BitVec.ofInt 32 0 := by
        simp [vecOf]
      rw [hr])
    (by
      rintro i s hi ⟨X, R, ov, er, rfl⟩
      obtain ⟨ov', er', h⟩ := sliceStep_eq m0 hok lat dlat hlat.adc hlat.dac _ _ _ _
        hst.rpos hst.rneg hst.spos hst.sneg noise X R i (i * m.cfg.numColumnsPerAdc) ov er
      have hf := sliceStep_floatOf P N e m0 hok lat dlat hs.noise hlat.adc hlat.dac _ _
        (fun k r j => max (rramCellF m W k r j) 0) (fun k r j => max (-rramCellF m W k r j) 0) _ _
        hst.rpos hst.rneg hst.spos hst.sneg hP hN noise plans X R i (i * m.cfg.numColumnsPerAdc) ov er
        (same_readings m he W D hs plans hp (noise i) i X)
      have e1 : (i + 1) * m.cfg.numColumnsPerAdc
          = i * m.cfg.numColumnsPerAdc + m.cfg.numColumnsPerAdc := by ring
      rw [e1]
      refine ⟨_, h, ?_, _, _, _, _, rfl⟩
      rw [hf, h]; rfl)
  rw [h1]
  exact h2

/-! ## Loading -/

theorem floatToFixedF_eq (w : ℚ) (n : Nat) (h : f64 w = w) : floatToFixedF |w| n = floatToFixed |w| n := by
  unfold floatToFixedF floatToFixed
  have := f64_scale |w| (n : ℤ)
  rw [zpow_natCast] at this
  rw [this, f64_abs, h]

theorem loadStepF_eq (m : Mvmu) (hl : Layout m.cfg m.data.storageConfig) (W : Nat → Nat → ℚ)
    (acc : LoadAcc) (k : Nat) (hk : k < m.data.storageConfig.length) :
    m.loadStepF (matOf m.cfg.xbarSize fun r j => npSign (W r j))
      (matOf m.cfg.xbarSize fun r j => (floatToFixed |W r j| m.data.weightFracBits).toNat) acc k
    = .ok (if isRram m.data.storageConfig k then
        { acc with
          rram := acc.rram.set acc.rramIdx (matOf m.cfg.xbarSize (rramCellF m W k))
          rramIdx := acc.rramIdx + 1 }
      else
        { acc with
          sram := acc.sram.set acc.sramIdx (matOf m.cfg.xbarSize (sramCell m W k))
          sramIdx := acc.sramIdx + 1 }) := by
  have hb := bitsOf_pos m.data.storageConfig k
  unfold Mvmu.loadStepF
  rw [hl.storedBit, hl.isXbarRram, hl.bitsPerCell, getD_range_map _ _ _ _ (by omega),
    getD_range_map _ _ _ _ (by omega), getD_range_map _ _ _ _ hk, getD_range_map _ _ _ _ hk,
    slicePos_succ _ _ hk]
  rw [vectorize_ok _ _ (fun v => v / 2 ^ slicePos m.data.storageConfig k
      % 2 ^ bitsOf m.data.storageConfig k)
    (fun r _ a _ => extractBits_eq a _ _ hb)]
  have hmap : ((matOf m.cfg.xbarSize fun r j =>
      (floatToFixed |W r j| m.data.weightFracBits).toNat).map fun r => r.map fun v =>
        v / 2 ^ slicePos m.data.storageConfig k % 2 ^ bitsOf m.data.storageConfig k)
      = matOf m.cfg.xbarSize fun r j =>
          level m.data.storageConfig m.data.weightFracBits (W r j) k := by
    rw [matOf_map]
    rfl
  simp only [bind, Except.bind]
  rw [hmap]
  cases hr : isRram m.data.storageConfig k with
  | true =>
    simp only [if_true]
    rw [vectorize_ok _ _ (conductanceF m.cfg (bitsOf m.data.storageConfig k))]
    · simp only [matOf, List.map_map, zipWith_range_map, Function.comp_def]
      rfl
    · intro r hr a ha
      simp only [matOf, List.mem_map, List.mem_range] at hr
      obtain ⟨i, _, rfl⟩ := hr
      simp only [List.mem_map, List.mem_range] at ha
      obtain ⟨j, _, rfl⟩ := ha
      exact intToConductanceF_eq _ _ _ hb (level_lt _ _ _ _)
  | false =>
    simp only [matOf, zipWith_range_map]
    rfl

theorem loadWeights_floatOf (m : Mvmu) (hm : MvmuOk m) (P N : List (List (List ℚ))) (e : ℚ)
    (hP : shape3 P m.cfg.numRramXbarPerMvmu m.cfg.xbarSize m.cfg.xbarSize = true)
    (hN : shape3 N m.cfg.numRramXbarPerMvmu m.cfg.xbarSize m.cfg.xbarSize = true) (w : List (List ℚ))
    (hf : ∀ row ∈ w, ∀ x ∈ row, f64 x = x) :
    (m.floatOf P N e).loadWeightsF w
      = (m.loadWeights w).map (Mvmu.floatOf (cellsPos m (entry w)) (cellsNeg m (entry w)) e) := by
  set mf := m.floatOf P N e with hmf
  have hmok : MvmuOk mf := ⟨hm.layout, hm.inSize, hm.inLen, hm.outSize, hm.outLen, hP, hN, hm.sramPos, hm.sramNeg⟩
  have hl := hm.layout
  by_cases hw : shape2 w m.cfg.xbarSize m.cfg.xbarSize = true
  · rw [loadWeights_eq m hm w hw]
    have hcan := shape2_canonical w _ _ (0 : ℚ) hw
    have hs : w.map (fun r => r.map npSign)
        = matOf m.cfg.xbarSize fun r j => npSign (entry w r j) := by
      conv => lhs; rw [hcan]
      exact matOf_map _ _ _
    have hi : w.map (fun r => r.map fun w => (floatToFixedF |w| m.data.weightFracBits).toNat)
        = matOf m.cfg.xbarSize fun r j =>
            (floatToFixed |entry w r j| m.data.weightFracBits).toNat := by
      have : w.map (fun r => r.map fun w => (floatToFixedF |w| m.data.weightFracBits).toNat)
          = w.map (fun r => r.map fun w => (floatToFixed |w| m.data.weightFracBits).toNat) := by
        apply List.map_congr_left
        intro row hrow
        apply List.map_congr_left
        intro x hx
        rw [floatToFixedF_eq _ _ (hf row hrow x hx)]
      rw [this]
      conv => lhs; rw [hcan]
      exact matOf_map _ _ _
    unfold Mvmu.loadWeightsF
    have hc : mf.cfg = m.cfg := rfl
    have hd : mf.data = m.data := rfl
    rw [hc, hd, if_neg (by simpa using hw)]
    simp only
    rw [hs, hi]
    obtain ⟨acc, hacc, hr, hsr⟩ := loadLoop_of mf hl _ (rramCellF mf (entry w)) (sramCell mf (entry w))
      (loadStepF_eq mf hl (entry w))
    have hacc' := hacc
    simp only [hc, hd] at hacc'
    rw [hacc']
    simp only [bind, Except.bind]
    rw [loadRram_of mf hmok _ _ hr, loadSram_of mf hmok _ _ hsr]
    rfl
  · have h1 : m.loadWeights w = .error .valueError := if_pos hw
    have h2 : mf.loadWeightsF w = .error .valueError := if_pos hw
    rw [h1, h2]; rfl

/-! ## Calls -/

theorem call_floatOf (m : Mvmu) (P N : List (List (List ℚ))) (e : ℚ) (op : UnitOp)
    (h1 : ∀ w, op ≠ .load w) (h2 : ∀ ep en, op ≠ .mvm ep en) :
    ∃ e', (m.floatOf P N e).call op = ((m.call op).1, (m.call op).2.floatOf P N e') := by
  cases op with
  | load w => exact absurd rfl (h1 w)
  | mvm ep en => exact absurd rfl (h2 ep en)
  | write start values =>
    refine ⟨e, ?_⟩
    simp only [Mvmu.call, Mvmu.writeToInreg]
    have : (m.floatOf P N e).inreg = m.inreg := rfl
    rw [this]
    rcases m.inreg.write (values.map (BitVec.ofInt 32)) start with _ | r <;> rfl
  | read start length =>
    refine ⟨e, ?_⟩
    simp only [Mvmu.call, Mvmu.readFromOutreg]
    by_cases hc : start < 0 ∧ 0 < length
    · rw [if_pos hc, if_pos hc]; rfl
    · rw [if_neg hc, if_neg hc]
      have : (m.floatOf P N e).outreg = m.outreg := rfl
      rw [this]
      simp only [bind, Except.bind]
      rcases m.outreg.read ((List.range length.toNat).map fun i => start.toNat + i) with _ | r <;> rfl
  | reset =>
    by_cases hr : m.cfg.haveRramXbar = true
    · refine ⟨0, ?_⟩
      simp only [Mvmu.call, Mvmu.reset]
      have : (m.floatOf P N e).cfg = m.cfg := rfl
      rw [this, if_neg (by simpa using hr), if_neg (by simpa using hr)]
      rfl
    · refine ⟨e, ?_⟩
      simp only [Mvmu.call, Mvmu.reset]
      have : (m.floatOf P N e).cfg = m.cfg := rfl
      rw [this, if_pos (by simpa using hr), if_pos (by simpa using hr)]
      rfl

theorem step_weights (p : UnitParams) (s : UnitState) (op : UnitOp) (h1 : ∀ w, op ≠ .load w) :
    (p.step s op).2.weights = s.weights := by
  cases op with
  | load w => exact absurd rfl (h1 w)
  | mvm ep en => rfl
  | write start values => simp only [UnitParams.step]; split_ifs <;> rfl
  | read start length => simp only [UnitParams.step]; split_ifs <;> rfl
  | reset => simp only [UnitParams.step]; split_ifs <;> rfl

/-- The weights handed over in a call are float64 numbers. -/
def FloatArgs : UnitOp → Prop
  | .load w => ∀ row ∈ w, ∀ x ∈ row, f64 x = x
  | _ => True

theorem cellsPos_shape (m : Mvmu) (hm : MvmuOk m) (W : Nat → Nat → ℚ) :
    shape3 (cellsPos m W) m.cfg.numRramXbarPerMvmu m.cfg.xbarSize m.cfg.xbarSize = true := by
  rw [hm.layout.numRram]; exact shape3_map _ _ _ _

theorem cellsNeg_shape (m : Mvmu) (hm : MvmuOk m) (W : Nat → Nat → ℚ) :
    shape3 (cellsNeg m W) m.cfg.numRramXbarPerMvmu m.cfg.xbarSize m.cfg.xbarSize = true := by
  rw [hm.layout.numRram]; exact shape3_map _ _ _ _

theorem cells_congr (m m' : Mvmu) (W : Nat → Nat → ℚ) (hc : m'.cfg = m.cfg) (hd : m'.data = m.data) :
    cellsPos m' W = cellsPos m W ∧ cellsNeg m' W = cellsNeg m W := by
  simp only [cellsPos, cellsNeg, rramCellF, hc, hd, and_self]

/-- `mf` is the float64 unit that goes with the exact unit `m`. -/
def FloatImage (m : Mvmu) (s : UnitState) (mf : Mvmu) : Prop :=
  ∃ e, mf = m.floatOf (cellsPos m s.weights) (cellsNeg m s.weights) e

theorem image_call (m : Mvmu) (s : UnitState) (hr : Refines m s) (he : Electrical m.cfg)
    (lat dlat : Nat) (hlat : Latencies m.cfg lat dlat) (D : Nat)
    (hs : FloatSafe m.cfg m.data.storageConfig D) (mf : Mvmu) (hi : FloatImage m s mf)
    (op : UnitOp) (plans : Plans) (hp : plans.Ok m.cfg.xbarSize D) (hop : FloatArgs op) :
    (mf.callF plans op).1 = (m.call op).1 ∧
    FloatImage (m.call op).2 ((paramsOf m.cfg m.data).step s op).2 (mf.callF plans op).2 := by
  obtain ⟨a1, a2, a3, a4⟩ := refines_call m s hr he lat dlat hlat op
  obtain ⟨e, rfl⟩ := hi
  have hc := fun W => cells_congr m (m.call op).2 W a2 a3
  unfold FloatImage
  simp only [(hc _).1, (hc _).2]
  by_cases hl : ∃ w, op = .load w
  · obtain ⟨w, rfl⟩ := hl
    have h := loadWeights_floatOf m hr.stores.ok _ _ e (cellsPos_shape m hr.stores.ok s.weights)
      (cellsNeg_shape m hr.stores.ok s.weights) w hop
    by_cases hw : shape2 w m.cfg.xbarSize m.cfg.xbarSize = true
    · have hcond := (shape2_iff w _ _).1 hw
      have hstep : (paramsOf m.cfg m.data).step s (.load w)
          = (.ok [], { s with weights := entry w }) := if_pos hcond
      obtain ⟨m', h1, -⟩ := stores_load m hr.stores.ok w hw
      simp only [Mvmu.callF, Mvmu.call, h, h1, Except.map, keep, hstep]
      exact ⟨trivial, e, rfl⟩
    · have hcond : ¬ (w.length = m.cfg.xbarSize ∧ ∀ row ∈ w, row.length = m.cfg.xbarSize) :=
        fun hc => hw ((shape2_iff w _ _).2 hc)
      have hstep : (paramsOf m.cfg m.data).step s (.load w) = (.error .valueError, s) := if_neg hcond
      have h1 : m.loadWeights w = .error .valueError := if_pos hw
      simp only [Mvmu.callF, Mvmu.call, h, h1, Except.map, keep, hstep]
      exact ⟨trivial, e, rfl⟩
  · have hl' : ∀ w, op ≠ .load w := fun w hw => hl ⟨w, hw⟩
    rw [step_weights _ _ _ hl']
    by_cases hmv : ∃ ep en, op = .mvm ep en
    · obtain ⟨ep, en, rfl⟩ := hmv
      have h := executeMvm_floatOf m s.weights hr.stores he lat dlat hlat D hs plans hp
        (fun i => { pos := ep i, neg := en i }) e
      simp only [Mvmu.callF, Mvmu.call, h]
      rcases m.executeMvm fun i => { pos := ep i, neg := en i } with _ | m'
      · exact ⟨rfl, e, rfl⟩
      · exact ⟨rfl, e, rfl⟩
    · have hmv' : ∀ ep en, op ≠ .mvm ep en := fun ep en h => hmv ⟨ep, en, h⟩
      obtain ⟨e', h⟩ := call_floatOf m (cellsPos m s.weights) (cellsNeg m s.weights) e op hl' hmv'
      have hcF : (m.floatOf (cellsPos m s.weights) (cellsNeg m s.weights) e).callF plans op
          = (m.floatOf (cellsPos m s.weights) (cellsNeg m s.weights) e).call op := by
        cases op with
        | load w => exact absurd rfl (hl' w)
        | mvm ep en => exact absurd rfl (hmv' ep en)
        | _ => rfl
      rw [hcF, h]
      exact ⟨rfl, e', rfl⟩

theorem image_run (m : Mvmu) (s : UnitState) (hr : Refines m s) (he : Electrical m.cfg)
    (lat dlat : Nat) (hlat : Latencies m.cfg lat dlat) (D : Nat)
    (hs : FloatSafe m.cfg m.data.storageConfig D) (mf : Mvmu) (hi : FloatImage m s mf)
    (ops : List (UnitOp × Plans)) (hp : ∀ op ∈ ops, op.2.Ok m.cfg.xbarSize D ∧ FloatArgs op.1) :
    mf.runF ops = m.run (ops.map Prod.fst) ∧
    FloatImage (m.exec (ops.map Prod.fst)) ((paramsOf m.cfg m.data).exec s (ops.map Prod.fst)) (mf.execF ops) := by
  induction ops generalizing m s mf with
  | nil => exact ⟨rfl, hi⟩
  | cons op ops ih =>
    have hop := hp op (by simp)
    obtain ⟨h1, h2⟩ := image_call m s hr he lat dlat hlat D hs mf hi op.1 op.2 hop.1 hop.2
    obtain ⟨a1, a2, a3, a4⟩ := refines_call m s hr he lat dlat hlat op.1
    have := ih (m.call op.1).2 _ a4 (by rw [a2]; exact he) (by rw [a2]; exact hlat) (by rw [a2, a3]; exact hs)
      _ h2 (fun o ho => by rw [a2]; exact hp o (List.mem_cons_of_mem _ ho))
    rw [a2, a3] at this
    refine ⟨?_, this.2⟩
    simp only [Mvmu.runF, List.map_cons, Mvmu.run]
    rw [h1, this.1]

theorem image_new (c c' : Config) (h : c.build = .ok c')
    (h1 : c.mvmuConfig.haveRramXbar = false) (h2 : c.mvmuConfig.haveSramXbar = false) :
    FloatImage (Mvmu.new c') {} (Mvmu.new c') := by
  have hr := (refines_new c c' h h1 h2).stores
  refine ⟨0, ?_⟩
  have hz : ∀ k r j, rramCellF (Mvmu.new c') (fun _ _ => 0) k r j = rramCell (Mvmu.new c') (fun _ _ => 0) k r j := by
    intro k r j; simp [rramCellF, rramCell, sgn, f64_zero]
  have e1 : cellsPos (Mvmu.new c') (fun _ _ => 0) = (Mvmu.new c').rram.posXbar := by
    rw [hr.rpos]; simp only [cellsPos, hz]
  have e2 : cellsNeg (Mvmu.new c') (fun _ _ => 0) = (Mvmu.new c').rram.negXbar := by
    rw [hr.rneg]; simp only [cellsNeg, hz]
  show _ = Mvmu.floatOf (cellsPos (Mvmu.new c') (fun _ _ => 0)) (cellsNeg (Mvmu.new c') (fun _ _ => 0)) 0 _
  rw [e1, e2]
  rfl

end Ramwich
