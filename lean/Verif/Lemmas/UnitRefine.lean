import Verif.Model.MvmuApi
import Verif.Lemmas.MvmValue

/-! # Every call on a matrix-vector unit agrees with the abstract unit -/
namespace Ramwich

open Spec

theorem getD_append {α : Type} (xs ys : List α) (i : Nat) (d : α) :
    (xs ++ ys).getD i d = if i < xs.length then xs.getD i d else ys.getD (i - xs.length) d := by
  simp only [List.getD_eq_getElem?_getD, List.getElem?_append]
  split <;> rfl

theorem getD_take {α : Type} (xs : List α) (n i : Nat) (d : α) :
    (xs.take n).getD i d = if i < n then xs.getD i d else d := by
  simp only [List.getD_eq_getElem?_getD, List.getElem?_take]
  split <;> simp

theorem getD_drop {α : Type} (xs : List α) (n i : Nat) (d : α) :
    (xs.drop n).getD i d = xs.getD (n + i) d := by
  simp only [List.getD_eq_getElem?_getD, List.getElem?_drop]

theorem getD_replicate_zero {α : Type} (n i : Nat) (d : α) : (List.replicate n d).getD i d = d := by
  rw [List.getD_eq_getElem?_getD, List.getElem?_replicate]
  split <;> rfl

theorem pySliceSet_length {α : Type} (xs ys : List α) (n : Nat) (h : n + ys.length ≤ xs.length) :
    (pySliceSet xs n ys).length = xs.length := by
  simp [pySliceSet]; omega

theorem pySliceSet_getD {α : Type} (xs ys : List α) (n i : Nat) (d : α)
    (h : n + ys.length ≤ xs.length) :
    (pySliceSet xs n ys).getD i d
      = if n ≤ i ∧ i < n + ys.length then ys.getD (i - n) d else xs.getD i d := by
  unfold pySliceSet
  rw [getD_append, getD_append, getD_take, getD_drop]
  simp only [List.length_append, List.length_take]
  have hm : min n xs.length = n := by omega
  rw [hm]
  by_cases h1 : i < n
  · have a : i < n + ys.length := by omega
    have b : ¬ (n ≤ i ∧ i < n + ys.length) := by omega
    simp [h1, a]
  · by_cases h2 : i < n + ys.length
    · have b : (n ≤ i ∧ i < n + ys.length) := by omega
      simp [h1, h2, b]
    · have b : ¬ (n ≤ i ∧ i < n + ys.length) := by omega
      rw [if_neg h2, if_neg b]
      congr 1
      omega

/-- The converters have table entries for their resolution (needed only with analog crossbars). -/
structure Latencies (c : MVMUConfig) (lat dlat : Nat) : Prop where
  adc : c.haveRramXbar = true → c.adcLat = some lat
  dac : c.haveRramXbar = true → c.dacLat = some dlat

structure Refines (m : Mvmu) (s : UnitState) : Prop where
  stores : Stores m s.weights
  inp : ∀ j, j < m.cfg.xbarSize → s.inputs j = (m.inreg.registers.getD j 0).toInt
  out : ∀ r, r < m.cfg.xbarSize → s.outputs r = (m.outreg.registers.getD r 0).toInt

theorem stores_load (m : Mvmu) (hm : MvmuOk m) (w : List (List ℚ))
    (hw : shape2 w m.cfg.xbarSize m.cfg.xbarSize = true) :
    ∃ m', m.loadWeights w = .ok m' ∧ Stores m' (entry w) ∧ m'.cfg = m.cfg ∧ m'.data = m.data ∧
      m'.inreg = m.inreg ∧ m'.outreg = m.outreg := by
  refine ⟨_, loadWeights_eq m hm w hw, ⟨⟨hm.layout, hm.inSize, hm.inLen, hm.outSize, hm.outLen,
    ?_, ?_, ?_, ?_⟩, rfl, rfl, rfl, rfl⟩, rfl, rfl, rfl, rfl⟩
  · simp only [hm.layout.numRram]; exact shape3_map _ _ _ _
  · simp only [hm.layout.numRram]; exact shape3_map _ _ _ _
  · simp only [hm.layout.numSram]; exact shape3_map _ _ _ _
  · simp only [hm.layout.numSram]; exact shape3_map _ _ _ _

theorem posSum_congr (a : Analog) (st : List BitConfig) (frac size res : Nat) (W : Nat → Nat → ℚ)
    (x y : Nat → Int) (h : ∀ j, j < size → x j = y j) (k i r : Nat) :
    a.posSum st frac size res W x k i r = a.posSum st frac size res W y k i r := by
  unfold Analog.posSum
  apply Finset.sum_congr rfl
  intro j hj
  rw [h j (Finset.mem_range.1 hj)]

theorem negSum_congr (a : Analog) (st : List BitConfig) (frac size res : Nat) (W : Nat → Nat → ℚ)
    (x y : Nat → Int) (h : ∀ j, j < size → x j = y j) (k i r : Nat) :
    a.negSum st frac size res W x k i r = a.negSum st frac size res W y k i r := by
  unfold Analog.negSum
  apply Finset.sum_congr rfl
  intro j hj
  rw [h j (Finset.mem_range.1 hj)]

theorem partialSum_congr (st : List BitConfig) (frac size res : Nat) (W : Nat → Nat → ℚ)
    (x y : Nat → Int) (h : ∀ j, j < size → x j = y j) (k i r : Nat) :
    partialSum st frac size res W x k i r = partialSum st frac size res W y k i r := by
  unfold partialSum
  apply Finset.sum_congr rfl
  intro j hj
  rw [h j (Finset.mem_range.1 hj)]

theorem analog_mvmValue_congr (a : Analog) (st : List BitConfig) (frac size res aw adc : Nat)
    (W : Nat → Nat → ℚ) (x y : Nat → Int) (h : ∀ j, j < size → x j = y j) (r : Nat) :
    a.mvmValue st frac size res aw adc W x r = a.mvmValue st frac size res aw adc W y r := by
  unfold Analog.mvmValue Analog.column
  simp only [posSum_congr a st frac size res W x y h, negSum_congr a st frac size res W x y h,
    partialSum_congr st frac size res W x y h]

theorem toInt_ofInt32 (v : Int) : (BitVec.ofInt 32 v).toInt = wrap32 v := by
  rw [BitVec.toInt_ofInt]; rfl

/-- `execute_mvm` on a unit that stores `W`. -/
theorem executeMvm_value (m : Mvmu) (W : Nat → Nat → ℚ) (hs : Stores m W) (he : Electrical m.cfg)
    (lat dlat : Nat) (hlat : Latencies m.cfg lat dlat) (noise : Nat → Noise) :
    ∃ ov er, m.executeMvm noise = .ok (exState { m with outreg := m.outreg.cleanCells }
      (fun j => (m.inreg.registers.getD j 0).sshiftRight (m.cfg.dacResolution * m.numIterations))
      (fun r => BitVec.ofInt 32 ((analogOf m.cfg noise).mvmValue m.data.storageConfig
        m.data.weightFracBits m.cfg.xbarSize m.cfg.dacResolution m.data.activationWidth
        m.cfg.adcResolution W (fun j => (m.inreg.registers.getD j 0).toInt) r))
      m.numIterations (m.numIterations * m.cfg.numColumnsPerAdc) lat dlat ov er) := by
  have hX : m.inreg.registers = vecOf m.cfg.xbarSize fun j => m.inreg.registers.getD j 0 := by
    have := list_eq_range_map m.inreg.registers 0
    rw [hs.ok.inLen] at this
    exact this
  obtain ⟨ov, er, h⟩ := executeMvm_eq m hs.ok lat dlat he.res he.res' hlat.adc hlat.dac
    _ _ _ _ hs.rpos hs.rneg hs.spos hs.sneg _ hX noise
  refine ⟨ov, er, ?_⟩
  rw [h]
  congr 2
  funext r
  exact registers_value m he W noise _ r

theorem refines_mvm (m : Mvmu) (s : UnitState) (h : Refines m s) (he : Electrical m.cfg)
    (lat dlat : Nat) (hlat : Latencies m.cfg lat dlat)
    (ep en : Nat → Nat → Nat → Nat → ℚ) :
    ∃ m', m.executeMvm (fun i => { pos := ep i, neg := en i }) = .ok m' ∧
      m'.cfg = m.cfg ∧ m'.data = m.data ∧
      Refines m' ((paramsOf m.cfg m.data).step s (.mvm ep en)).2 := by
  obtain ⟨ov, er, hex⟩ := executeMvm_value m s.weights h.stores he lat dlat hlat
    (fun i => { pos := ep i, neg := en i })
  refine ⟨_, hex, rfl, rfl, ⟨⟨?_, ?_, ?_, ?_, ?_⟩, ?_, ?_⟩⟩
  · apply exState_ok
    exact ⟨h.stores.ok.layout, h.stores.ok.inSize, h.stores.ok.inLen, h.stores.ok.outSize,
      by simp [OutReg.cleanCells, h.stores.ok.outLen], h.stores.ok.rramPos, h.stores.ok.rramNeg,
      h.stores.ok.sramPos, h.stores.ok.sramNeg⟩
  · exact h.stores.rpos
  · exact h.stores.rneg
  · exact h.stores.spos
  · exact h.stores.sneg
  · intro j hj
    have hj' : j < m.cfg.xbarSize := hj
    simp only [UnitParams.step, exState, vecOf]
    rw [getD_range_map _ _ _ _ hj', h.inp j hj', BitVec.toInt_sshiftRight,
      Int.shiftRight_eq_div_pow]
    simp only [paramsOf, Mvmu.numIterations, numSlices]
    norm_cast
  · intro r hr
    have hr' : r < m.cfg.xbarSize := hr
    simp only [UnitParams.step, exState, vecOf]
    rw [getD_range_map _ _ _ _ hr', toInt_ofInt32]
    exact congrArg wrap32 (analog_mvmValue_congr _ _ _ _ _ _ _ _ _ _ h.inp r)

/-- The result of a call and of the abstract step agree. -/
def Agree (m : Mvmu) (a : Except PyErr (List Int) × Mvmu) (b : Except PyErr (List Int) × UnitState) :
    Prop :=
  a.1 = b.1 ∧ a.2.cfg = m.cfg ∧ a.2.data = m.data ∧ Refines a.2 b.2

theorem agree_load (m : Mvmu) (s : UnitState) (h : Refines m s) (w : List (List ℚ)) :
    Agree m (m.call (.load w)) ((paramsOf m.cfg m.data).step s (.load w)) := by
  by_cases hw : shape2 w m.cfg.xbarSize m.cfg.xbarSize = true
  · obtain ⟨m', hl, hst, hc, hd, hi, ho⟩ := stores_load m h.stores.ok w hw
    have hcond := (shape2_iff w _ _).1 hw
    have hstep : (paramsOf m.cfg m.data).step s (.load w)
        = (.ok [], { s with weights := entry w }) := if_pos hcond
    have hcall : m.call (.load w) = (.ok [], m') := by
      simp only [Mvmu.call, hl, Except.map, keep]
    rw [hstep, hcall]
    refine ⟨rfl, hc, hd, ⟨hst, ?_, ?_⟩⟩
    · intro j hj; dsimp only at hj ⊢; rw [hi]; rw [hc] at hj; exact h.inp j hj
    · intro r hr; dsimp only at hr ⊢; rw [ho]; rw [hc] at hr; exact h.out r hr
  · have hcond : ¬ (w.length = m.cfg.xbarSize ∧ ∀ row ∈ w, row.length = m.cfg.xbarSize) :=
      fun hc => hw ((shape2_iff w _ _).2 hc)
    have hstep : (paramsOf m.cfg m.data).step s (.load w) = (.error .valueError, s) :=
      if_neg hcond
    have hl : m.loadWeights w = .error .valueError := if_pos hw
    have hcall : m.call (.load w) = (.error .valueError, m) := by
      simp only [Mvmu.call, hl, Except.map, keep]
    rw [hstep, hcall]
    exact ⟨rfl, rfl, rfl, h⟩

theorem agree_write (m : Mvmu) (s : UnitState) (h : Refines m s) (start : Int) (values : List Int) :
    Agree m (m.call (.write start values))
      ((paramsOf m.cfg m.data).step s (.write start values)) := by
  by_cases hc : 0 ≤ start ∧ start + values.length ≤ m.cfg.xbarSize
  · have hstep : (paramsOf m.cfg m.data).step s (.write start values)
        = (.ok [], { s with
            inputs := fun j =>
              if start ≤ j ∧ (j : Int) < start + values.length then
                wrap32 (values.getD (j - start.toNat) 0)
              else s.inputs j }) := if_pos hc
    set ir : InReg := { m.inreg with
      registers := pySliceSet m.inreg.registers start.toNat (values.map (BitVec.ofInt 32))
      stats := m.inreg.stats.addWrite 1 ((values.map (BitVec.ofInt 32)).length : Int) } with hir
    have hw : m.inreg.write (values.map (BitVec.ofInt 32)) start = .ok ir :=
      if_neg (by rw [List.length_map, h.stores.ok.inSize]; omega)
    have hcall : m.call (.write start values) = (.ok [], { m with inreg := ir }) := by
      simp only [Mvmu.call, Mvmu.writeToInreg, hw, bind, Except.bind, Except.map, keep]
    rw [hstep, hcall]
    have hle : start.toNat + (values.map (BitVec.ofInt 32)).length ≤ m.inreg.registers.length := by
      rw [h.stores.ok.inLen, List.length_map]; omega
    refine ⟨rfl, rfl, rfl, ⟨⟨⟨h.stores.ok.layout, h.stores.ok.inSize, ?_, h.stores.ok.outSize,
      h.stores.ok.outLen, h.stores.ok.rramPos, h.stores.ok.rramNeg, h.stores.ok.sramPos,
      h.stores.ok.sramNeg⟩, h.stores.rpos, h.stores.rneg, h.stores.spos, h.stores.sneg⟩, ?_,
      h.out⟩⟩
    · dsimp only [ir]
      rw [pySliceSet_length _ _ _ hle]; exact h.stores.ok.inLen
    · intro j hj
      have hj' : j < m.cfg.xbarSize := hj
      dsimp only [ir]
      rw [pySliceSet_getD _ _ _ _ _ hle, List.length_map]
      by_cases hin : start ≤ j ∧ (j : Int) < start + values.length
      · rw [if_pos hin, if_pos (by omega)]
        have hlt : j - start.toNat < values.length := by omega
        rw [List.getD_eq_getElem?_getD, List.getD_eq_getElem?_getD, List.getElem?_map,
          List.getElem?_eq_getElem hlt]
        exact (toInt_ofInt32 _).symm
      · rw [if_neg hin, if_neg (by omega)]
        exact h.inp j hj'
  · have hstep : (paramsOf m.cfg m.data).step s (.write start values)
        = (.error .indexError, s) := if_neg hc
    have hw : m.inreg.write (values.map (BitVec.ofInt 32)) start = .error .indexError :=
      if_pos (by rw [List.length_map, h.stores.ok.inSize]; omega)
    have hcall : m.call (.write start values) = (.error .indexError, m) := by
      simp only [Mvmu.call, Mvmu.writeToInreg, hw, bind, Except.bind, Except.map, keep]
    rw [hstep, hcall]
    exact ⟨rfl, rfl, rfl, h⟩

theorem refines_outreg (m : Mvmu) (s : UnitState) (h : Refines m s) (st : MemoryStats) :
    Refines { m with outreg := { m.outreg with stats := st } } s :=
  ⟨⟨⟨h.stores.ok.layout, h.stores.ok.inSize, h.stores.ok.inLen, h.stores.ok.outSize,
    h.stores.ok.outLen, h.stores.ok.rramPos, h.stores.ok.rramNeg, h.stores.ok.sramPos,
    h.stores.ok.sramNeg⟩, h.stores.rpos, h.stores.rneg, h.stores.spos, h.stores.sneg⟩, h.inp, h.out⟩

theorem agree_read (m : Mvmu) (s : UnitState) (h : Refines m s) (start length : Int) :
    Agree m (m.call (.read start length))
      ((paramsOf m.cfg m.data).step s (.read start length)) := by
  set idx := (List.range length.toNat).map fun i => start.toNat + i with hidx
  have hok : (hge : ¬ (start < 0 ∧ 0 < length)) → (idx.any fun i => decide (i ≥ m.outreg.size)) = false →
      m.call (.read start length) = (.ok (((List.range length.toNat).map fun i =>
          ((m.outreg.registers.getD (start.toNat + i) 0).sshiftRight m.data.weightFracBits).toInt)),
        { m with outreg := { m.outreg with stats := m.outreg.stats.addRead 1 idx.length } }) := by
    intro hge hany
    simp only [Mvmu.call, Mvmu.readFromOutreg]
    rw [if_neg hge, ← hidx]
    simp only [OutReg.read, hany, Bool.false_eq_true, if_false, bind, Except.bind, keep, gather]
    simp only [hidx, List.map_map, Function.comp_def]
  by_cases hlen : length ≤ 0
  · have hstep : (paramsOf m.cfg m.data).step s (.read start length) = (.ok [], s) := if_pos hlen
    have h0 : length.toNat = 0 := by omega
    rw [hstep, hok (by omega) (by simp [hidx, h0])]
    simp only [h0, List.range_zero, List.map_nil]
    exact ⟨rfl, rfl, rfl, refines_outreg m s h _⟩
  · by_cases hc : 0 ≤ start ∧ start + length ≤ m.cfg.xbarSize
    · have hstep : (paramsOf m.cfg m.data).step s (.read start length)
          = (.ok ((List.range length.toNat).map fun i =>
              s.outputs (start.toNat + i) / 2 ^ m.data.weightFracBits), s) :=
        (if_neg hlen).trans (if_pos hc)
      rw [hstep, hok (by omega) ?_]
      · refine ⟨?_, rfl, rfl, refines_outreg m s h _⟩
        dsimp only
        congr 1
        apply List.map_congr_left
        intro a ha
        rw [List.mem_range] at ha
        rw [h.out _ (by omega), BitVec.toInt_sshiftRight, Int.shiftRight_eq_div_pow]
        norm_cast
      · rw [List.any_eq_false]
        intro x hx
        simp only [hidx, List.mem_map, List.mem_range] at hx
        obtain ⟨a, ha, rfl⟩ := hx
        simp only [decide_eq_true_eq, ge_iff_le, h.stores.ok.outSize]
        omega
    · have hstep : (paramsOf m.cfg m.data).step s (.read start length)
          = (.error .valueError, s) := (if_neg hlen).trans (if_neg hc)
      have hcall : m.call (.read start length) = (.error .valueError, m) := by
        simp only [Mvmu.call, Mvmu.readFromOutreg]
        by_cases hs0 : start < 0
        · rw [if_pos (by omega)]; rfl
        · rw [if_neg (by omega), ← hidx]
          have hany : (idx.any fun i => decide (i ≥ m.outreg.size)) = true := by
            rw [List.any_eq_true]
            refine ⟨start.toNat + (length.toNat - 1), ?_, ?_⟩
            · simp only [hidx, List.mem_map, List.mem_range]
              exact ⟨length.toNat - 1, by omega, rfl⟩
            · simp only [decide_eq_true_eq, ge_iff_le, h.stores.ok.outSize]
              omega
          simp only [OutReg.read, hany, if_true, bind, Except.bind, keep]
      rw [hstep, hcall]
      exact ⟨rfl, rfl, rfl, h⟩

theorem haveRram_iff (m : Mvmu) (hm : MvmuOk m) :
    m.cfg.haveRramXbar = true ↔ ∃ b ∈ m.data.storageConfig, b ≠ .sram := by
  rw [hm.layout.haveRram]
  constructor
  · intro hne
    obtain ⟨k, hk⟩ := List.exists_mem_of_ne_nil _ hne
    simp only [rramIdx, List.mem_filter, List.mem_range, isRram, decide_eq_true_eq] at hk
    refine ⟨_, List.getElem_mem hk.1, ?_⟩
    have := hk.2
    rwa [List.getD_eq_getElem?_getD, List.getElem?_eq_getElem hk.1] at this
  · rintro ⟨b, hb, hne⟩ hnil
    obtain ⟨k, hk, rfl⟩ := List.getElem_of_mem hb
    have : k ∈ rramIdx m.data.storageConfig := by
      simp only [rramIdx, List.mem_filter, List.mem_range, isRram, decide_eq_true_eq]
      refine ⟨hk, ?_⟩
      rw [List.getD_eq_getElem?_getD, List.getElem?_eq_getElem hk]
      exact hne
    rw [hnil] at this
    simp at this

theorem agree_reset (m : Mvmu) (s : UnitState) (h : Refines m s) :
    Agree m (m.call .reset) ((paramsOf m.cfg m.data).step s .reset) := by
  have hiff := haveRram_iff m h.stores.ok
  by_cases hr : m.cfg.haveRramXbar = true
  · have hstep : (paramsOf m.cfg m.data).step s .reset
        = (.ok [], { s with inputs := fun _ => 0, outputs := fun _ => 0 }) := if_pos (hiff.1 hr)
    have hres : m.reset = .ok _ := if_neg (by simpa using hr)
    have hcall := congrArg (fun r => keep m (fun _ : Unit => []) (r.map fun m => ((), m))) hres
    simp only [Except.map, keep] at hcall
    rw [hstep, show m.call .reset = _ from hcall]
    refine ⟨rfl, rfl, rfl, ⟨⟨⟨h.stores.ok.layout, h.stores.ok.inSize, ?_,
      h.stores.ok.outSize, ?_, h.stores.ok.rramPos, h.stores.ok.rramNeg,
      h.stores.ok.sramPos, h.stores.ok.sramNeg⟩, h.stores.rpos, h.stores.rneg, h.stores.spos,
      h.stores.sneg⟩, ?_, ?_⟩⟩
    · simp [InReg.reset, h.stores.ok.inLen]
    · simp [OutReg.reset, h.stores.ok.outLen]
    · intro j _
      simp only [InReg.reset, getD_replicate_zero]; rfl
    · intro j _
      simp only [OutReg.reset, getD_replicate_zero]; rfl
  · have hstep : (paramsOf m.cfg m.data).step s .reset
        = (.error .attributeError, s) := if_neg (fun hc => hr (hiff.2 hc))
    have hres : m.reset = .error .attributeError := if_pos (by simpa using hr)
    have hcall : m.call .reset = (.error .attributeError, m) := by
      simp only [Mvmu.call, hres, Except.map, keep]
    rw [hstep, hcall]
    exact ⟨rfl, rfl, rfl, h⟩

/-- One call. -/
theorem refines_call (m : Mvmu) (s : UnitState) (h : Refines m s) (he : Electrical m.cfg)
    (lat dlat : Nat) (hlat : Latencies m.cfg lat dlat) (op : UnitOp) :
    Agree m (m.call op) ((paramsOf m.cfg m.data).step s op) := by
  cases op with
  | load w => exact agree_load m s h w
  | write start values => exact agree_write m s h start values
  | mvm ep en =>
    obtain ⟨m', hm', hc, hd, hr⟩ := refines_mvm m s h he lat dlat hlat ep en
    have hcall : m.call (.mvm ep en) = (.ok [], m') := by
      simp only [Mvmu.call, hm', Except.map, keep]
    rw [hcall]
    exact ⟨rfl, hc, hd, hr⟩
  | read start length => exact agree_read m s h start length
  | reset => exact agree_reset m s h

/-- Any sequence of calls. -/
theorem refines_run (m : Mvmu) (s : UnitState) (h : Refines m s) (he : Electrical m.cfg)
    (lat dlat : Nat) (hlat : Latencies m.cfg lat dlat) (ops : List UnitOp) :
    m.run ops = (paramsOf m.cfg m.data).run s ops ∧
    (m.exec ops).cfg = m.cfg ∧ (m.exec ops).data = m.data ∧
    Refines (m.exec ops) ((paramsOf m.cfg m.data).exec s ops) := by
  induction ops generalizing m s with
  | nil => exact ⟨rfl, rfl, rfl, h⟩
  | cons op ops ih =>
    obtain ⟨h1, h2, h3, h4⟩ := refines_call m s h he lat dlat hlat op
    have := ih (m.call op).2 _ h4 (by rw [h2]; exact he) (by rw [h2]; exact hlat)
    rw [h2, h3] at this
    refine ⟨?_, this.2⟩
    simp only [Mvmu.run, UnitParams.run]
    rw [h1, this.1]

/-- A freshly built unit stores the zero matrix. -/
theorem refines_new (c c' : Config) (h : c.build = .ok c')
    (h1 : c.mvmuConfig.haveRramXbar = false) (h2 : c.mvmuConfig.haveSramXbar = false) :
    Refines (Mvmu.new c') {} := by
  have hm := mvmuOk_new c c' h h1 h2
  have hz : ∀ {α : Type} [Zero α] (n : Nat) (l : List Nat) (f : Nat → Nat → Nat → α)
      (_ : ∀ k r j, f k r j = 0), zeros3 l.length n n = l.map fun k => matOf n (f k) := by
    intro α _ n l f hf
    simp only [zeros3, matOf]
    apply List.ext_getElem
    · simp
    · intro i h1 h2
      simp only [List.getElem_replicate, List.getElem_map]
      apply List.ext_getElem
      · simp
      · intro a h3 h4
        simp only [List.getElem_replicate, List.getElem_map]
        apply List.ext_getElem
        · simp
        · intro b h5 h6
          simp [hf]
  have hr : ∀ k r j, rramCell (Mvmu.new c') (fun _ _ => 0) k r j = 0 := by
    intro k r j; simp [rramCell, sgn]
  have hs : ∀ k r j, sramCell (Mvmu.new c') (fun _ _ => 0) k r j = 0 := by
    intro k r j; simp [sramCell, sgn]
  refine ⟨⟨hm, ?_, ?_, ?_, ?_⟩, ?_, ?_⟩
  · rw [← hz _ _ _ (fun k r j => by rw [hr]; simp), ← hm.layout.numRram]; rfl
  · rw [← hz _ _ _ (fun k r j => by rw [hr]; simp), ← hm.layout.numRram]; rfl
  · rw [← hz _ _ _ (fun k r j => by rw [hs]; simp), ← hm.layout.numSram]; rfl
  · rw [← hz _ _ _ (fun k r j => by rw [hs]; simp), ← hm.layout.numSram]; rfl
  · intro j _; simp only [Mvmu.new, InReg.new, getD_replicate_zero]; rfl
  · intro j _; simp only [Mvmu.new, OutReg.new, getD_replicate_zero]; rfl

/-- Building a configuration only fills in derived fields. -/
theorem build_fields (c c' : Config) (h : c.build = .ok c') :
    c'.dataConfig = c.dataConfig ∧
    c'.mvmuConfig.xbarSize = c.mvmuConfig.xbarSize ∧
    c'.mvmuConfig.numColumnsPerAdc = c.mvmuConfig.numColumnsPerAdc ∧
    c'.mvmuConfig.dacResolution = c.mvmuConfig.dacResolution ∧
    c'.mvmuConfig.adcResolution = c.mvmuConfig.adcResolution ∧
    c'.mvmuConfig.conductanceMin = c.mvmuConfig.conductanceMin ∧
    c'.mvmuConfig.conductanceMax = c.mvmuConfig.conductanceMax ∧
    c'.mvmuConfig.vdd = c.mvmuConfig.vdd ∧
    c'.mvmuConfig.hasNoise = c.mvmuConfig.hasNoise := by
  unfold Config.build MVMUConfig.init at h
  split at h
  · simp at h
  rename_i m hm
  split at hm
  · simp at hm
  split at hm
  · simp at hm
  simp only [Except.ok.injEq] at hm
  subst hm
  unfold Config.validateAndCalculate at h
  simp only at h
  split at h
  · simp at h
  split at h
  · simp at h
  simp only [Except.ok.injEq] at h
  subst h
  exact ⟨rfl, rfl, rfl, rfl, rfl, rfl, rfl, rfl, rfl⟩

theorem build_params (c c' : Config) (h : c.build = .ok c') :
    paramsOf c'.mvmuConfig c'.dataConfig = paramsOf c.mvmuConfig c.dataConfig := by
  obtain ⟨h1, h2, h3, h4, h5, h6, h7, h8, h9⟩ := build_fields c c' h
  simp only [paramsOf, h1, h2, h4, h5, h6, h7, h9]

theorem electrical_of (c c' : Config) (hs : Simulable c) (h : c.build = .ok c') :
    Electrical c'.mvmuConfig := by
  obtain ⟨h1, h2, h3, h4, h5, h6, h7, h8, h9⟩ := build_fields c c' h
  refine ⟨?_, ?_, ?_, ?_, ?_⟩
  · rw [h6]; exact hs.gminNonneg
  · rw [h6, h7]; exact hs.gminLt
  · rw [h8]; exact hs.vddPos
  · rw [h4]; exact hs.resPos.ne'
  · rw [h4]; exact hs.resLt

theorem latencies_of (c c' : Config) (hs : Simulable c) (h : c.build = .ok c') :
    Latencies c'.mvmuConfig (c'.mvmuConfig.adcLat.getD 0) (c'.mvmuConfig.dacLat.getD 0) := by
  obtain ⟨h1, h2, h3, h4, h5, h6, h7, h8, h9⟩ := build_fields c c' h
  have hm := mvmuOk_new c c' h hs.rramFlag hs.sramFlag
  have hi := haveRram_iff _ hm
  simp only [Mvmu.new, h1] at hi
  constructor
  · intro hr
    have := hs.adcTable (hi.1 hr)
    simp only [MVMUConfig.adcLat, h5]
    simp only [List.mem_cons, List.not_mem_nil, or_false] at this
    rcases this with e | e | e | e | e <;> rw [e] <;> rfl
  · intro hr
    have := hs.dacTable (hi.1 hr)
    simp only [MVMUConfig.dacLat, h4, if_pos this, Option.getD_some]

/-- Everything about a history of calls on a unit of a built configuration. -/
theorem refines_built (c c' : Config) (hs : Simulable c) (h : c.build = .ok c')
    (ops : List UnitOp) :
    (Mvmu.new c').run ops = (paramsOf c.mvmuConfig c.dataConfig).run {} ops ∧
    ((Mvmu.new c').exec ops).cfg = c'.mvmuConfig ∧
    ((Mvmu.new c').exec ops).data = c.dataConfig ∧
    Refines ((Mvmu.new c').exec ops) ((paramsOf c.mvmuConfig c.dataConfig).exec {} ops) := by
  have hr := refines_run (Mvmu.new c') {} (refines_new c c' h hs.rramFlag hs.sramFlag)
    (electrical_of c c' hs h) _ _ (latencies_of c c' hs h) ops
  rw [← build_params c c' h, ← (build_fields c c' h).1]
  exact hr

end Ramwich
