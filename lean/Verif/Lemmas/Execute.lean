import Verif.Lemmas.LoadWeights
import Verif.Lemmas.Bits

/-! # Symbolic execution of `MVMU.execute_mvm` -/
namespace Ramwich

open Spec

/-- Vectors and row-indexed arrays in canonical form. -/
def vecOf {α : Type} (n : Nat) (f : Nat → α) : List α := (List.range n).map f

/-- Rank of an index among those satisfying `p`, via `mapIdx`. -/
theorem mapIdx_filter {α : Type} (n : Nat) (p : Nat → Bool) (F : Nat → Nat → α) :
    ((List.range n).filter p).mapIdx F
      = ((List.range n).filter p).map fun k => F ((List.range k).filter p).length k := by
  induction n with
  | zero => rfl
  | succ n ih =>
    rw [List.range_succ, List.filter_append, List.mapIdx_append, List.map_append, ih]
    congr 1
    cases h : p n <;> simp [h]

theorem mapIdx_map' {α β γ : Type} (l : List α) (f : α → β) (g : Nat → β → γ) :
    (l.map f).mapIdx g = l.mapIdx fun i a => g i (f a) := by
  apply List.ext_getElem
  · simp
  · intro i h1 h2; simp

theorem mapIdx_rramIdx {α β : Type} (st : List BitConfig) (f : Nat → α) (g : Nat → α → β) :
    ((rramIdx st).map f).mapIdx g = (rramIdx st).map fun k => g (rramRank st k) (f k) := by
  rw [mapIdx_map', rramIdx, mapIdx_filter]
  rfl

theorem einsum_map {α : Type} [CommSemiring α] (l : List Nat) (n : Nat)
    (P : Nat → Nat → Nat → α) (v : Nat → α) :
    einsum (l.map fun k => matOf n (P k)) (vecOf n v)
      = l.map fun k => vecOf n fun r => ∑ j ∈ Finset.range n, P k r j * v j := by
  simp only [einsum, matOf, vecOf, List.map_map, Function.comp_def, dot_range_map]

theorem addNoise_map (st : List BitConfig) (n : Nat) (P : Nat → Nat → Nat → ℚ)
    (noise : Nat → Nat → Nat → ℚ) :
    addNoise ((rramIdx st).map fun k => matOf n (P k)) noise
      = (rramIdx st).map fun k => matOf n fun r j => P k r j + noise (rramRank st k) r j := by
  unfold addNoise
  rw [mapIdx_rramIdx]
  simp only [matOf, mapIdx_range_map]

theorem muxSelect_map {α : Type} (d : α) (cfg : MVMUConfig) (l : List Nat) (sel : Nat)
    (f : Nat → Nat → α) (j : Nat) (hj : j < cfg.numColumnsPerAdc)
    (hsz : cfg.xbarSize = cfg.numAdcPerXbar * cfg.numColumnsPerAdc) :
    muxSelect d cfg l.length sel (l.map fun k => vecOf cfg.xbarSize (f k)) j
      = .ok (l.map (fun k => vecOf cfg.numAdcPerXbar fun a => f k (a * cfg.numColumnsPerAdc + j)),
          sel + l.length * cfg.numAdcPerXbar) := by
  unfold muxSelect
  have hs := shape2_map l cfg.xbarSize f
  unfold vecOf
  rw [if_neg (by simpa using hs), if_neg (by omega)]
  simp only [List.map_map, Function.comp_def]
  congr 2
  apply List.map_congr_left
  intro k _
  apply List.map_congr_left
  intro a ha
  rw [List.mem_range] at ha
  apply getD_range_map
  rw [hsz]
  calc a * cfg.numColumnsPerAdc + j < a * cfg.numColumnsPerAdc + cfg.numColumnsPerAdc := by omega
    _ = (a + 1) * cfg.numColumnsPerAdc := by ring
    _ ≤ cfg.numAdcPerXbar * cfg.numColumnsPerAdc := Nat.mul_le_mul_right _ ha

/-- The ADC steps listed per analog crossbar. -/
theorem xbarBits_eq (c : MVMUConfig) (st : List BitConfig) (hl : Layout c st) :
    c.xbarBits = (rramIdx st).map (bitsOf st) := by
  unfold MVMUConfig.xbarBits
  rw [hl.isXbarRram, hl.bitsPerCell, zip_map_same, List.filter_map, List.map_map]
  rfl

theorem adcConvert_map (cfg : MVMUConfig) (stc : List BitConfig) (hl : Layout cfg stc)
    (st : ADCStats) (lat : Nat) (hlat : cfg.adcLat = some lat) (p q : Nat → Nat → ℚ) :
    ∃ ov er, adcConvert cfg st ((rramIdx stc).map fun k => vecOf cfg.numAdcPerXbar (p k))
      ((rramIdx stc).map fun k => vecOf cfg.numAdcPerXbar (q k))
    = .ok ((rramIdx stc).map (fun k => vecOf cfg.numAdcPerXbar fun a =>
        npClip (adcInt (cfg.currentStep (bitsOf stc k)) (p k a) (q k a)) (-cfg.adcMax) cfg.adcMax),
      { conversions := st.conversions + cfg.adcSize
        overflowTimes := ov
        conversionErrors := er
        activeCycles := st.activeCycles + lat }) := by
  unfold adcConvert
  have hsp := shape2_map (rramIdx stc) cfg.numAdcPerXbar p
  have hsq := shape2_map (rramIdx stc) cfg.numAdcPerXbar q
  rw [hl.numRram]
  unfold vecOf
  simp only [hsp, hsq, and_self, not_true_eq_false, if_false, hlat]
  have hz : (adcZip adcInt (cfg.xbarBits.map cfg.currentStep)
      ((rramIdx stc).map fun k => (List.range cfg.numAdcPerXbar).map (p k))
      ((rramIdx stc).map fun k => (List.range cfg.numAdcPerXbar).map (q k)))
      = (rramIdx stc).map fun k => (List.range cfg.numAdcPerXbar).map fun a =>
        adcInt (cfg.currentStep (bitsOf stc k)) (p k a) (q k a) := by
    rw [xbarBits_eq _ _ hl]
    simp only [adcZip, zip_map_same, List.map_map, Function.comp_def, zipWith_map_same]
  simp only [hz, List.map_map, Function.comp_def]
  exact ⟨_, _, rfl⟩

/-- Rows of the calculation output from the analog and digital rows. -/
theorem selectOutputs_eq (cfg : MVMUConfig) (stc : List BitConfig) (hl : Layout cfg stc)
    (f g : Nat → Nat → Int) :
    selectOutputs cfg ((rramIdx stc).map fun k => vecOf cfg.numAdcPerXbar (f k))
      ((sramIdx stc).map fun k => vecOf cfg.numAdcPerXbar (g k))
    = .ok ((List.range stc.length).map fun k => vecOf cfg.numAdcPerXbar fun a =>
        if isRram stc k then f k a else g k a) := by
  unfold selectOutputs
  split
  · rename_i h
    have hnil : sramIdx stc = [] := by
      by_contra hc; exact h (hl.haveSram.2 hc)
    have hall : ∀ k ∈ List.range stc.length, isRram stc k = true := by
      intro k hk
      by_contra hc
      have : k ∈ sramIdx stc := by
        simp only [sramIdx, List.mem_filter]
        exact ⟨hk, by simpa using hc⟩
      rw [hnil] at this; simp at this
    have : rramIdx stc = List.range stc.length := List.filter_eq_self.2 hall
    rw [this]
    congr 1
    apply List.map_congr_left
    intro k hk
    simp [hall k hk]
  · split
    · rename_i h
      have hnil : rramIdx stc = [] := by
        by_contra hc; exact h (hl.haveRram.2 hc)
      have hall : ∀ k ∈ List.range stc.length, isRram stc k = false := by
        intro k hk
        by_contra hc
        have : k ∈ rramIdx stc := by
          simp only [rramIdx, List.mem_filter]
          exact ⟨hk, by simpa using hc⟩
        rw [hnil] at this; simp at this
      have : sramIdx stc = List.range stc.length :=
        List.filter_eq_self.2 fun k hk => by simp [hall k hk]
      rw [this]
      congr 1
      apply List.map_congr_left
      intro k hk
      simp [hall k hk]
    · unfold mergeOutputs
      rw [hl.rramMap, hl.sramMap, if_neg (by simp)]
      have hz : List.replicate cfg.numXbarPerMvmu (List.replicate cfg.numAdcPerXbar (0 : Int))
          = (List.range stc.length).map fun _ => List.replicate cfg.numAdcPerXbar (0 : Int) := by
        rw [hl.numXbar]; simp
      simp only [hz]
      unfold rramIdx sramIdx
      rw [scatter_filter, scatter_filter]
      congr 1
      apply List.map_congr_left
      intro k _
      cases h : isRram stc k <;> simp [vecOf]

theorem snaCalculate_eq (cfg : MVMUConfig) (stc : List BitConfig) (hl : Layout cfg stc)
    (ops i : Nat) (v : Nat → Nat → Int) (c : Nat → I32) :
    snaCalculate cfg ops ((List.range stc.length).map fun k => vecOf cfg.numAdcPerXbar (v k))
      (vecOf cfg.numAdcPerXbar c) i
    = .ok (vecOf cfg.numAdcPerXbar fun a =>
        (((List.range stc.length).map fun k => BitVec.ofInt 64 (v k a) <<< slicePos stc k).sum <<< i)
          + (c a).signExtend 64, ops + cfg.snaSize) := by
  unfold snaCalculate
  have hs := shape2_range_map stc.length cfg.numAdcPerXbar v
  rw [hl.numXbar]
  unfold vecOf
  simp only [hs, not_true_eq_false, if_false, List.length_map, List.length_range, ne_eq]
  have hd : cfg.storedBit.dropLast = (List.range stc.length).map (slicePos stc) := by
    rw [hl.storedBit, List.range_succ, List.map_append]
    simp
  rw [hd]
  simp only [List.map_map, Function.comp_def, zipWith_range_map]
  congr 2
  apply List.map_congr_left
  intro a ha
  rw [List.mem_range] at ha
  congr 3
  apply List.map_congr_left
  intro k _
  rw [getD_range_map _ _ _ _ ha]

/-- `accumulate` adds the weighted column values into the registers of column group `j`. -/
theorem accumulate_eq (m : Mvmu) (hl : Layout m.cfg m.data.storageConfig)
    (hsz : m.outreg.size = m.cfg.xbarSize) (regs : Nat → I32)
    (hr : m.outreg.registers = vecOf m.cfg.xbarSize regs)
    (v : Nat → Nat → Int) (i j : Nat) (hj : j < m.cfg.numColumnsPerAdc) :
    m.accumulate ((List.range m.data.storageConfig.length).map fun k =>
        vecOf m.cfg.numAdcPerXbar fun a => v k (a * m.cfg.numColumnsPerAdc + j)) i j
    = .ok { m with
        outreg := { m.outreg with
          registers := vecOf m.cfg.xbarSize fun r =>
            if r % m.cfg.numColumnsPerAdc = j then
              regs r + BitVec.ofInt 32 (2 ^ i * ∑ k ∈ Finset.range m.data.storageConfig.length,
                2 ^ slicePos m.data.storageConfig k * v k r)
            else regs r
          stats := (m.outreg.stats.addRead 1 m.cfg.numAdcPerXbar).addWrite 1 m.cfg.numAdcPerXbar }
        snaOperations := m.snaOperations + m.cfg.snaSize } := by
  have hmask : npArange j m.cfg.xbarSize m.cfg.numColumnsPerAdc
      = (List.range m.cfg.numAdcPerXbar).map fun a => j + m.cfg.numColumnsPerAdc * a := by
    rw [hl.size]; exact npArange_strided _ _ _ hj
  have hin : ∀ a, a < m.cfg.numAdcPerXbar → j + m.cfg.numColumnsPerAdc * a < m.cfg.xbarSize := by
    intro a ha
    rw [hl.size]
    calc j + m.cfg.numColumnsPerAdc * a < m.cfg.numColumnsPerAdc + m.cfg.numColumnsPerAdc * a := by omega
      _ = (a + 1) * m.cfg.numColumnsPerAdc := by ring
      _ ≤ m.cfg.numAdcPerXbar * m.cfg.numColumnsPerAdc := Nat.mul_le_mul_right _ ha
  have hany : (((List.range m.cfg.numAdcPerXbar).map fun a => j + m.cfg.numColumnsPerAdc * a).any
      fun i => decide (i ≥ m.outreg.size)) = false := by
    rw [List.any_eq_false]
    intro x hx
    simp only [List.mem_map, List.mem_range] at hx
    obtain ⟨a, ha, rfl⟩ := hx
    have := hin a ha
    simp only [decide_eq_true_eq, ge_iff_le, hsz]
    omega
  unfold Mvmu.accumulate
  simp only [hmask]
  unfold OutReg.read
  rw [hany]
  simp only [Bool.false_eq_true, if_false, bind, Except.bind]
  have hg : gather m.outreg.registers
      ((List.range m.cfg.numAdcPerXbar).map fun a => j + m.cfg.numColumnsPerAdc * a) 0
      = vecOf m.cfg.numAdcPerXbar fun a => regs (j + m.cfg.numColumnsPerAdc * a) := by
    unfold gather vecOf
    rw [List.map_map, hr]
    apply List.map_congr_left
    intro a ha
    rw [List.mem_range] at ha
    exact getD_range_map _ _ _ _ (hin a ha)
  rw [hg, snaCalculate_eq _ _ hl]
  simp only
  unfold OutReg.write
  rw [hany]
  simp only [Bool.false_eq_true, if_false, vecOf, List.length_map, List.length_range, ne_eq,
    not_true_eq_false, List.map_map, Function.comp_def]
  have hlen : m.outreg.registers.length = m.cfg.numAdcPerXbar * m.cfg.numColumnsPerAdc := by
    rw [hr, vecOf, List.length_map, List.length_range, hl.size]
  have hlen' : m.outreg.registers.length = m.cfg.xbarSize := by rw [hlen, hl.size]
  rw [scatter_strided _ _ _ _ _ (0 : I32) hj hlen, hlen']
  congr 3
  apply List.map_congr_left
  intro r hrr
  rw [List.mem_range] at hrr
  split
  · rename_i hmod
    rw [sna_value]
    have hdm : r % m.cfg.numColumnsPerAdc + m.cfg.numColumnsPerAdc * (r / m.cfg.numColumnsPerAdc) = r :=
      Nat.mod_add_div r _
    have e1 : j + m.cfg.numColumnsPerAdc * (r / m.cfg.numColumnsPerAdc) = r := by omega
    have e2 : r / m.cfg.numColumnsPerAdc * m.cfg.numColumnsPerAdc + j = r := by
      rw [Nat.mul_comm]; omega
    simp only [e1, e2]
  · rw [hr, vecOf, getD_range_map _ _ _ _ hrr]

/-- Counters of a register file after `r` reads and `w` writes of `n` cells each. -/
def MemoryStats.plus (s : MemoryStats) (r rn w wn : Nat) : MemoryStats :=
  { readOperations := s.readOperations + r
    readCells := s.readCells + r * rn
    writeOperations := s.writeOperations + w
    writeCells := s.writeCells + w * wn
    totalOperations := s.totalOperations + (r + w)
    totalOperatedCells := s.totalOperatedCells + (r * rn + w * wn) }

/-- The unit `m` in the middle of `execute_mvm`: `i` input slices and `t` column groups have been
processed, the input and output registers hold `X` and `R`. -/
def exState (m : Mvmu) (X R : Nat → I32) (i t lat dlat ov : Nat) (er : ℚ) : Mvmu :=
  { m with
    inreg := { m.inreg with
      registers := vecOf m.cfg.xbarSize X
      stats := m.inreg.stats.plus i m.cfg.xbarSize 0 0 }
    outreg := { m.outreg with
      registers := vecOf m.cfg.xbarSize R
      stats := m.outreg.stats.plus t m.cfg.numAdcPerXbar t m.cfg.numAdcPerXbar }
    snaOperations := m.snaOperations + t * m.cfg.snaSize
    dacStats := if m.cfg.haveRramXbar then
        { conversions := m.dacStats.conversions + i * m.cfg.xbarSize
          activeCycles := m.dacStats.activeCycles + i * dlat }
      else m.dacStats
    rram := { m.rram with
      mvmOperations := m.rram.mvmOperations + i * (m.cfg.numRramXbarPerMvmu * 2) }
    snhPosSamples := m.snhPosSamples + i * (m.cfg.numRramXbarPerMvmu * m.cfg.xbarSize)
    snhNegSamples := m.snhNegSamples + i * (m.cfg.numRramXbarPerMvmu * m.cfg.xbarSize)
    muxPosSelections := m.muxPosSelections + t * (m.cfg.numRramXbarPerMvmu * m.cfg.numAdcPerXbar)
    muxNegSelections := m.muxNegSelections + t * (m.cfg.numRramXbarPerMvmu * m.cfg.numAdcPerXbar)
    adcStats :=
      { conversions := m.adcStats.conversions + t * m.cfg.adcSize
        overflowTimes := ov
        conversionErrors := er
        activeCycles := m.adcStats.activeCycles + if m.cfg.haveRramXbar then t * lat else 0 }
    sram := { m.sram with
      macOperations := m.sram.macOperations + i * (m.cfg.numSramXbarPerMvmu * 2 * m.cfg.xbarSize) }
    muxSramSelections := m.muxSramSelections
      + t * (m.cfg.numSramXbarPerMvmu * m.cfg.numAdcPerXbar) }

/-- Value that crossbar `k` contributes to row `r` after conversion. -/
def colValue (c : MVMUConfig) (st : List BitConfig) (p q : Nat → Nat → ℚ) (z : Nat → Nat → I32)
    (k r : Nat) : Int :=
  if isRram st k then
    npClip (adcInt (c.currentStep (bitsOf st k)) (p k r) (q k r)) (-c.adcMax) c.adcMax
  else (z k r).toInt

theorem rramIdx_nil_of {c : MVMUConfig} {st : List BitConfig} (hl : Layout c st)
    (h : ¬ c.haveRramXbar = true) : rramIdx st = [] := by
  by_contra hc; exact h (hl.haveRram.2 hc)

theorem sramIdx_nil_of {c : MVMUConfig} {st : List BitConfig} (hl : Layout c st)
    (h : ¬ c.haveSramXbar = true) : sramIdx st = [] := by
  by_contra hc; exact h (hl.haveSram.2 hc)

theorem rramColumn_eq (m : Mvmu) (hl : Layout m.cfg m.data.storageConfig) (lat : Nat)
    (hlat : m.cfg.haveRramXbar = true → m.cfg.adcLat = some lat) (p q : Nat → Nat → ℚ)
    (z : List (List I32)) (j : Nat) (hj : j < m.cfg.numColumnsPerAdc) :
    ∃ ov er, m.rramColumn
      { pos := (rramIdx m.data.storageConfig).map fun k => vecOf m.cfg.xbarSize (p k)
        neg := (rramIdx m.data.storageConfig).map fun k => vecOf m.cfg.xbarSize (q k)
        sram := z } j
    = .ok ((rramIdx m.data.storageConfig).map (fun k => vecOf m.cfg.numAdcPerXbar fun a =>
        npClip (adcInt (m.cfg.currentStep (bitsOf m.data.storageConfig k))
          (p k (a * m.cfg.numColumnsPerAdc + j)) (q k (a * m.cfg.numColumnsPerAdc + j)))
          (-m.cfg.adcMax) m.cfg.adcMax),
      { m with
        muxPosSelections := m.muxPosSelections + m.cfg.numRramXbarPerMvmu * m.cfg.numAdcPerXbar
        muxNegSelections := m.muxNegSelections + m.cfg.numRramXbarPerMvmu * m.cfg.numAdcPerXbar
        adcStats :=
          { conversions := m.adcStats.conversions + m.cfg.adcSize
            overflowTimes := ov
            conversionErrors := er
            activeCycles := m.adcStats.activeCycles + if m.cfg.haveRramXbar then lat else 0 } }) := by
  unfold Mvmu.rramColumn
  by_cases h : m.cfg.haveRramXbar = true
  · obtain ⟨ov, er, hc⟩ := adcConvert_map m.cfg m.data.storageConfig hl m.adcStats lat (hlat h)
      (fun k a => p k (a * m.cfg.numColumnsPerAdc + j))
      (fun k a => q k (a * m.cfg.numColumnsPerAdc + j))
    refine ⟨ov, er, ?_⟩
    simp only [h, if_true, bind, Except.bind]
    rw [hl.numRram, muxSelect_map _ _ _ _ _ _ hj hl.size]
    simp only
    rw [muxSelect_map _ _ _ _ _ _ hj hl.size]
    simp only
    rw [hc]
  · refine ⟨m.adcStats.overflowTimes, m.adcStats.conversionErrors, ?_⟩
    have hn := rramIdx_nil_of hl h
    have hz : m.cfg.numRramXbarPerMvmu = 0 := by rw [hl.numRram, hn]; rfl
    have hs : m.cfg.adcSize = 0 := by simp [MVMUConfig.adcSize, hz]
    simp [h, hn, hz, hs]

theorem sramColumn_eq (m : Mvmu) (hl : Layout m.cfg m.data.storageConfig) (p q : List (List ℚ))
    (z : Nat → Nat → I32) (j : Nat) (hj : j < m.cfg.numColumnsPerAdc) :
    m.sramColumn
      { pos := p, neg := q
        sram := (sramIdx m.data.storageConfig).map fun k => vecOf m.cfg.xbarSize (z k) } j
    = .ok ((sramIdx m.data.storageConfig).map (fun k => vecOf m.cfg.numAdcPerXbar fun a =>
        (z k (a * m.cfg.numColumnsPerAdc + j)).toInt),
      { m with
        muxSramSelections := m.muxSramSelections
          + m.cfg.numSramXbarPerMvmu * m.cfg.numAdcPerXbar }) := by
  unfold Mvmu.sramColumn
  by_cases h : m.cfg.haveSramXbar = true
  · simp only [h, if_true, bind, Except.bind]
    rw [hl.numSram, muxSelect_map _ _ _ _ _ _ hj hl.size]
    simp only [vecOf, List.map_map, Function.comp_def]
  · have hn := sramIdx_nil_of hl h
    have hz : m.cfg.numSramXbarPerMvmu = 0 := by rw [hl.numSram, hn]; rfl
    simp [h, hn, hz]

/-- One iteration of the column loop. -/
theorem columnStep_eq (m : Mvmu) (hm : MvmuOk m) (lat dlat : Nat)
    (hlat : m.cfg.haveRramXbar = true → m.cfg.adcLat = some lat) (X R : Nat → I32)
    (i i' t ov : Nat) (er : ℚ) (p q : Nat → Nat → ℚ) (z : Nat → Nat → I32)
    (j : Nat) (hj : j < m.cfg.numColumnsPerAdc) :
    ∃ ov' er', (exState m X R i' t lat dlat ov er).columnStep i
      { pos := (rramIdx m.data.storageConfig).map fun k => vecOf m.cfg.xbarSize (p k)
        neg := (rramIdx m.data.storageConfig).map fun k => vecOf m.cfg.xbarSize (q k)
        sram := (sramIdx m.data.storageConfig).map fun k => vecOf m.cfg.xbarSize (z k) } j
    = .ok (exState m X (fun r => if r % m.cfg.numColumnsPerAdc = j then
          R r + BitVec.ofInt 32 (2 ^ i * ∑ k ∈ Finset.range m.data.storageConfig.length,
            2 ^ slicePos m.data.storageConfig k * colValue m.cfg m.data.storageConfig p q z k r)
        else R r) i' (t + 1) lat dlat ov' er') := by
  have hl := hm.layout
  set e := exState m X R i' t lat dlat ov er with he
  have hcfg : e.cfg = m.cfg := rfl
  have hdata : e.data = m.data := rfl
  obtain ⟨ov', er', h1⟩ := rramColumn_eq e (by rw [hcfg, hdata]; exact hl) lat
    (by rw [hcfg]; exact hlat) p q
    ((sramIdx m.data.storageConfig).map fun k => vecOf m.cfg.xbarSize (z k)) j hj
  refine ⟨ov', er', ?_⟩
  unfold Mvmu.columnStep
  simp only [hcfg, hdata] at h1
  rw [h1]
  simp only [bind, Except.bind]
  have h2 := sramColumn_eq { e with
        muxPosSelections := e.muxPosSelections + m.cfg.numRramXbarPerMvmu * m.cfg.numAdcPerXbar
        muxNegSelections := e.muxNegSelections + m.cfg.numRramXbarPerMvmu * m.cfg.numAdcPerXbar
        adcStats :=
          { conversions := e.adcStats.conversions + m.cfg.adcSize
            overflowTimes := ov'
            conversionErrors := er'
            activeCycles := e.adcStats.activeCycles + if m.cfg.haveRramXbar then lat else 0 } }
    (by simp only [hcfg, hdata]; exact hl)
    ((rramIdx m.data.storageConfig).map fun k => vecOf m.cfg.xbarSize (p k))
    ((rramIdx m.data.storageConfig).map fun k => vecOf m.cfg.xbarSize (q k)) z j hj
  simp only [hcfg, hdata] at h2
  rw [h2]
  simp only [hcfg]
  rw [selectOutputs_eq _ _ hl]
  simp only
  have h3 := accumulate_eq { e with
        muxPosSelections := e.muxPosSelections + m.cfg.numRramXbarPerMvmu * m.cfg.numAdcPerXbar
        muxNegSelections := e.muxNegSelections + m.cfg.numRramXbarPerMvmu * m.cfg.numAdcPerXbar
        adcStats :=
          { conversions := e.adcStats.conversions + m.cfg.adcSize
            overflowTimes := ov'
            conversionErrors := er'
            activeCycles := e.adcStats.activeCycles + if m.cfg.haveRramXbar then lat else 0 }
        muxSramSelections := e.muxSramSelections
          + m.cfg.numSramXbarPerMvmu * m.cfg.numAdcPerXbar }
    (by simp only [hcfg, hdata]; exact hl) hm.outSize R rfl
    (colValue m.cfg m.data.storageConfig p q z) i j hj
  simp only [hcfg, hdata] at h3
  have hcol : ((List.range m.data.storageConfig.length).map fun k =>
      vecOf m.cfg.numAdcPerXbar fun a =>
        if isRram m.data.storageConfig k then
          npClip (adcInt (m.cfg.currentStep (bitsOf m.data.storageConfig k))
            (p k (a * m.cfg.numColumnsPerAdc + j)) (q k (a * m.cfg.numColumnsPerAdc + j)))
            (-m.cfg.adcMax) m.cfg.adcMax
        else (z k (a * m.cfg.numColumnsPerAdc + j)).toInt)
      = (List.range m.data.storageConfig.length).map fun k =>
        vecOf m.cfg.numAdcPerXbar fun a => colValue m.cfg m.data.storageConfig p q z k
          (a * m.cfg.numColumnsPerAdc + j) := rfl
  rw [hcol, h3, he]
  simp only [exState, MemoryStats.addRead, MemoryStats.addWrite, MemoryStats.plus]
  congr 1
  simp only [Mvmu.mk.injEq, OutReg.mk.injEq, MemoryStats.mk.injEq, ADCStats.mk.injEq, true_and]
  refine ⟨⟨?_, ?_, ?_, ?_, ?_, ?_⟩, ?_, ?_, ?_, ⟨?_, ?_⟩, ?_⟩
  all_goals first | (push_cast; ring1) | (split <;> ring1)

/-- The column loop of one slice adds the weighted partial sums to every register. -/
theorem columnLoop_eq (m : Mvmu) (hm : MvmuOk m) (lat dlat : Nat)
    (hlat : m.cfg.haveRramXbar = true → m.cfg.adcLat = some lat) (X R : Nat → I32)
    (i i' t ov : Nat) (er : ℚ) (p q : Nat → Nat → ℚ) (z : Nat → Nat → I32) :
    ∃ ov' er', (List.range m.cfg.numColumnsPerAdc).foldlM (Mvmu.columnStep i
      { pos := (rramIdx m.data.storageConfig).map fun k => vecOf m.cfg.xbarSize (p k)
        neg := (rramIdx m.data.storageConfig).map fun k => vecOf m.cfg.xbarSize (q k)
        sram := (sramIdx m.data.storageConfig).map fun k => vecOf m.cfg.xbarSize (z k) })
      (exState m X R i' t lat dlat ov er)
    = .ok (exState m X (fun r =>
          R r + BitVec.ofInt 32 (2 ^ i * ∑ k ∈ Finset.range m.data.storageConfig.length,
            2 ^ slicePos m.data.storageConfig k * colValue m.cfg m.data.storageConfig p q z k r))
        i' (t + m.cfg.numColumnsPerAdc) lat dlat ov' er') := by
  obtain ⟨s, hs, ov', er', hI⟩ := foldlM_range_invariant
    (Mvmu.columnStep i
      { pos := (rramIdx m.data.storageConfig).map fun k => vecOf m.cfg.xbarSize (p k)
        neg := (rramIdx m.data.storageConfig).map fun k => vecOf m.cfg.xbarSize (q k)
        sram := (sramIdx m.data.storageConfig).map fun k => vecOf m.cfg.xbarSize (z k) })
    (fun j s => ∃ ov' er', s = exState m X (fun r => if r % m.cfg.numColumnsPerAdc < j then
          R r + BitVec.ofInt 32 (2 ^ i * ∑ k ∈ Finset.range m.data.storageConfig.length,
            2 ^ slicePos m.data.storageConfig k * colValue m.cfg m.data.storageConfig p q z k r)
        else R r) i' (t + j) lat dlat ov' er')
    m.cfg.numColumnsPerAdc (exState m X R i' t lat dlat ov er)
    ⟨ov, er, by simp⟩
    (by
      rintro j s hj ⟨ov1, er1, rfl⟩
      obtain ⟨ov2, er2, h⟩ := columnStep_eq m hm lat dlat hlat X
        (fun r => if r % m.cfg.numColumnsPerAdc < j then
          R r + BitVec.ofInt 32 (2 ^ i * ∑ k ∈ Finset.range m.data.storageConfig.length,
            2 ^ slicePos m.data.storageConfig k * colValue m.cfg m.data.storageConfig p q z k r)
        else R r) i i' (t + j) ov1 er1 p q z j hj
      refine ⟨_, h, ov2, er2, ?_⟩
      congr 1
      funext r
      by_cases h1 : r % m.cfg.numColumnsPerAdc = j
      · simp [h1]
      · by_cases h2 : r % m.cfg.numColumnsPerAdc < j
        · simp [h1, h2, Nat.lt_succ_of_lt h2]
        · have : ¬ r % m.cfg.numColumnsPerAdc < j + 1 := by omega
          simp [h1, h2, this])
  refine ⟨ov', er', ?_⟩
  rw [hs, hI]
  congr 2
  funext r
  simp [Nat.mod_lt _ hm.layout.cpaPos]

/-- Slice of an input register read by `InputRegisterArray.read`. -/
def sliceOf (c : MVMUConfig) (x : I32) : I32 := x &&& BitVec.ofNat 32 ((1 <<< c.dacResolution) - 1)

/-- Voltage produced by the DAC for a slice. -/
def voltOf (c : MVMUConfig) (x : I32) : ℚ :=
  npClip (((sliceOf c x).toInt : ℚ) / (((1 <<< c.dacResolution) - 1 : Nat) : ℚ)) 0 1 * c.vdd

/-- Current on a line of the analog crossbars. -/
def lineCurrent (c : MVMUConfig) (st : List BitConfig) (P : Nat → Nat → Nat → ℚ)
    (noise : Nat → Nat → Nat → ℚ) (X : Nat → I32) (k r : Nat) : ℚ :=
  ∑ j ∈ Finset.range c.xbarSize,
    (P k r j + if c.hasNoise then noise (rramRank st k) r j else 0) * voltOf c (X j)

/-- Digital partial sum. -/
def digitalSum (c : MVMUConfig) (SP SN : Nat → Nat → Nat → I32) (X : Nat → I32) (k r : Nat) : I32 :=
  (∑ j ∈ Finset.range c.xbarSize, SP k r j * sliceOf c (X j)) -
    ∑ j ∈ Finset.range c.xbarSize, SN k r j * sliceOf c (X j)

theorem noisy_map (c : MVMUConfig) (st : List BitConfig) (P : Nat → Nat → Nat → ℚ)
    (noise : Nat → Nat → Nat → ℚ) :
    (if c.hasNoise then addNoise ((rramIdx st).map fun k => matOf c.xbarSize (P k)) noise
      else (rramIdx st).map fun k => matOf c.xbarSize (P k))
    = (rramIdx st).map fun k => matOf c.xbarSize fun r j =>
        P k r j + if c.hasNoise then noise (rramRank st k) r j else 0 := by
  cases h : c.hasNoise
  · simp
  · simp [addNoise_map]

/-- RRAM half of a slice. -/
theorem rramSlice_eq (m : Mvmu) (hm : MvmuOk m) (lat dlat : Nat)
    (hdlat : m.cfg.haveRramXbar = true → m.cfg.dacLat = some dlat)
    (P N : Nat → Nat → Nat → ℚ)
    (hP : m.rram.posXbar = (rramIdx m.data.storageConfig).map fun k => matOf m.cfg.xbarSize (P k))
    (hN : m.rram.negXbar = (rramIdx m.data.storageConfig).map fun k => matOf m.cfg.xbarSize (N k))
    (noise : Noise) (X : Nat → I32) :
    m.rramSlice noise (vecOf m.cfg.xbarSize fun j => sliceOf m.cfg (X j))
    = .ok (((rramIdx m.data.storageConfig).map (fun k => vecOf m.cfg.xbarSize
          (lineCurrent m.cfg m.data.storageConfig P noise.pos X k)),
        (rramIdx m.data.storageConfig).map (fun k => vecOf m.cfg.xbarSize
          (lineCurrent m.cfg m.data.storageConfig N noise.neg X k))),
      { m with
        dacStats := if m.cfg.haveRramXbar then
            { conversions := m.dacStats.conversions + m.cfg.xbarSize
              activeCycles := m.dacStats.activeCycles + dlat }
          else m.dacStats
        rram := { m.rram with
          mvmOperations := m.rram.mvmOperations + m.cfg.numRramXbarPerMvmu * 2 }
        snhPosSamples := m.snhPosSamples + m.cfg.numRramXbarPerMvmu * m.cfg.xbarSize
        snhNegSamples := m.snhNegSamples + m.cfg.numRramXbarPerMvmu * m.cfg.xbarSize }) := by
  have hl := hm.layout
  unfold Mvmu.rramSlice
  by_cases h : m.cfg.haveRramXbar = true
  · simp only [h, if_true, bind, Except.bind]
    unfold dacConvert
    rw [if_neg (by simp [vecOf])]
    simp only [hdlat h]
    unfold RRAMXbar.executeMvm
    rw [if_neg (by simp [vecOf])]
    rw [hP, hN, noisy_map, noisy_map]
    have hv : ((vecOf m.cfg.xbarSize fun j => sliceOf m.cfg (X j)).map fun x =>
        npClip ((x.toInt : ℚ) / (((1 <<< m.cfg.dacResolution) - 1 : Nat) : ℚ)) 0 1 * m.cfg.vdd)
        = vecOf m.cfg.xbarSize fun j => voltOf m.cfg (X j) := by
      simp only [vecOf, List.map_map, Function.comp_def, voltOf]
    rw [hv]
    dsimp only
    rw [einsum_map, einsum_map]
    rfl
  · have hn := rramIdx_nil_of hl h
    have hz : m.cfg.numRramXbarPerMvmu = 0 := by rw [hl.numRram, hn]; rfl
    simp [h, hn, hz]

/-- SRAM half of a slice. -/
theorem sramSlice_eq (m : Mvmu) (hl : Layout m.cfg m.data.storageConfig)
    (SP SN : Nat → Nat → Nat → I32)
    (hP : m.sram.posXbar = (sramIdx m.data.storageConfig).map fun k => matOf m.cfg.xbarSize (SP k))
    (hN : m.sram.negXbar = (sramIdx m.data.storageConfig).map fun k => matOf m.cfg.xbarSize (SN k))
    (X : Nat → I32) :
    m.sramSlice (vecOf m.cfg.xbarSize fun j => sliceOf m.cfg (X j))
    = .ok ((sramIdx m.data.storageConfig).map (fun k => vecOf m.cfg.xbarSize
          (digitalSum m.cfg SP SN X k)),
      { m with
        sram := { m.sram with
          macOperations := m.sram.macOperations
            + m.cfg.numSramXbarPerMvmu * 2 * m.cfg.xbarSize } }) := by
  unfold Mvmu.sramSlice
  by_cases h : m.cfg.haveSramXbar = true
  · simp only [h, if_true, bind, Except.bind]
    unfold SRAMCim.executeMvm
    rw [if_neg (by simp [vecOf])]
    rw [hP, hN, einsum_map, einsum_map]
    simp only [zipWith_map_same, vecOf]
    rfl
  · have hn := sramIdx_nil_of hl h
    have hz : m.cfg.numSramXbarPerMvmu = 0 := by rw [hl.numSram, hn]; rfl
    simp [h, hn, hz]

theorem exState_ok (m : Mvmu) (hm : MvmuOk m) (X R : Nat → I32) (i t lat dlat ov : Nat) (er : ℚ) :
    MvmuOk (exState m X R i t lat dlat ov er) :=
  ⟨hm.layout, hm.inSize, by simp [exState, vecOf], hm.outSize, by simp [exState, vecOf],
    hm.rramPos, hm.rramNeg, hm.sramPos, hm.sramNeg⟩

/-- Amount added to output register `r` by slice `i` when the input registers hold `X`. -/
def sliceValue (m : Mvmu) (P N : Nat → Nat → Nat → ℚ) (SP SN : Nat → Nat → Nat → I32)
    (noise : Noise) (X : Nat → I32) (r : Nat) : Int :=
  ∑ k ∈ Finset.range m.data.storageConfig.length,
    2 ^ slicePos m.data.storageConfig k * colValue m.cfg m.data.storageConfig
      (lineCurrent m.cfg m.data.storageConfig P noise.pos X)
      (lineCurrent m.cfg m.data.storageConfig N noise.neg X)
      (digitalSum m.cfg SP SN X) k r

/-- One input slice. -/
theorem sliceStep_eq (m : Mvmu) (hm : MvmuOk m) (lat dlat : Nat)
    (hlat : m.cfg.haveRramXbar = true → m.cfg.adcLat = some lat)
    (hdlat : m.cfg.haveRramXbar = true → m.cfg.dacLat = some dlat)
    (P N : Nat → Nat → Nat → ℚ) (SP SN : Nat → Nat → Nat → I32)
    (hP : m.rram.posXbar = (rramIdx m.data.storageConfig).map fun k => matOf m.cfg.xbarSize (P k))
    (hN : m.rram.negXbar = (rramIdx m.data.storageConfig).map fun k => matOf m.cfg.xbarSize (N k))
    (hSP : m.sram.posXbar = (sramIdx m.data.storageConfig).map fun k => matOf m.cfg.xbarSize (SP k))
    (hSN : m.sram.negXbar = (sramIdx m.data.storageConfig).map fun k => matOf m.cfg.xbarSize (SN k))
    (noise : Nat → Noise) (X R : Nat → I32) (i t ov : Nat) (er : ℚ) :
    ∃ ov' er', (exState m X R i t lat dlat ov er).sliceStep noise i
    = .ok (exState m (fun j => (X j).sshiftRight m.cfg.dacResolution)
        (fun r => R r + BitVec.ofInt 32 (2 ^ i * sliceValue m P N SP SN (noise i) X r))
        (i + 1) (t + m.cfg.numColumnsPerAdc) lat dlat ov' er') := by
  have hl := hm.layout
  obtain ⟨ov', er', hcol⟩ := columnLoop_eq m hm lat dlat hlat
    (fun j => (X j).sshiftRight m.cfg.dacResolution) R i (i + 1) t ov er
    (lineCurrent m.cfg m.data.storageConfig P (noise i).pos X)
    (lineCurrent m.cfg m.data.storageConfig N (noise i).neg X)
    (digitalSum m.cfg SP SN X)
  refine ⟨ov', er', ?_⟩
  set e := exState m X R i t lat dlat ov er with he
  have hcfg : e.cfg = m.cfg := rfl
  have hdata : e.data = m.data := rfl
  have hin : e.inreg.registers = vecOf m.cfg.xbarSize X := rfl
  unfold Mvmu.sliceStep InReg.read
  simp only [bind, Except.bind, hcfg, hin]
  have hsl : ((vecOf m.cfg.xbarSize X).map fun x =>
      x &&& BitVec.ofNat 32 ((1 <<< m.cfg.dacResolution) - 1))
      = vecOf m.cfg.xbarSize fun j => sliceOf m.cfg (X j) := by
    simp only [vecOf, List.map_map, Function.comp_def, sliceOf]
  have hsh : ((vecOf m.cfg.xbarSize X).map fun x => x.sshiftRight m.cfg.dacResolution)
      = vecOf m.cfg.xbarSize fun j => (X j).sshiftRight m.cfg.dacResolution := by
    simp only [vecOf, List.map_map, Function.comp_def]
  rw [hsl, hsh]
  set e1 : Mvmu := { e with cfg := m.cfg, inreg := { e.inreg with
    registers := vecOf m.cfg.xbarSize fun j => (X j).sshiftRight m.cfg.dacResolution
    stats := e.inreg.stats.addRead 1 e.inreg.size } } with he1
  have hok1 : MvmuOk e1 :=
    ⟨hl, hm.inSize, by simp [e1, vecOf, hcfg], hm.outSize, by simp [e1, e, exState, vecOf],
      hm.rramPos, hm.rramNeg, hm.sramPos, hm.sramNeg⟩
  have h1 := rramSlice_eq e1 hok1 lat dlat hdlat P N hP hN (noise i) X
  have hc1 : e1.cfg = m.cfg := rfl
  have hd1 : e1.data = m.data := rfl
  simp only [hc1, hd1] at h1
  rw [h1]
  simp only
  have h2 := sramSlice_eq { e1 with
        dacStats := if m.cfg.haveRramXbar then
            { conversions := e1.dacStats.conversions + m.cfg.xbarSize
              activeCycles := e1.dacStats.activeCycles + dlat }
          else e1.dacStats
        rram := { e1.rram with
          mvmOperations := e1.rram.mvmOperations + m.cfg.numRramXbarPerMvmu * 2 }
        snhPosSamples := e1.snhPosSamples + m.cfg.numRramXbarPerMvmu * m.cfg.xbarSize
        snhNegSamples := e1.snhNegSamples + m.cfg.numRramXbarPerMvmu * m.cfg.xbarSize }
    hl SP SN hSP hSN X
  simp only [hc1, hd1] at h2
  rw [h2]
  simp only
  have hst : ({ e1 with
        dacStats := if m.cfg.haveRramXbar then
            { conversions := e1.dacStats.conversions + m.cfg.xbarSize
              activeCycles := e1.dacStats.activeCycles + dlat }
          else e1.dacStats
        rram := { e1.rram with
          mvmOperations := e1.rram.mvmOperations + m.cfg.numRramXbarPerMvmu * 2 }
        snhPosSamples := e1.snhPosSamples + m.cfg.numRramXbarPerMvmu * m.cfg.xbarSize
        snhNegSamples := e1.snhNegSamples + m.cfg.numRramXbarPerMvmu * m.cfg.xbarSize
        sram := { e1.sram with
          macOperations := e1.sram.macOperations
            + m.cfg.numSramXbarPerMvmu * 2 * m.cfg.xbarSize } } : Mvmu)
      = exState m (fun j => (X j).sshiftRight m.cfg.dacResolution) R (i + 1) t lat dlat ov er := by
    simp only [e1, e, exState, MemoryStats.addRead, MemoryStats.plus, hm.inSize]
    simp only [Mvmu.mk.injEq, InReg.mk.injEq, MemoryStats.mk.injEq, true_and, and_true,
      RRAMXbar.mk.injEq, SRAMCim.mk.injEq]
    refine ⟨⟨?_, ?_, ?_, ?_⟩, ?_, ?_, ?_, ?_, ?_⟩
    all_goals first
      | (push_cast; ring1)
      | (by_cases h : m.cfg.haveRramXbar = true <;> simp [h] <;> constructor <;> ring1)
  have hst' := hst
  simp only [hc1, hd1] at hst' ⊢
  rw [hst']
  exact hcol

/-- `execute_mvm` never raises on a well-formed unit whose converters have a latency; the exact
final state. -/
theorem executeMvm_eq (m : Mvmu) (hm : MvmuOk m) (lat dlat : Nat)
    (hres : m.cfg.dacResolution ≠ 0) (hres' : m.cfg.dacResolution < 32)
    (hlat : m.cfg.haveRramXbar = true → m.cfg.adcLat = some lat)
    (hdlat : m.cfg.haveRramXbar = true → m.cfg.dacLat = some dlat)
    (P N : Nat → Nat → Nat → ℚ) (SP SN : Nat → Nat → Nat → I32)
    (hP : m.rram.posXbar = (rramIdx m.data.storageConfig).map fun k => matOf m.cfg.xbarSize (P k))
    (hN : m.rram.negXbar = (rramIdx m.data.storageConfig).map fun k => matOf m.cfg.xbarSize (N k))
    (hSP : m.sram.posXbar = (sramIdx m.data.storageConfig).map fun k => matOf m.cfg.xbarSize (SP k))
    (hSN : m.sram.negXbar = (sramIdx m.data.storageConfig).map fun k => matOf m.cfg.xbarSize (SN k))
    (X : Nat → I32) (hX : m.inreg.registers = vecOf m.cfg.xbarSize X) (noise : Nat → Noise) :
    ∃ ov er, m.executeMvm noise = .ok (exState { m with outreg := m.outreg.cleanCells }
      (fun j => (X j).sshiftRight (m.cfg.dacResolution * m.numIterations))
      (fun r => BitVec.ofInt 32 (∑ i ∈ Finset.range m.numIterations, 2 ^ i *
        sliceValue m P N SP SN (noise i)
          (fun j => (X j).sshiftRight (m.cfg.dacResolution * i)) r))
      m.numIterations (m.numIterations * m.cfg.numColumnsPerAdc) lat dlat ov er) := by
  unfold Mvmu.executeMvm
  rw [if_neg hres, if_neg (by omega)]
  set m0 : Mvmu := { m with outreg := m.outreg.cleanCells } with hm0
  have hok : MvmuOk m0 :=
    ⟨hm.layout, hm.inSize, hm.inLen, hm.outSize, by simp [m0, OutReg.cleanCells, hm.outLen],
      hm.rramPos, hm.rramNeg, hm.sramPos, hm.sramNeg⟩
  obtain ⟨s, hs, ov, er, hI⟩ := foldlM_range_invariant (Mvmu.sliceStep noise)
    (fun i s => ∃ ov er, s = exState m0
      (fun j => (X j).sshiftRight (m.cfg.dacResolution * i))
      (fun r => BitVec.ofInt 32 (∑ i ∈ Finset.range i, 2 ^ i *
        sliceValue m P N SP SN (noise i)
          (fun j => (X j).sshiftRight (m.cfg.dacResolution * i)) r))
      i (i * m.cfg.numColumnsPerAdc) lat dlat ov er)
    m.numIterations m0
    (by
      refine ⟨m.adcStats.overflowTimes, m.adcStats.conversionErrors, ?_⟩
      simp only [m0, exState, OutReg.cleanCells, hm.outLen, MemoryStats.plus, MemoryStats.addWrite,
        Nat.mul_zero, Nat.zero_mul, Finset.range_zero, Finset.sum_empty, Nat.add_zero,
        BitVec.sshiftRight_zero, Nat.cast_zero, zero_mul, add_zero, ite_self]
      simp only [← hX]
      have hr : List.replicate m.cfg.xbarSize (0 : I32)
          = vecOf m.cfg.xbarSize fun _ => BitVec.ofInt 32 0 := by
        simp [vecOf]
      rw [hr])
    (by
      rintro i s hi ⟨ov, er, rfl⟩
      obtain ⟨ov', er', h⟩ := sliceStep_eq m0 hok lat dlat hlat hdlat P N SP SN hP hN hSP hSN noise
        (fun j => (X j).sshiftRight (m.cfg.dacResolution * i))
        (fun r => BitVec.ofInt 32 (∑ i ∈ Finset.range i, 2 ^ i *
          sliceValue m P N SP SN (noise i)
            (fun j => (X j).sshiftRight (m.cfg.dacResolution * i)) r))
        i (i * m.cfg.numColumnsPerAdc) ov er
      refine ⟨_, h, ov', er', ?_⟩
      have e1 : (i + 1) * m.cfg.numColumnsPerAdc
          = i * m.cfg.numColumnsPerAdc + m.cfg.numColumnsPerAdc := by ring
      have e2 : m.cfg.dacResolution * (i + 1)
          = m.cfg.dacResolution * i + m.cfg.dacResolution := by ring
      rw [e1, e2]
      congr 1
      · funext j
        exact (BitVec.sshiftRight_add).symm
      · funext r
        rw [Finset.sum_range_succ, BitVec.ofInt_add]
        rfl)
  exact ⟨ov, er, by rw [hs, hI]⟩

end Ramwich
