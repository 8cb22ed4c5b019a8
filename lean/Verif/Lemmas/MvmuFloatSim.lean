import Verif.Lemmas.MvmuFloat

/-! # The unit in float64 follows the exact unit step by step -/
namespace Ramwich

open Spec

/-- A unit whose analog cells hold `P` and `N` and whose sum of conversion errors is `e`. -/
def Mvmu.floatOf (P N : List (List (List ℚ))) (e : ℚ) (m : Mvmu) : Mvmu :=
  { m with
    rram := { m.rram with posXbar := P, negXbar := N }
    adcStats := { m.adcStats with conversionErrors := e } }

variable (P N : List (List (List ℚ))) (e : ℚ)

theorem accumulate_floatOf (m : Mvmu) (c : List (List Int)) (i j : Nat) :
    (m.floatOf P N e).accumulate c i j = (m.accumulate c i j).map (Mvmu.floatOf P N e) := by
  unfold Mvmu.accumulate
  simp only [bind, Except.bind, Mvmu.floatOf, Except.map]
  rcases m.outreg.read (npArange j m.cfg.xbarSize m.cfg.numColumnsPerAdc) with _ | cur <;> simp only
  rcases snaCalculate m.cfg m.snaOperations c cur.1 i with _ | sna <;> simp only
  rcases cur.2.write sna.1 (npArange j m.cfg.xbarSize m.cfg.numColumnsPerAdc) with _ | o <;> simp only

theorem sramColumn_floatOf (m : Mvmu) (p q p' q' : List (List ℚ)) (z : List (List I32)) (j : Nat) :
    (m.floatOf P N e).sramColumn { pos := p', neg := q', sram := z } j
      = (m.sramColumn { pos := p, neg := q, sram := z } j).map fun x => (x.1, x.2.floatOf P N e) := by
  unfold Mvmu.sramColumn
  simp only [bind, Except.bind, Mvmu.floatOf]
  by_cases hh : m.cfg.haveSramXbar = true
  · simp only [hh, if_true]
    rcases muxSelect 0 m.cfg m.cfg.numSramXbarPerMvmu m.muxSramSelections z j with _ | s <;> rfl
  · simp only [hh]; rfl

theorem sramSlice_floatOf (m : Mvmu) (s : List I32) :
    (m.floatOf P N e).sramSlice s = (m.sramSlice s).map fun x => (x.1, x.2.floatOf P N e) := by
  unfold Mvmu.sramSlice
  simp only [bind, Except.bind, Mvmu.floatOf]
  by_cases hh : m.cfg.haveSramXbar = true
  · simp only [hh, if_true]
    rcases m.sram.executeMvm m.cfg s with _ | s <;> rfl
  · simp only [hh]; rfl

/-- The converters give the same integers. -/
theorem adcConvert_floatOf (cfg : MVMUConfig) (stc : List BitConfig) (hl : Layout cfg stc) (st : ADCStats)
    (p q p' q' : Nat → Nat → ℚ)
    (h : ∀ k ∈ rramIdx stc, ∀ a, a < cfg.numAdcPerXbar →
      adcIntF (cfg.currentStepF (bitsOf stc k)) (p' k a) (q' k a)
        = adcInt (cfg.currentStep (bitsOf stc k)) (p k a) (q k a)) :
    adcConvertF cfg { st with conversionErrors := e }
      ((rramIdx stc).map fun k => vecOf cfg.numAdcPerXbar (p' k))
      ((rramIdx stc).map fun k => vecOf cfg.numAdcPerXbar (q' k))
    = (adcConvert cfg st ((rramIdx stc).map fun k => vecOf cfg.numAdcPerXbar (p k))
      ((rramIdx stc).map fun k => vecOf cfg.numAdcPerXbar (q k))).map
        fun x => (x.1, { x.2 with conversionErrors := e }) := by
  unfold adcConvertF adcConvert
  have hsp := shape2_map (rramIdx stc) cfg.numAdcPerXbar p
  have hsq := shape2_map (rramIdx stc) cfg.numAdcPerXbar q
  have hsp' := shape2_map (rramIdx stc) cfg.numAdcPerXbar p'
  have hsq' := shape2_map (rramIdx stc) cfg.numAdcPerXbar q'
  rw [hl.numRram]
  unfold vecOf
  simp only [hsp, hsq, hsp', hsq', and_self, not_true_eq_false, if_false]
  have hz : adcZip adcIntF (cfg.xbarBits.map cfg.currentStepF)
      ((rramIdx stc).map fun k => (List.range cfg.numAdcPerXbar).map (p' k))
      ((rramIdx stc).map fun k => (List.range cfg.numAdcPerXbar).map (q' k))
      = adcZip adcInt (cfg.xbarBits.map cfg.currentStep)
      ((rramIdx stc).map fun k => (List.range cfg.numAdcPerXbar).map (p k))
      ((rramIdx stc).map fun k => (List.range cfg.numAdcPerXbar).map (q k)) := by
    rw [xbarBits_eq _ _ hl]
    simp only [adcZip, zip_map_same, List.map_map, Function.comp_def, zipWith_map_same]
    apply List.map_congr_left
    intro k hk
    apply List.map_congr_left
    intro a ha
    exact h k hk a (List.mem_range.1 ha)
  rw [hz]
  cases cfg.adcLat <;> rfl

theorem column_lt {c : MVMUConfig} {st : List BitConfig} (hl : Layout c st) (a j : Nat) (ha : a < c.numAdcPerXbar)
    (hj : j < c.numColumnsPerAdc) : a * c.numColumnsPerAdc + j < c.xbarSize := by
  rw [hl.size]
  calc a * c.numColumnsPerAdc + j < a * c.numColumnsPerAdc + c.numColumnsPerAdc := by omega
    _ = (a + 1) * c.numColumnsPerAdc := by ring
    _ ≤ c.numAdcPerXbar * c.numColumnsPerAdc := Nat.mul_le_mul_right _ ha

/-- The lines of float64 currents `p'`, `q'` are read like the exact lines `p`, `q`. -/
def SameReadings (c : MVMUConfig) (st : List BitConfig) (p q p' q' : Nat → Nat → ℚ) : Prop :=
  ∀ k ∈ rramIdx st, ∀ r, r < c.xbarSize →
    adcIntF (c.currentStepF (bitsOf st k)) (p' k r) (q' k r)
      = adcInt (c.currentStep (bitsOf st k)) (p k r) (q k r)

theorem rramColumn_floatOf (m : Mvmu) (hl : Layout m.cfg m.data.storageConfig) (p q p' q' : Nat → Nat → ℚ)
    (h : SameReadings m.cfg m.data.storageConfig p q p' q') (z z' : List (List I32)) (j : Nat)
    (hj : j < m.cfg.numColumnsPerAdc) :
    (m.floatOf P N e).rramColumnF
      { pos := (rramIdx m.data.storageConfig).map fun k => vecOf m.cfg.xbarSize (p' k)
        neg := (rramIdx m.data.storageConfig).map fun k => vecOf m.cfg.xbarSize (q' k)
        sram := z' } j
    = (m.rramColumn
      { pos := (rramIdx m.data.storageConfig).map fun k => vecOf m.cfg.xbarSize (p k)
        neg := (rramIdx m.data.storageConfig).map fun k => vecOf m.cfg.xbarSize (q k)
        sram := z } j).map fun x => (x.1, x.2.floatOf P N e) := by
  unfold Mvmu.rramColumnF Mvmu.rramColumn
  simp only [bind, Except.bind, Mvmu.floatOf]
  by_cases hh : m.cfg.haveRramXbar = true
  · simp only [hh, if_true]
    rw [hl.numRram]
    simp only [muxSelect_map _ _ _ _ _ _ hj hl.size]
    rw [adcConvert_floatOf e m.cfg m.data.storageConfig hl m.adcStats
      (fun k a => p k (a * m.cfg.numColumnsPerAdc + j)) (fun k a => q k (a * m.cfg.numColumnsPerAdc + j))
      (fun k a => p' k (a * m.cfg.numColumnsPerAdc + j)) (fun k a => q' k (a * m.cfg.numColumnsPerAdc + j))
      (fun k hk a ha => h k hk _ (column_lt hl a j ha hj))]
    rcases adcConvert _ _ _ _ with _ | s <;> rfl
  · simp only [hh]; rfl

theorem columnStep_floatOf (m : Mvmu) (hl : Layout m.cfg m.data.storageConfig) (p q p' q' : Nat → Nat → ℚ)
    (h : SameReadings m.cfg m.data.storageConfig p q p' q') (z : List (List I32)) (i j : Nat)
    (hj : j < m.cfg.numColumnsPerAdc) :
    (m.floatOf P N e).columnStepF i
      { pos := (rramIdx m.data.storageConfig).map fun k => vecOf m.cfg.xbarSize (p' k)
        neg := (rramIdx m.data.storageConfig).map fun k => vecOf m.cfg.xbarSize (q' k)
        sram := z } j
    = (m.columnStep i
      { pos := (rramIdx m.data.storageConfig).map fun k => vecOf m.cfg.xbarSize (p k)
        neg := (rramIdx m.data.storageConfig).map fun k => vecOf m.cfg.xbarSize (q k)
        sram := z } j).map (Mvmu.floatOf P N e) := by
  unfold Mvmu.columnStepF Mvmu.columnStep
  rw [rramColumn_floatOf P N e m hl p q p' q' h z z j hj]
  simp only [bind, Except.bind]
  rcases m.rramColumn _ _ with _ | r
  · rfl
  simp only [Except.map]
  rw [sramColumn_floatOf P N e r.2 ((rramIdx m.data.storageConfig).map fun k => vecOf m.cfg.xbarSize (p k))
    ((rramIdx m.data.storageConfig).map fun k => vecOf m.cfg.xbarSize (q k))]
  rcases r.2.sramColumn _ _ with _ | s
  · rfl
  simp only [Except.map]
  have hc : (m.floatOf P N e).cfg = m.cfg := rfl
  rw [hc]
  rcases selectOutputs m.cfg r.1 s.1 with _ | o
  · rfl
  exact accumulate_floatOf P N e s.2 o i j

/-- Two loops, the second on the image of the state of the first. -/
theorem foldlM_image {σ τ : Type} (f : σ → Nat → Except PyErr σ) (g : τ → Nat → Except PyErr τ) (φ : σ → τ)
    (I : Nat → σ → Prop) (n : Nat) (s : σ) (h0 : I 0 s)
    (hstep : ∀ k s, k < n → I k s → ∃ s', f s k = .ok s' ∧ g (φ s) k = .ok (φ s') ∧ I (k + 1) s') :
    ∃ s', (List.range n).foldlM f s = .ok s' ∧ (List.range n).foldlM g (φ s) = .ok (φ s') ∧ I n s' := by
  induction n with
  | zero => exact ⟨s, rfl, rfl, h0⟩
  | succ n ih =>
    obtain ⟨s1, h1, h2, h3⟩ := ih fun k s hk => hstep k s (by omega)
    obtain ⟨s2, h4, h5, h6⟩ := hstep n s1 (by omega) h3
    refine ⟨s2, ?_, ?_, h6⟩
    · rw [List.range_succ, List.foldlM_append, h1]
      simpa [bind, Except.bind, pure, Except.pure] using congrArg (fun x => x >>= pure) h4
    · rw [List.range_succ, List.foldlM_append, h2]
      simpa [bind, Except.bind, pure, Except.pure] using congrArg (fun x => x >>= pure) h5

theorem columnLoop_floatOf (m : Mvmu) (hm : MvmuOk m) (lat dlat : Nat)
    (hlat : m.cfg.haveRramXbar = true → m.cfg.adcLat = some lat) (X R : Nat → I32)
    (i i' t ov : Nat) (er : ℚ) (p q p' q' : Nat → Nat → ℚ) (z : Nat → Nat → I32)
    (h : SameReadings m.cfg m.data.storageConfig p q p' q') :
    (List.range m.cfg.numColumnsPerAdc).foldlM (Mvmu.columnStepF i
      { pos := (rramIdx m.data.storageConfig).map fun k => vecOf m.cfg.xbarSize (p' k)
        neg := (rramIdx m.data.storageConfig).map fun k => vecOf m.cfg.xbarSize (q' k)
        sram := (sramIdx m.data.storageConfig).map fun k => vecOf m.cfg.xbarSize (z k) })
      ((exState m X R i' t lat dlat ov er).floatOf P N e)
    = ((List.range m.cfg.numColumnsPerAdc).foldlM (Mvmu.columnStep i
      { pos := (rramIdx m.data.storageConfig).map fun k => vecOf m.cfg.xbarSize (p k)
        neg := (rramIdx m.data.storageConfig).map fun k => vecOf m.cfg.xbarSize (q k)
        sram := (sramIdx m.data.storageConfig).map fun k => vecOf m.cfg.xbarSize (z k) })
      (exState m X R i' t lat dlat ov er)).map (Mvmu.floatOf P N e) := by
  obtain ⟨s, h1, h2, -⟩ := foldlM_image
    (Mvmu.columnStep i
      { pos := (rramIdx m.data.storageConfig).map fun k => vecOf m.cfg.xbarSize (p k)
        neg := (rramIdx m.data.storageConfig).map fun k => vecOf m.cfg.xbarSize (q k)
        sram := (sramIdx m.data.storageConfig).map fun k => vecOf m.cfg.xbarSize (z k) })
    (Mvmu.columnStepF i
      { pos := (rramIdx m.data.storageConfig).map fun k => vecOf m.cfg.xbarSize (p' k)
        neg := (rramIdx m.data.storageConfig).map fun k => vecOf m.cfg.xbarSize (q' k)
        sram := (sramIdx m.data.storageConfig).map fun k => vecOf m.cfg.xbarSize (z k) })
    (Mvmu.floatOf P N e)
    (fun j s => ∃ R ov er, s = exState m X R i' (t + j) lat dlat ov er)
    m.cfg.numColumnsPerAdc (exState m X R i' t lat dlat ov er) ⟨R, ov, er, rfl⟩
    (by
      rintro j s hj ⟨R1, ov1, er1, rfl⟩
      obtain ⟨ov2, er2, hc⟩ := columnStep_eq m hm lat dlat hlat X R1 i i' (t + j) ov1 er1 p q z j hj
      have hf := columnStep_floatOf P N e (exState m X R1 i' (t + j) lat dlat ov1 er1) hm.layout p q p' q' h
        ((sramIdx m.data.storageConfig).map fun k => vecOf m.cfg.xbarSize (z k)) i j hj
      refine ⟨_, hc, ?_, _, _, _, rfl⟩
      have e1 : (exState m X R1 i' (t + j) lat dlat ov1 er1).cfg = m.cfg := rfl
      have e2 : (exState m X R1 i' (t + j) lat dlat ov1 er1).data = m.data := rfl
      rw [e1, e2] at hf
      rw [hf, hc]
      rfl)
  rw [h1, h2]
  rfl

theorem einsumF_map (st : List BitConfig) (n : Nat) (plan : Nat → Nat → SumPlan) (C : Nat → Nat → Nat → ℚ)
    (v : List ℚ) :
    einsumF plan ((rramIdx st).map fun k => matOf n (C k)) v
      = (rramIdx st).map fun k => vecOf n fun r => (plan (rramRank st k) r).eval ((List.range n).map (C k r)) v := by
  unfold einsumF
  rw [mapIdx_rramIdx]
  simp only [matOf, mapIdx_range_map, vecOf]

/-- RRAM half of a slice in float64. -/
theorem rramSliceF_eq (m : Mvmu) (hm : MvmuOk m) (dlat : Nat) (hn : m.cfg.hasNoise = false)
    (hdlat : m.cfg.haveRramXbar = true → m.cfg.dacLat = some dlat)
    (C D : Nat → Nat → Nat → ℚ)
    (hP : P = (rramIdx m.data.storageConfig).map fun k => matOf m.cfg.xbarSize (C k))
    (hN : N = (rramIdx m.data.storageConfig).map fun k => matOf m.cfg.xbarSize (D k))
    (noise : Noise) (pos neg : Nat → Nat → SumPlan) (X : Nat → I32) :
    (m.floatOf P N e).rramSliceF noise pos neg (vecOf m.cfg.xbarSize fun j => sliceOf m.cfg (X j))
    = .ok (((rramIdx m.data.storageConfig).map (fun k => vecOf m.cfg.xbarSize
          (lineCurrentF m.cfg pos m.data.storageConfig C X k)),
        (rramIdx m.data.storageConfig).map (fun k => vecOf m.cfg.xbarSize
          (lineCurrentF m.cfg neg m.data.storageConfig D X k))),
      Mvmu.floatOf P N e { m with
        dacStats := if m.cfg.haveRramXbar then
            { conversions := m.dacStats.conversions + m.cfg.xbarSize
              activeCycles := m.dacStats.activeCycles + dlat }
          else m.dacStats
        rram := { m.rram with
          mvmOperations := m.rram.mvmOperations + m.cfg.numRramXbarPerMvmu * 2 }
        snhPosSamples := m.snhPosSamples + m.cfg.numRramXbarPerMvmu * m.cfg.xbarSize
        snhNegSamples := m.snhNegSamples + m.cfg.numRramXbarPerMvmu * m.cfg.xbarSize }) := by
  have hl := hm.layout
  unfold Mvmu.rramSliceF
  have hc : (m.floatOf P N e).cfg = m.cfg := rfl
  by_cases h : m.cfg.haveRramXbar = true
  · simp only [hc, h, if_true, bind, Except.bind]
    unfold dacConvertF
    rw [if_neg (by simp [vecOf])]
    simp only [hdlat h]
    unfold RRAMXbar.executeMvmF
    rw [if_neg (by simp [vecOf])]
    have hv : ((vecOf m.cfg.xbarSize fun j => sliceOf m.cfg (X j)).map fun x =>
        f64 (npClip (f64 ((x.toInt : ℚ) / (((1 <<< m.cfg.dacResolution) - 1 : Nat) : ℚ))) 0 1 * m.cfg.vdd))
        = (List.range m.cfg.xbarSize).map fun j => voltOfF m.cfg (X j) := by
      simp only [vecOf, List.map_map, Function.comp_def, voltOfF]
    rw [hv]
    simp only [hn, Bool.false_eq_true, if_false]
    have h1 : (m.floatOf P N e).rram.posXbar = P := rfl
    have h2 : (m.floatOf P N e).rram.negXbar = N := rfl
    rw [h1, h2, hP, hN, einsumF_map, einsumF_map]
    rfl
  · have hnil := rramIdx_nil_of hl h
    have hz : m.cfg.numRramXbarPerMvmu = 0 := by rw [hl.numRram, hnil]; rfl
    simp [hc, h, hnil, hz]

/-- One input slice in float64. -/
theorem sliceStep_floatOf (m : Mvmu) (hm : MvmuOk m) (lat dlat : Nat) (hn : m.cfg.hasNoise = false)
    (hlat : m.cfg.haveRramXbar = true → m.cfg.adcLat = some lat)
    (hdlat : m.cfg.haveRramXbar = true → m.cfg.dacLat = some dlat)
    (P' N' C D : Nat → Nat → Nat → ℚ) (SP SN : Nat → Nat → Nat → I32)
    (hP' : m.rram.posXbar = (rramIdx m.data.storageConfig).map fun k => matOf m.cfg.xbarSize (P' k))
    (hN' : m.rram.negXbar = (rramIdx m.data.storageConfig).map fun k => matOf m.cfg.xbarSize (N' k))
    (hSP : m.sram.posXbar = (sramIdx m.data.storageConfig).map fun k => matOf m.cfg.xbarSize (SP k))
    (hSN : m.sram.negXbar = (sramIdx m.data.storageConfig).map fun k => matOf m.cfg.xbarSize (SN k))
    (hP : P = (rramIdx m.data.storageConfig).map fun k => matOf m.cfg.xbarSize (C k))
    (hN : N = (rramIdx m.data.storageConfig).map fun k => matOf m.cfg.xbarSize (D k))
    (noise : Nat → Noise) (plans : Plans) (X R : Nat → I32) (i t ov : Nat) (er : ℚ)
    (hsame : SameReadings m.cfg m.data.storageConfig
      (lineCurrent m.cfg m.data.storageConfig P' (noise i).pos X)
      (lineCurrent m.cfg m.data.storageConfig N' (noise i).neg X)
      (lineCurrentF m.cfg (plans.pos i) m.data.storageConfig C X)
      (lineCurrentF m.cfg (plans.neg i) m.data.storageConfig D X)) :
    ((exState m X R i t lat dlat ov er).floatOf P N e).sliceStepF noise plans i
      = ((exState m X R i t lat dlat ov er).sliceStep noise i).map (Mvmu.floatOf P N e) := by
  have hl := hm.layout
  have hcol := columnLoop_floatOf P N e m hm lat dlat hlat
    (fun j => (X j).sshiftRight m.cfg.dacResolution) R i (i + 1) t ov er _ _ _ _
    (digitalSum m.cfg SP SN X) hsame
  set s := exState m X R i t lat dlat ov er with he
  have hcfg : s.cfg = m.cfg := rfl
  have hdata : s.data = m.data := rfl
  have hcfg' : (s.floatOf P N e).cfg = m.cfg := rfl
  have hin : s.inreg.registers = vecOf m.cfg.xbarSize X := rfl
  have hin' : (s.floatOf P N e).inreg = s.inreg := rfl
  unfold Mvmu.sliceStep Mvmu.sliceStepF InReg.read
  simp only [bind, Except.bind, hcfg, hcfg', hin', hin]
  have hsl : ((vecOf m.cfg.xbarSize X).map fun x =>
      x &&& BitVec.ofNat 32 ((1 <<< m.cfg.dacResolution) - 1))
      = vecOf m.cfg.xbarSize fun j => sliceOf m.cfg (X j) := by
    simp only [vecOf, List.map_map, Function.comp_def, sliceOf]
  have hsh : ((vecOf m.cfg.xbarSize X).map fun x => x.sshiftRight m.cfg.dacResolution)
      = vecOf m.cfg.xbarSize fun j => (X j).sshiftRight m.cfg.dacResolution := by
    simp only [vecOf, List.map_map, Function.comp_def]
  rw [hsl, hsh]
  set e1 : Mvmu := { s with cfg := m.cfg, inreg := { s.inreg with
    registers := vecOf m.cfg.xbarSize fun j => (X j).sshiftRight m.cfg.dacResolution
    stats := s.inreg.stats.addRead 1 s.inreg.size } } with he1
  have hok1 : MvmuOk e1 :=
    ⟨hl, hm.inSize, by simp [e1, vecOf], hm.outSize, by simp [e1, s, exState, vecOf],
      hm.rramPos, hm.rramNeg, hm.sramPos, hm.sramNeg⟩
  have h1 := rramSlice_eq e1 hok1 lat dlat hdlat P' N' hP' hN' (noise i) X
  have hc1 : e1.cfg = m.cfg := rfl
  have hd1 : e1.data = m.data := rfl
  have h1' := rramSliceF_eq P N e e1 hok1 dlat hn hdlat C D hP hN (noise i) (plans.pos i) (plans.neg i) X
  simp only [hc1, hd1] at h1 h1'
  have hfl : ({ s.floatOf P N e with cfg := m.cfg, inreg := { s.inreg with
    registers := vecOf m.cfg.xbarSize fun j => (X j).sshiftRight m.cfg.dacResolution
    stats := s.inreg.stats.addRead 1 s.inreg.size } } : Mvmu) = e1.floatOf P N e := rfl
  rw [h1, hfl, h1']
  simp only
  rw [sramSlice_floatOf]
  have h2 := sramSlice_eq { e1 with
        dacStats := if m.cfg.haveRramXbar then
            { conversions := e1.dacStats.conversions + m.cfg.xbarSize
              activeCycles := e1.dacStats.activeCycles + dlat }
          else e1.dacStats
        rram := { e1.rram with
          mvmOperations := e1.rram.mvmOperations + m.cfg.numRramXbarPerMvmu * 2 }
        snhPosSamples := e1.snhPosSamples + m.cfg.numRramXbarPerMvmu * m.cfg.xbarSize
        snhNegSamples := e1.snhNegSamples + m.cfg.numRramXbarPerMvmu * m.cfg.xbarSize }
    hl SP SN hSP hSN X
  simp only [hc1, hd1] at h2
  rw [h2]
  simp only [Except.map]
  have hst : ({ e1 with
        dacStats := if m.cfg.haveRramXbar then
            { conversions := e1.dacStats.conversions + m.cfg.xbarSize
              activeCycles := e1.dacStats.activeCycles + dlat }
          else e1.dacStats
        rram := { e1.rram with
          mvmOperations := e1.rram.mvmOperations + m.cfg.numRramXbarPerMvmu * 2 }
        snhPosSamples := e1.snhPosSamples + m.cfg.numRramXbarPerMvmu * m.cfg.xbarSize
        snhNegSamples := e1.snhNegSamples + m.cfg.numRramXbarPerMvmu * m.cfg.xbarSize
        sram := { e1.sram with
          macOperations := e1.sram.macOperations
            + m.cfg.numSramXbarPerMvmu * 2 * m.cfg.xbarSize } } : Mvmu)
      = exState m (fun j => (X j).sshiftRight m.cfg.dacResolution) R (i + 1) t lat dlat ov er := by
    simp only [e1, s, exState, MemoryStats.addRead, MemoryStats.plus, hm.inSize]
    simp only [Mvmu.mk.injEq, InReg.mk.injEq, MemoryStats.mk.injEq, true_and, and_true,
      RRAMXbar.mk.injEq, SRAMCim.mk.injEq]
    refine ⟨⟨?_, ?_, ?_, ?_⟩, ?_, ?_, ?_, ?_, ?_⟩
    all_goals first
      | (push_cast; ring1)
      | (by_cases h : m.cfg.haveRramXbar = true <;> simp [h] <;> constructor <;> ring1)
  simp only [hc1, hd1] at hst ⊢
  rw [hst]
  exact hcol

end Ramwich
