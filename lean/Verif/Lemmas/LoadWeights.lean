import Verif.Lemmas.Config

/-! # What `MVMU.load_weights` stores -/
namespace Ramwich

open Spec

/-- Well-formedness of a matrix-vector unit: layout and array shapes. -/
structure MvmuOk (m : Mvmu) : Prop where
  layout : Layout m.cfg m.data.storageConfig
  inSize : m.inreg.size = m.cfg.xbarSize
  inLen : m.inreg.registers.length = m.cfg.xbarSize
  outSize : m.outreg.size = m.cfg.xbarSize
  outLen : m.outreg.registers.length = m.cfg.xbarSize
  rramPos : shape3 m.rram.posXbar m.cfg.numRramXbarPerMvmu m.cfg.xbarSize m.cfg.xbarSize = true
  rramNeg : shape3 m.rram.negXbar m.cfg.numRramXbarPerMvmu m.cfg.xbarSize m.cfg.xbarSize = true
  sramPos : shape3 m.sram.posXbar m.cfg.numSramXbarPerMvmu m.cfg.xbarSize m.cfg.xbarSize = true
  sramNeg : shape3 m.sram.negXbar m.cfg.numSramXbarPerMvmu m.cfg.xbarSize m.cfg.xbarSize = true

theorem shape3_iff {α : Type} (m : List (List (List α))) (a b c : Nat) :
    shape3 m a b c = true ↔ m.length = a ∧ ∀ x ∈ m, shape2 x b c = true := by
  simp [shape3]

theorem shape3_zeros3 {α : Type} [Zero α] (a b c : Nat) :
    shape3 (zeros3 (α := α) a b c) a b c = true := by
  simp only [shape3_iff, zeros3, List.length_replicate, true_and, List.mem_replicate,
    shape2_iff]
  rintro x ⟨_, rfl⟩
  refine ⟨by simp, ?_⟩
  intro r hr
  rw [List.mem_replicate] at hr
  simp [hr.2]

theorem shape3_map {α : Type} (l : List Nat) (b c : Nat) (f : Nat → Nat → Nat → α) :
    shape3 (l.map fun k => (List.range b).map fun r => (List.range c).map (f k r)) l.length b c
      = true := by
  simp [shape3, shape2]

theorem mvmuOk_new (c c' : Config) (h : c.build = .ok c')
    (h1 : c.mvmuConfig.haveRramXbar = false) (h2 : c.mvmuConfig.haveSramXbar = false) :
    MvmuOk (Mvmu.new c') := by
  obtain ⟨hl, -, -⟩ := build_layout c c' h h1 h2
  exact ⟨hl, rfl, by simp [Mvmu.new, InReg.new], rfl, by simp [Mvmu.new, OutReg.new],
    shape3_zeros3 _ _ _, shape3_zeros3 _ _ _, shape3_zeros3 _ _ _, shape3_zeros3 _ _ _⟩

theorem npSign_eq_sgn (w : ℚ) : npSign w = sgn w := rfl

theorem extractBits_eq (v s b : Nat) (hb : 0 < b) :
    extractBits v s (s + b) = .ok (v / 2 ^ s % 2 ^ b) := by
  unfold extractBits
  rw [if_neg (by omega)]
  simp only [Nat.add_sub_cancel_left, Nat.one_shiftLeft, Nat.and_two_pow_sub_one_eq_mod,
    Nat.shiftRight_eq_div_pow]

/-- Conductance that represents `v` in a cell of `b` bits. -/
def conductance (c : MVMUConfig) (b v : Nat) : ℚ :=
  c.conductanceMin + v * ((c.conductanceMax - c.conductanceMin) / (2 ^ b - 1))

theorem intToConductance_eq (c : MVMUConfig) (v b : Nat) (hb : 0 < b) (hv : v < 2 ^ b) :
    intToConductance v b c.conductanceMin c.conductanceMax = .ok (conductance c b v) := by
  unfold intToConductance conductance
  rw [if_neg (by simpa using hv), if_neg (by omega)]

/-- Entry of a weight matrix given as nested lists. -/
def entry (W : List (List ℚ)) (r j : Nat) : ℚ := (W.getD r []).getD j 0

/-- Signed conductance of cell `(r, j)` of analog crossbar `k`. -/
def rramCell (m : Mvmu) (W : Nat → Nat → ℚ) (k r j : Nat) : ℚ :=
  (sgn (W r j) : ℚ) * conductance m.cfg (bitsOf m.data.storageConfig k)
    (level m.data.storageConfig m.data.weightFracBits (W r j) k)

/-- Signed bit of cell `(r, j)` of digital crossbar `k`. -/
def sramCell (m : Mvmu) (W : Nat → Nat → ℚ) (k r j : Nat) : Int :=
  sgn (W r j) * (level m.data.storageConfig m.data.weightFracBits (W r j) k : Int)

def matOf {α : Type} (n : Nat) (f : Nat → Nat → α) : List (List α) :=
  (List.range n).map fun r => (List.range n).map (f r)

theorem rram_eta (x : RRAMXbar) (h1 : x.posXbar = []) (h2 : x.negXbar = []) :
    x = { x with posXbar := [], negXbar := [] } := by
  cases x; simp_all

theorem sram_eta (x : SRAMCim) (h1 : x.posXbar = []) (h2 : x.negXbar = []) :
    x = { x with posXbar := [], negXbar := [] } := by
  cases x; simp_all

theorem matOf_map {α β : Type} (n : Nat) (f : Nat → Nat → α) (g : α → β) :
    ((matOf n f).map fun r => r.map g) = matOf n fun r j => g (f r j) := by
  simp only [matOf, List.map_map, Function.comp_def]

theorem loadStep_eq (m : Mvmu) (hl : Layout m.cfg m.data.storageConfig) (W : Nat → Nat → ℚ)
    (acc : LoadAcc) (k : Nat) (hk : k < m.data.storageConfig.length) :
    m.loadStep (matOf m.cfg.xbarSize fun r j => npSign (W r j))
      (matOf m.cfg.xbarSize fun r j => (floatToFixed |W r j| m.data.weightFracBits).toNat) acc k
    = .ok (if isRram m.data.storageConfig k then
        { acc with
          rram := acc.rram.set acc.rramIdx (matOf m.cfg.xbarSize (rramCell m W k))
          rramIdx := acc.rramIdx + 1 }
      else
        { acc with
          sram := acc.sram.set acc.sramIdx (matOf m.cfg.xbarSize (sramCell m W k))
          sramIdx := acc.sramIdx + 1 }) := by
  have hb := bitsOf_pos m.data.storageConfig k
  unfold Mvmu.loadStep
  rw [hl.storedBit, hl.isXbarRram, hl.bitsPerCell, getD_range_map _ _ _ _ (by omega),
    getD_range_map _ _ _ _ (by omega), getD_range_map _ _ _ _ hk, getD_range_map _ _ _ _ hk,
    slicePos_succ _ _ hk]
  rw [vectorize_ok _ _ (fun v => v / 2 ^ slicePos m.data.storageConfig k
      % 2 ^ bitsOf m.data.storageConfig k)
    (fun r _ a _ => extractBits_eq a _ _ hb)]
  have hmap : ((matOf m.cfg.xbarSize fun r j =>
      (floatToFixed |W r j| m.data.weightFracBits).toNat).map fun r => r.map fun v =>
        v / 2 ^ slicePos m.data.storageConfig k % 2 ^ bitsOf m.data.storageConfig k)
      = matOf m.cfg.xbarSize fun r j =>
          level m.data.storageConfig m.data.weightFracBits (W r j) k := by
    rw [matOf_map]
    rfl
  simp only [bind, Except.bind]
  rw [hmap]
  cases hr : isRram m.data.storageConfig k with
  | true =>
    simp only [if_true]
    rw [vectorize_ok _ _ (conductance m.cfg (bitsOf m.data.storageConfig k))]
    · simp only [matOf, List.map_map, zipWith_range_map, Function.comp_def]
      rfl
    · intro r hr a ha
      simp only [matOf, List.mem_map, List.mem_range] at hr
      obtain ⟨i, _, rfl⟩ := hr
      simp only [List.mem_map, List.mem_range] at ha
      obtain ⟨j, _, rfl⟩ := ha
      apply intToConductance_eq _ _ _ hb
      exact Nat.mod_lt _ (by positivity)
  | false =>
    simp only [matOf, zipWith_range_map]
    rfl

theorem filter_length_lt (n k : Nat) (p : Nat → Bool) (hk : k < n) (hp : p k = true) :
    ((List.range k).filter p).length < ((List.range n).filter p).length := by
  have h : List.range n = List.range (k + 1) ++ (List.range (n - (k + 1))).map (k + 1 + ·) := by
    rw [← List.range_add]; congr 1; omega
  rw [h, List.filter_append, List.range_succ, List.filter_append]
  simp [hp]

theorem append_replicate_set {α : Type} (l : List α) (n : Nat) (z v : α) (h : l.length < n) :
    (l ++ List.replicate (n - l.length) z).set l.length v
      = (l ++ [v]) ++ List.replicate (n - (l.length + 1)) z := by
  obtain ⟨d, hd⟩ : ∃ d, n - l.length = d + 1 := ⟨n - l.length - 1, by omega⟩
  have hd' : n - (l.length + 1) = d := by omega
  rw [hd, hd', List.replicate_succ, List.set_append_right _ _ (by simp)]
  simp

/-- A crossbar loop of `load_weights` that stores `cell` and `bit`. -/
theorem loadLoop_of (m : Mvmu) (hl : Layout m.cfg m.data.storageConfig)
    (f : LoadAcc → Nat → Except PyErr LoadAcc) (cell : Nat → Nat → Nat → ℚ) (bit : Nat → Nat → Nat → Int)
    (hf : ∀ acc k, k < m.data.storageConfig.length → f acc k
      = .ok (if isRram m.data.storageConfig k then
          { acc with
            rram := acc.rram.set acc.rramIdx (matOf m.cfg.xbarSize (cell k))
            rramIdx := acc.rramIdx + 1 }
        else
          { acc with
            sram := acc.sram.set acc.sramIdx (matOf m.cfg.xbarSize (bit k))
            sramIdx := acc.sramIdx + 1 })) :
    ∃ acc, (List.range m.cfg.numXbarPerMvmu).foldlM f
      { rram := zeros3 m.cfg.numRramXbarPerMvmu m.cfg.xbarSize m.cfg.xbarSize
        sram := zeros3 m.cfg.numSramXbarPerMvmu m.cfg.xbarSize m.cfg.xbarSize } = .ok acc ∧
      acc.rram = (rramIdx m.data.storageConfig).map (fun k => matOf m.cfg.xbarSize (cell k)) ∧
      acc.sram = (sramIdx m.data.storageConfig).map (fun k => matOf m.cfg.xbarSize (bit k)) := by
  set st := m.data.storageConfig with hst
  obtain ⟨acc, hacc, h1, h2, h3, h4⟩ := foldlM_range_invariant f
    (fun k acc =>
      acc.rram = ((List.range k).filter (isRram st)).map
          (fun k => matOf m.cfg.xbarSize (cell k))
        ++ List.replicate ((rramIdx st).length - ((List.range k).filter (isRram st)).length)
          (List.replicate m.cfg.xbarSize (List.replicate m.cfg.xbarSize 0)) ∧
      acc.rramIdx = ((List.range k).filter (isRram st)).length ∧
      acc.sram = ((List.range k).filter (fun k => !isRram st k)).map
          (fun k => matOf m.cfg.xbarSize (bit k))
        ++ List.replicate ((sramIdx st).length -
            ((List.range k).filter (fun k => !isRram st k)).length)
          (List.replicate m.cfg.xbarSize (List.replicate m.cfg.xbarSize 0)) ∧
      acc.sramIdx = ((List.range k).filter (fun k => !isRram st k)).length)
    m.cfg.numXbarPerMvmu
    { rram := zeros3 m.cfg.numRramXbarPerMvmu m.cfg.xbarSize m.cfg.xbarSize
      sram := zeros3 m.cfg.numSramXbarPerMvmu m.cfg.xbarSize m.cfg.xbarSize }
    (by simp [zeros3, hl.numRram, hl.numSram, hst])
    (by
      rintro k acc hk ⟨h1, h2, h3, h4⟩
      rw [hl.numXbar] at hk
      refine ⟨_, hf acc k hk, ?_⟩
      rw [List.range_succ]
      cases hr : isRram st k with
      | true =>
        have hlt : ((List.range k).filter (isRram st)).length < (rramIdx st).length :=
          filter_length_lt _ _ _ hk hr
        simp only [if_true, List.filter_append, hr, List.filter_cons_of_pos, List.filter_nil,
          List.map_append, List.length_append, List.length_singleton, List.map_cons, List.map_nil]
        refine ⟨?_, by omega, ?_, ?_⟩
        · rw [h1, h2]
          have := append_replicate_set
            (((List.range k).filter (isRram st)).map
              (fun k => matOf m.cfg.xbarSize (cell k))) (rramIdx st).length
            (List.replicate m.cfg.xbarSize (List.replicate m.cfg.xbarSize (0 : ℚ)))
            (matOf m.cfg.xbarSize (cell k)) (by simpa using hlt)
          simp only [List.length_map] at this
          exact this
        · simpa [hr] using h3
        · simpa [hr] using h4
      | false =>
        have hlt : ((List.range k).filter (fun k => !isRram st k)).length < (sramIdx st).length :=
          filter_length_lt _ _ _ hk (by simp [hr])
        have e1 : List.filter (isRram st) [k] = [] := by simp [hr]
        have e2 : List.filter (fun k => !isRram st k) [k] = [k] := by simp [hr]
        simp only [List.filter_append, e1, e2, List.append_nil,
          List.map_append, List.length_append, List.length_singleton, List.map_cons, List.map_nil]
        refine ⟨h1, h2, ?_, by simpa using h4⟩
        · simp only [Bool.false_eq_true, if_false]
          rw [h3, h4]
          have := append_replicate_set
            (((List.range k).filter (fun k => !isRram st k)).map
              (fun k => matOf m.cfg.xbarSize (bit k))) (sramIdx st).length
            (List.replicate m.cfg.xbarSize (List.replicate m.cfg.xbarSize (0 : Int)))
            (matOf m.cfg.xbarSize (bit k)) (by simpa using hlt)
          simp only [List.length_map] at this
          exact this)
  refine ⟨acc, hacc, ?_, ?_⟩
  · rw [h1, hl.numXbar]
    have : (List.range st.length).filter (isRram st) = rramIdx st := rfl
    rw [this]; simp
  · rw [h3, hl.numXbar]
    have : (List.range st.length).filter (fun k => !isRram st k) = sramIdx st := rfl
    rw [this]; simp

/-- Result of the crossbar loop of `load_weights`. -/
theorem loadLoop (m : Mvmu) (hl : Layout m.cfg m.data.storageConfig) (W : Nat → Nat → ℚ) :
    ∃ acc, (List.range m.cfg.numXbarPerMvmu).foldlM
      (m.loadStep (matOf m.cfg.xbarSize fun r j => npSign (W r j))
        (matOf m.cfg.xbarSize fun r j => (floatToFixed |W r j| m.data.weightFracBits).toNat))
      { rram := zeros3 m.cfg.numRramXbarPerMvmu m.cfg.xbarSize m.cfg.xbarSize
        sram := zeros3 m.cfg.numSramXbarPerMvmu m.cfg.xbarSize m.cfg.xbarSize } = .ok acc ∧
      acc.rram = (rramIdx m.data.storageConfig).map (fun k => matOf m.cfg.xbarSize (rramCell m W k)) ∧
      acc.sram = (sramIdx m.data.storageConfig).map (fun k => matOf m.cfg.xbarSize (sramCell m W k)) :=
  loadLoop_of m hl _ (rramCell m W) (sramCell m W) (loadStep_eq m hl W)

theorem loadRram_of (m : Mvmu) (hm : MvmuOk m) (w : List (List (List ℚ))) (cell : Nat → Nat → Nat → ℚ)
    (hr : w = (rramIdx m.data.storageConfig).map (fun k => matOf m.cfg.xbarSize (cell k))) :
    m.loadRram w = (.ok { m.rram with
        posXbar := (rramIdx m.data.storageConfig).map fun k =>
          matOf m.cfg.xbarSize fun r j => max (cell k r j) 0
        negXbar := (rramIdx m.data.storageConfig).map fun k =>
          matOf m.cfg.xbarSize fun r j => max (-cell k r j) 0 } :
          Except PyErr RRAMXbar) := by
  have hl := hm.layout
  unfold Mvmu.loadRram
  split
  · unfold RRAMXbar.loadWeights
    rw [hr, hl.numRram]
    have hsh := shape3_map (rramIdx m.data.storageConfig) m.cfg.xbarSize m.cfg.xbarSize
      (cell)
    simp only [matOf] at hsh ⊢
    simp only [hsh, not_true_eq_false, if_false, List.map_map, Function.comp_def]
  · rename_i hh
    have hnil : rramIdx m.data.storageConfig = [] := by
      by_contra hc; exact hh (hl.haveRram.2 hc)
    have hp := (shape3_iff _ _ _ _).1 hm.rramPos
    have hn := (shape3_iff _ _ _ _).1 hm.rramNeg
    rw [hl.numRram, hnil] at hp hn
    simp only [hnil, List.map_nil]
    have e1 : m.rram.posXbar = [] := List.length_eq_zero_iff.1 hp.1
    have e2 : m.rram.negXbar = [] := List.length_eq_zero_iff.1 hn.1
    exact congrArg _ (rram_eta _ e1 e2)

theorem loadSram_of (m : Mvmu) (hm : MvmuOk m) (w : List (List (List Int))) (bit : Nat → Nat → Nat → Int)
    (hsr : w = (sramIdx m.data.storageConfig).map (fun k => matOf m.cfg.xbarSize (bit k))) :
    m.loadSram w = (.ok { m.sram with
        posXbar := (sramIdx m.data.storageConfig).map fun k =>
          matOf m.cfg.xbarSize fun r j => if bit k r j = 1 then 1 else 0
        negXbar := (sramIdx m.data.storageConfig).map fun k =>
          matOf m.cfg.xbarSize fun r j => if bit k r j = -1 then 1 else 0 } :
          Except PyErr SRAMCim) := by
  have hl := hm.layout
  unfold Mvmu.loadSram
  split
  · unfold SRAMCim.loadWeights
    rw [hsr, hl.numSram]
    have hsh := shape3_map (sramIdx m.data.storageConfig) m.cfg.xbarSize m.cfg.xbarSize
      (bit)
    simp only [matOf] at hsh ⊢
    simp only [hsh, not_true_eq_false, if_false, List.map_map, Function.comp_def]
  · rename_i hh
    have hnil : sramIdx m.data.storageConfig = [] := by
      by_contra hc; exact hh (hl.haveSram.2 hc)
    have hp := (shape3_iff _ _ _ _).1 hm.sramPos
    have hn := (shape3_iff _ _ _ _).1 hm.sramNeg
    rw [hl.numSram, hnil] at hp hn
    simp only [hnil, List.map_nil]
    have e1 : m.sram.posXbar = [] := List.length_eq_zero_iff.1 hp.1
    have e2 : m.sram.negXbar = [] := List.length_eq_zero_iff.1 hn.1
    exact congrArg _ (sram_eta _ e1 e2)

/-- `load_weights` succeeds on every weight matrix of the right shape; this is what is stored. -/
theorem loadWeights_eq (m : Mvmu) (hm : MvmuOk m) (weights : List (List ℚ))
    (hw : shape2 weights m.cfg.xbarSize m.cfg.xbarSize = true) :
    m.loadWeights weights = .ok { m with
      rram := { m.rram with
        posXbar := (rramIdx m.data.storageConfig).map fun k =>
          matOf m.cfg.xbarSize fun r j => max (rramCell m (entry weights) k r j) 0
        negXbar := (rramIdx m.data.storageConfig).map fun k =>
          matOf m.cfg.xbarSize fun r j => max (-rramCell m (entry weights) k r j) 0 }
      sram := { m.sram with
        posXbar := (sramIdx m.data.storageConfig).map fun k =>
          matOf m.cfg.xbarSize fun r j => if sramCell m (entry weights) k r j = 1 then 1 else 0
        negXbar := (sramIdx m.data.storageConfig).map fun k =>
          matOf m.cfg.xbarSize fun r j => if sramCell m (entry weights) k r j = -1 then 1 else 0 } } := by
  have hl := hm.layout
  have hcan := shape2_canonical weights _ _ (0 : ℚ) hw
  have hs : weights.map (fun r => r.map npSign)
      = matOf m.cfg.xbarSize fun r j => npSign (entry weights r j) := by
    conv => lhs; rw [hcan]
    exact matOf_map _ _ _
  have hi : weights.map (fun r => r.map fun w => (floatToFixed |w| m.data.weightFracBits).toNat)
      = matOf m.cfg.xbarSize fun r j =>
          (floatToFixed |entry weights r j| m.data.weightFracBits).toNat := by
    conv => lhs; rw [hcan]
    exact matOf_map _ _ _
  unfold Mvmu.loadWeights
  rw [if_neg (by simpa using hw)]
  simp only
  rw [hs, hi]
  obtain ⟨acc, hacc, hr, hsr⟩ := loadLoop m hl (entry weights)
  rw [hacc]
  simp only [bind, Except.bind]
  rw [loadRram_of m hm _ _ hr, loadSram_of m hm _ _ hsr]

end Ramwich
