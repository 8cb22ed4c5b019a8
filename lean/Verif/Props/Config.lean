import Verif.Lemmas.Config
import Verif.Props.Demo

/-! # Properties of the configuration (C54) -/
namespace Ramwich

open Spec

/-- C54: which configurations are accepted: the columns divide evenly among the ADCs, the bits of the
storage letters add up to the weight width, and the activations are not empty. -/
theorem C54_accepted_iff (c : Config) :
    (∃ c', c.build = .ok c') ↔
      0 < c.mvmuConfig.numColumnsPerAdc ∧ c.mvmuConfig.numColumnsPerAdc ∣ c.mvmuConfig.xbarSize ∧
      (c.dataConfig.storageConfig.map cellBits).sum = c.dataConfig.weightIntBits + c.dataConfig.weightFracBits ∧
      0 < c.dataConfig.activationIntBits + c.dataConfig.activationFracBits := by
  have e1 := (storage_foldl c.dataConfig.storageConfig c.mvmuConfig.haveRramXbar c.mvmuConfig.haveSramXbar).1
  have hsl : slicePos c.dataConfig.storageConfig c.dataConfig.storageConfig.length
      = (c.dataConfig.storageConfig.map cellBits).sum := by simp [slicePos]
  rw [hsl] at e1
  unfold Config.build MVMUConfig.init
  by_cases h0 : c.mvmuConfig.numColumnsPerAdc = 0
  · rw [if_pos h0]
    constructor
    · rintro ⟨c', h⟩; cases h
    · rintro ⟨h, -⟩; omega
  rw [if_neg h0]
  by_cases h1 : c.mvmuConfig.xbarSize % c.mvmuConfig.numColumnsPerAdc ≠ 0
  · rw [if_pos h1]
    constructor
    · rintro ⟨c', h⟩; cases h
    · rintro ⟨-, h, -⟩; exact absurd (Nat.mod_eq_zero_of_dvd h) h1
  rw [if_neg h1]
  dsimp only
  unfold Config.validateAndCalculate
  dsimp only at e1 ⊢
  rw [e1]
  have hdvd : c.mvmuConfig.numColumnsPerAdc ∣ c.mvmuConfig.xbarSize := Nat.dvd_of_mod_eq_zero (by omega)
  constructor
  · rintro ⟨c', h⟩
    split at h
    · cases h
    rename_i h2
    split at h
    · cases h
    rename_i h3
    refine ⟨by omega, hdvd, ?_, ?_⟩
    · simpa [DataConfig.weightWidth] using h2
    · simp only [DataConfig.activationWidth] at h3; omega
  · rintro ⟨-, -, h2, h3⟩
    rw [if_neg (by simpa [DataConfig.weightWidth] using h2),
      if_neg (by simp only [DataConfig.activationWidth]; omega)]
    exact ⟨_, rfl⟩

example : ∃ c', demo.build = .ok c' := (C54_accepted_iff demo).2 (by decide)

/-- C54, rejection: bits that do not add up make the construction fail with the assertion (when nothing
else is wrong). -/
theorem C54_bits_mismatch_rejected (c : Config)
    (h0 : 0 < c.mvmuConfig.numColumnsPerAdc) (h1 : c.mvmuConfig.numColumnsPerAdc ∣ c.mvmuConfig.xbarSize)
    (h : (c.dataConfig.storageConfig.map cellBits).sum ≠
      c.dataConfig.weightIntBits + c.dataConfig.weightFracBits) :
    c.build = .error .assertionError := by
  have e1 := (storage_foldl c.dataConfig.storageConfig c.mvmuConfig.haveRramXbar c.mvmuConfig.haveSramXbar).1
  have hsl : slicePos c.dataConfig.storageConfig c.dataConfig.storageConfig.length
      = (c.dataConfig.storageConfig.map cellBits).sum := by simp [slicePos]
  rw [hsl] at e1
  unfold Config.build MVMUConfig.init
  rw [if_neg (by omega), if_neg (by simp [Nat.mod_eq_zero_of_dvd h1])]
  dsimp only
  unfold Config.validateAndCalculate
  dsimp only at e1 ⊢
  rw [e1, if_pos (by simpa [DataConfig.weightWidth] using h)]

example : ({ demo with dataConfig := { demo.dataConfig with weightIntBits := 3 } } : Config).build
    = .error .assertionError :=
  C54_bits_mismatch_rejected _ (by decide) (by decide) (by decide)

/-- C54, the derived fields of an accepted configuration, in terms of what the user wrote (the letters
`st`): the bit positions are the running sums of the bits per cell, from 0 up to the weight width; the two
output maps list the analog and the digital crossbars in increasing order and every crossbar is in exactly
one of them; the counts and flags fit; the ADCs share the columns evenly; the DRAM has as many words as
fit its capacity; nothing the user wrote is changed. (`have_*_xbar` left at their default, as in every
normal configuration file.) -/
theorem C54_derived (c c' : Config) (h : c.build = .ok c')
    (hr : c.mvmuConfig.haveRramXbar = false) (hs : c.mvmuConfig.haveSramXbar = false) :
    let st := c.dataConfig.storageConfig
    let m := c'.mvmuConfig
    (m.storedBit.length = st.length + 1 ∧ m.storedBit[0]? = some 0 ∧
      m.storedBit[st.length]? = some (c.dataConfig.weightIntBits + c.dataConfig.weightFracBits) ∧
      (∀ k (hk : k < st.length), ∃ p, m.storedBit[k]? = some p ∧ m.storedBit[k + 1]? = some (p + cellBits st[k])) ∧
      m.storedBit.Pairwise (· < ·)) ∧
    (m.bitsPerCell = st.map cellBits ∧ m.isXbarRram = st.map fun b => decide (b ≠ .sram)) ∧
    (m.rramToOutputMap.Pairwise (· < ·) ∧ m.sramToOutputMap.Pairwise (· < ·) ∧
      (∀ k, k ∈ m.rramToOutputMap ↔ ∃ hk : k < st.length, st[k] ≠ .sram) ∧
      (∀ k, k ∈ m.sramToOutputMap ↔ ∃ hk : k < st.length, st[k] = .sram)) ∧
    (m.numRramXbarPerMvmu = st.countP (fun b => decide (b ≠ .sram)) ∧ m.numSramXbarPerMvmu = st.count .sram ∧
      m.numXbarPerMvmu = st.length ∧ m.numXbarPerMvmu = m.numRramXbarPerMvmu + m.numSramXbarPerMvmu ∧
      m.rramToOutputMap.length = m.numRramXbarPerMvmu ∧ m.sramToOutputMap.length = m.numSramXbarPerMvmu) ∧
    ((m.haveRramXbar = true ↔ ∃ b ∈ st, b ≠ .sram) ∧ (m.haveSramXbar = true ↔ .sram ∈ st)) ∧
    m.numAdcPerXbar * m.numColumnsPerAdc = m.xbarSize ∧
    (c'.tileConfig.edramSize * (c.dataConfig.activationIntBits + c.dataConfig.activationFracBits)
        ≤ c.tileConfig.edramSizeInKB * 8192 ∧
      c.tileConfig.edramSizeInKB * 8192
        < (c'.tileConfig.edramSize + 1) * (c.dataConfig.activationIntBits + c.dataConfig.activationFracBits)) ∧
    c' = { c with
      mvmuConfig := { c.mvmuConfig with
        numAdcPerXbar := m.numAdcPerXbar, storedBit := m.storedBit, bitsPerCell := m.bitsPerCell
        isXbarRram := m.isXbarRram, numRramXbarPerMvmu := m.numRramXbarPerMvmu
        numSramXbarPerMvmu := m.numSramXbarPerMvmu, numXbarPerMvmu := m.numXbarPerMvmu
        rramToOutputMap := m.rramToOutputMap, sramToOutputMap := m.sramToOutputMap
        haveRramXbar := m.haveRramXbar, haveSramXbar := m.haveSramXbar }
      tileConfig := { c.tileConfig with edramSize := c'.tileConfig.edramSize } } := by
  obtain ⟨L, hw, ha⟩ := build_layout c c' h hr hs
  have hsame : c' = { c with
      mvmuConfig := { c.mvmuConfig with
        numAdcPerXbar := c'.mvmuConfig.numAdcPerXbar, storedBit := c'.mvmuConfig.storedBit
        bitsPerCell := c'.mvmuConfig.bitsPerCell
        isXbarRram := c'.mvmuConfig.isXbarRram, numRramXbarPerMvmu := c'.mvmuConfig.numRramXbarPerMvmu
        numSramXbarPerMvmu := c'.mvmuConfig.numSramXbarPerMvmu, numXbarPerMvmu := c'.mvmuConfig.numXbarPerMvmu
        rramToOutputMap := c'.mvmuConfig.rramToOutputMap, sramToOutputMap := c'.mvmuConfig.sramToOutputMap
        haveRramXbar := c'.mvmuConfig.haveRramXbar, haveSramXbar := c'.mvmuConfig.haveSramXbar }
      tileConfig := { c.tileConfig with edramSize := c'.tileConfig.edramSize } } ∧
      c'.tileConfig.edramSize = c.tileConfig.edramSizeInKB * 1024 * 8 / c.dataConfig.activationWidth := by
    unfold Config.build MVMUConfig.init at h
    split at h
    · cases h
    rename_i m hm
    split at hm
    · cases hm
    split at hm
    · cases hm
    injection hm with hm
    subst hm
    unfold Config.validateAndCalculate at h
    dsimp only at h
    split at h
    · cases h
    split at h
    · cases h
    injection h with h
    subst h
    exact ⟨rfl, rfl⟩
  have hd : c'.dataConfig = c.dataConfig := by rw [hsame.1]
  rw [hd] at L hw ha
  intro st m
  change Layout m st at L
  change slicePos st st.length = _ at hw
  have hbits : ∀ k (hk : k < st.length), bitsOf st k = cellBits st[k] := by
    intro k hk
    simp [bitsOf, List.getD_eq_getElem?_getD, List.getElem?_eq_getElem hk]
  have hisr : ∀ k (hk : k < st.length), isRram st k = decide (st[k] ≠ .sram) := by
    intro k hk
    simp [isRram, List.getD_eq_getElem?_getD, List.getElem?_eq_getElem hk]
  have hget : ∀ k, k ≤ st.length → m.storedBit[k]? = some (slicePos st k) := by
    intro k hk
    rw [show m.storedBit = _ from L.storedBit, List.getElem?_map, List.getElem?_range (by omega)]
    rfl
  have hmono : ∀ k d, k + d + 1 ≤ st.length → slicePos st k < slicePos st (k + d + 1) := by
    intro k d
    induction d with
    | zero => intro hk; rw [slicePos_succ st k (by omega)]; have := bitsOf_pos st k; omega
    | succ d ih =>
      intro hk
      have h1 := ih (by omega)
      have h2 := slicePos_succ st (k + d + 1) (by omega)
      rw [show k + (d + 1) + 1 = k + d + 1 + 1 by omega, h2]; omega
  have hmapR : st.map (fun b => decide (b ≠ .sram)) = (List.range st.length).map (isRram st) := by
    apply List.ext_getElem (by simp)
    intro k h1 h2
    simp only [List.length_map] at h1
    simp [hisr k h1]
  have hcountR : (rramIdx st).length = st.countP (fun b => decide (b ≠ .sram)) := by
    unfold rramIdx
    rw [← List.countP_eq_length_filter]
    have := congrArg (List.countP id) hmapR
    rw [List.countP_map, List.countP_map] at this
    simpa [Function.comp_def] using this.symm
  have hcountS : (sramIdx st).length = st.count .sram := by
    have h1 := rramIdx_sramIdx_length st
    have h2 := List.length_eq_countP_add_countP (l := st) (fun b => decide (b ≠ .sram))
    have h3 : st.countP (fun b => decide (¬ decide (b ≠ BitConfig.sram) = true)) = st.count .sram := by
      rw [List.count_eq_countP]
      apply List.countP_congr
      intro b _
      cases b <;> decide
    omega
  have hmemR : ∀ k, k ∈ rramIdx st ↔ ∃ hk : k < st.length, st[k] ≠ .sram := by
    intro k
    simp only [rramIdx, List.mem_filter, List.mem_range]
    constructor
    · rintro ⟨hk, h⟩; refine ⟨hk, ?_⟩; rw [hisr k hk] at h; simpa using h
    · rintro ⟨hk, h⟩; refine ⟨hk, ?_⟩; rw [hisr k hk]; simpa using h
  have hmemS : ∀ k, k ∈ sramIdx st ↔ ∃ hk : k < st.length, st[k] = .sram := by
    intro k
    simp only [sramIdx, List.mem_filter, List.mem_range]
    constructor
    · rintro ⟨hk, h⟩; refine ⟨hk, ?_⟩; rw [hisr k hk] at h; simpa using h
    · rintro ⟨hk, h⟩; refine ⟨hk, ?_⟩; rw [hisr k hk]; simpa using h
  have hpw : ∀ p, ((List.range st.length).filter p).Pairwise (· < ·) := fun p =>
    List.Pairwise.filter p List.pairwise_lt_range
  have haw : c.dataConfig.activationWidth = c.dataConfig.activationIntBits + c.dataConfig.activationFracBits := rfl
  refine ⟨⟨?_, ?_, ?_, ?_, ?_⟩, ⟨?_, ?_⟩, ⟨?_, ?_, ?_, ?_⟩, ⟨?_, ?_, L.numXbar, ?_, ?_, ?_⟩, ⟨?_, ?_⟩, L.size.symm, ⟨?_, ?_⟩,
    hsame.1⟩
  · rw [show m.storedBit = _ from L.storedBit]; simp
  · rw [hget 0 (by omega)]; simp [slicePos]
  · rw [hget _ le_rfl, hw]; rfl
  · intro k hk
    exact ⟨slicePos st k, hget k (by omega), by rw [hget (k + 1) (by omega), slicePos_succ st k hk, hbits k hk]⟩
  · rw [show m.storedBit = _ from L.storedBit, List.pairwise_map]
    refine List.pairwise_lt_range.imp_of_mem ?_
    intro a b ha hb hab
    rw [List.mem_range] at ha hb
    have := hmono a (b - a - 1) (by omega)
    rwa [show a + (b - a - 1) + 1 = b by omega] at this
  · rw [show m.bitsPerCell = _ from L.bitsPerCell]
    apply List.ext_getElem (by simp)
    intro k h1 h2
    simp only [List.length_map] at h2
    simp [hbits k h2]
  · rw [show m.isXbarRram = _ from L.isXbarRram]; exact hmapR.symm
  · rw [show m.rramToOutputMap = _ from L.rramMap]; exact hpw _
  · rw [show m.sramToOutputMap = _ from L.sramMap]; exact hpw _
  · rw [show m.rramToOutputMap = _ from L.rramMap]; exact hmemR
  · rw [show m.sramToOutputMap = _ from L.sramMap]; exact hmemS
  · exact L.numRram.trans hcountR
  · exact L.numSram.trans hcountS
  · rw [show m.numXbarPerMvmu = _ from L.numXbar, show m.numRramXbarPerMvmu = _ from L.numRram,
      show m.numSramXbarPerMvmu = _ from L.numSram, Nat.add_comm]
    exact (rramIdx_sramIdx_length st).symm
  · rw [show m.rramToOutputMap = _ from L.rramMap]; exact L.numRram.symm
  · rw [show m.sramToOutputMap = _ from L.sramMap]; exact L.numSram.symm
  · refine L.haveRram.trans ⟨fun hne => ?_, fun ⟨b, hb, hbs⟩ => ?_⟩
    · obtain ⟨k, hk⟩ := List.exists_mem_of_ne_nil _ hne
      obtain ⟨hl, hx⟩ := (hmemR k).1 hk
      exact ⟨st[k], List.getElem_mem hl, hx⟩
    · obtain ⟨k, hk, rfl⟩ := List.getElem_of_mem hb
      exact List.ne_nil_of_mem ((hmemR k).2 ⟨hk, hbs⟩)
  · refine L.haveSram.trans ⟨fun hne => ?_, fun hb => ?_⟩
    · obtain ⟨k, hk⟩ := List.exists_mem_of_ne_nil _ hne
      obtain ⟨hl, hx⟩ := (hmemS k).1 hk
      exact hx ▸ List.getElem_mem hl
    · obtain ⟨k, hk, hx⟩ := List.getElem_of_mem hb
      exact List.ne_nil_of_mem ((hmemS k).2 ⟨hk, hx⟩)
  · rw [hsame.2, haw, show c.tileConfig.edramSizeInKB * 8192 = c.tileConfig.edramSizeInKB * 1024 * 8 by ring]
    exact Nat.div_mul_le_self _ _
  · rw [hsame.2, haw, show c.tileConfig.edramSizeInKB * 8192 = c.tileConfig.edramSizeInKB * 1024 * 8 by ring,
      Nat.add_mul, Nat.one_mul]
    exact Nat.lt_div_mul_add (Nat.pos_of_ne_zero (haw ▸ ha))

example := C54_derived demo demoBuilt demo_build rfl rfl
example : demoBuilt.mvmuConfig.storedBit = [0, 2, 3, 5] ∧ demoBuilt.mvmuConfig.rramToOutputMap = [0, 2] ∧
    demoBuilt.mvmuConfig.sramToOutputMap = [1] ∧ demoBuilt.tileConfig.edramSize = 16777216 := by decide +kernel

/-- C54 limit: a configuration file that sets `have_sram_xbar` itself is accepted without any SRAM
crossbar, and the flag then stays set (the flags are only ever switched on, config.py:642, 648): such a
unit looks for digital crossbars that do not exist. -/
theorem C54_flag_witness : ∃ c c' : Config, c.build = .ok c' ∧
    .sram ∉ c.dataConfig.storageConfig ∧ c'.mvmuConfig.haveSramXbar = true := by
  let c : Config := { demo with
    dataConfig := { demo.dataConfig with storageConfig := [.mlc, .slc, .mlc] }
    mvmuConfig := { demo.mvmuConfig with haveSramXbar := true } }
  exact ⟨c, match c.build with | .ok c => c | .error _ => demo, by decide +kernel, by decide, by decide +kernel⟩

end Ramwich
