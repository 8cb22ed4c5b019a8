import Verif.Spec.Mvm
import Verif.Lemmas.Lists

/-! # The derived crossbar layout of a configuration -/
namespace Ramwich

open Spec

/-- Crossbar numbers that are analog / digital. -/
def rramIdx (st : List BitConfig) : List Nat := (List.range st.length).filter (isRram st)
def sramIdx (st : List BitConfig) : List Nat := (List.range st.length).filter (fun k => !isRram st k)

/-- The layout fields of an `MVMUConfig` agree with the storage configuration. -/
structure Layout (c : MVMUConfig) (st : List BitConfig) : Prop where
  storedBit : c.storedBit = (List.range (st.length + 1)).map (slicePos st)
  bitsPerCell : c.bitsPerCell = (List.range st.length).map (bitsOf st)
  isXbarRram : c.isXbarRram = (List.range st.length).map (isRram st)
  numRram : c.numRramXbarPerMvmu = (rramIdx st).length
  numSram : c.numSramXbarPerMvmu = (sramIdx st).length
  numXbar : c.numXbarPerMvmu = st.length
  rramMap : c.rramToOutputMap = rramIdx st
  sramMap : c.sramToOutputMap = sramIdx st
  haveRram : c.haveRramXbar = true ↔ rramIdx st ≠ []
  haveSram : c.haveSramXbar = true ↔ sramIdx st ≠ []
  size : c.xbarSize = c.numAdcPerXbar * c.numColumnsPerAdc
  cpaPos : 0 < c.numColumnsPerAdc

theorem slicePos_succ (st : List BitConfig) (k : Nat) (h : k < st.length) :
    slicePos st (k + 1) = slicePos st k + bitsOf st k := by
  unfold slicePos bitsOf
  rw [List.take_add_one, List.getElem?_eq_getElem h, List.getD_eq_getElem?_getD,
    List.getElem?_eq_getElem h]
  simp only [Option.toList_some, List.map_append, List.map_cons, List.map_nil, List.sum_append,
    List.sum_cons, List.sum_nil, Option.getD_some, Nat.add_zero]

theorem bitsOf_pos (st : List BitConfig) (k : Nat) : 0 < bitsOf st k := by
  unfold bitsOf; cases st.getD k .sram <;> simp [cellBits]

/-- Loop invariant of the first loop of `validate_and_calculate`. -/
theorem storage_foldl (st : List BitConfig) (hr hs : Bool) :
    let a := st.foldl StorageAcc.step { haveRram := hr, haveSram := hs }
    a.bits = slicePos st st.length ∧
    a.storedBit = (List.range st.length).map (slicePos st) ∧
    a.bitsPerCell = (List.range st.length).map (bitsOf st) ∧
    a.isXbarRram = (List.range st.length).map (isRram st) ∧
    a.numRram = (rramIdx st).length ∧
    a.numSram = (sramIdx st).length ∧
    (a.haveRram = true ↔ (hr = true ∨ rramIdx st ≠ [])) ∧
    (a.haveSram = true ↔ (hs = true ∨ sramIdx st ≠ [])) := by
  induction st using List.reverseRecOn with
  | nil => simp [slicePos, rramIdx, sramIdx]
  | append_singleton l b ih =>
    simp only [List.foldl_append, List.foldl_cons, List.foldl_nil]
    obtain ⟨h1, h2, h3, h4, h5, h6, h7, h8⟩ := ih
    generalize hgen : List.foldl StorageAcc.step { haveRram := hr, haveSram := hs } l = a at *
    have sp : ∀ k, k ≤ l.length → slicePos (l ++ [b]) k = slicePos l k := by
      intro k hk; simp [slicePos, List.take_append_of_le_length hk]
    have bo : ∀ k, k < l.length → bitsOf (l ++ [b]) k = bitsOf l k := by
      intro k hk; simp [bitsOf, List.getD_eq_getElem?_getD, List.getElem?_append_left hk]
    have ir : ∀ k, k < l.length → isRram (l ++ [b]) k = isRram l k := by
      intro k hk; simp [isRram, List.getD_eq_getElem?_getD, List.getElem?_append_left hk]
    have bl : bitsOf (l ++ [b]) l.length = cellBits b := by simp [bitsOf, List.getD_eq_getElem?_getD]
    have il : isRram (l ++ [b]) l.length = decide (b ≠ .sram) := by
      simp [isRram, List.getD_eq_getElem?_getD]
    have sl : slicePos (l ++ [b]) (l.length + 1) = slicePos l l.length + cellBits b := by
      rw [slicePos_succ _ _ (by simp), sp _ le_rfl, bl]
    have mapsp : (List.range l.length).map (slicePos (l ++ [b])) = (List.range l.length).map (slicePos l) :=
      List.map_congr_left fun k hk => sp k (by rw [List.mem_range] at hk; omega)
    have mapbo : (List.range l.length).map (bitsOf (l ++ [b])) = (List.range l.length).map (bitsOf l) :=
      List.map_congr_left fun k hk => bo k (by rw [List.mem_range] at hk; omega)
    have mapir : (List.range l.length).map (isRram (l ++ [b])) = (List.range l.length).map (isRram l) :=
      List.map_congr_left fun k hk => ir k (by rw [List.mem_range] at hk; omega)
    have fr : (List.range l.length).filter (isRram (l ++ [b])) = rramIdx l :=
      List.filter_congr fun k hk => ir k (by rw [List.mem_range] at hk; omega)
    have fs : (List.range l.length).filter (fun k => !isRram (l ++ [b]) k) = sramIdx l :=
      List.filter_congr fun k hk => by rw [ir k (by rw [List.mem_range] at hk; omega)]
    have rr : rramIdx (l ++ [b]) = rramIdx l ++ (if b ≠ .sram then [l.length] else []) := by
      simp only [rramIdx, List.length_append, List.length_singleton, List.range_succ,
        List.filter_append]
      rw [fr]
      by_cases hb : b = .sram
      · subst hb; simp [il, rramIdx]
      · simp [il, hb, rramIdx]
    have ss : sramIdx (l ++ [b]) = sramIdx l ++ (if b = .sram then [l.length] else []) := by
      simp only [sramIdx, List.length_append, List.length_singleton, List.range_succ,
        List.filter_append]
      rw [fs]
      by_cases hb : b = .sram
      · subst hb; simp [il, sramIdx]
      · simp [il, hb, sramIdx]
    by_cases hb : b = .sram
    · subst hb
      simp [StorageAcc.step, rr, ss, List.range_succ, sl, sp, bl, il, h1, h2, h3, h4, h5, h6, h7,
        mapsp, mapbo, mapir, cellBits]
    · have hbits : b.bits = cellBits b := by cases b <;> rfl
      simp [StorageAcc.step, hb, rr, ss, List.range_succ, sl, sp, bl, il, h1, h2, h3, h4, h5, h6, h8,
        mapsp, mapbo, mapir, hbits]

theorem outputMaps_eq (st : List BitConfig) :
    outputMaps ((List.range st.length).map (isRram st)) st.length = (rramIdx st, sramIdx st) := by
  have key : ∀ k, k ≤ st.length →
      (List.range k).foldl
        (fun acc i =>
          if ((List.range st.length).map (isRram st)).getD i false then (acc.1 ++ [i], acc.2)
          else (acc.1, acc.2 ++ [i])) (([], []) : List Nat × List Nat)
      = ((List.range k).filter (isRram st), (List.range k).filter fun k => !isRram st k) := by
    intro k
    induction k with
    | zero => intro _; rfl
    | succ k ih =>
      intro hk
      rw [List.range_succ, List.foldl_append, ih (by omega)]
      simp only [List.foldl_cons, List.foldl_nil]
      rw [getD_range_map _ _ _ _ (by omega)]
      cases h : isRram st k <;> simp [h]
  exact key _ le_rfl

theorem rramIdx_sramIdx_length (st : List BitConfig) :
    (sramIdx st).length + (rramIdx st).length = st.length := by
  have h := List.length_eq_length_filter_add (l := List.range st.length) (isRram st)
  simp only [List.length_range] at h
  unfold rramIdx sramIdx
  omega

/-- `MVMUConfig.__init__` followed by `validate_and_calculate` yields a consistent layout. -/
theorem build_layout (c c' : Config) (h : c.build = .ok c')
    (h1 : c.mvmuConfig.haveRramXbar = false) (h2 : c.mvmuConfig.haveSramXbar = false) :
    Layout c'.mvmuConfig c'.dataConfig.storageConfig ∧
    slicePos c'.dataConfig.storageConfig c'.dataConfig.storageConfig.length
      = c'.dataConfig.weightWidth ∧
    c'.dataConfig.activationWidth ≠ 0 := by
  unfold Config.build MVMUConfig.init at h
  split at h
  · simp at h
  rename_i m hm
  split at hm
  · simp at hm
  split at hm
  · simp at hm
  rename_i hcpa hdiv
  simp only [Except.ok.injEq] at hm
  subst hm
  unfold Config.validateAndCalculate at h
  simp only at h
  obtain ⟨e1, e2, e3, e4, e5, e6, e7, e8⟩ := storage_foldl c.dataConfig.storageConfig
    c.mvmuConfig.haveRramXbar c.mvmuConfig.haveSramXbar
  generalize List.foldl StorageAcc.step _ _ = a at *
  split at h
  · simp at h
  split at h
  · simp at h
  rename_i hb haw
  simp only [Except.ok.injEq] at h
  subst h
  have hlen : a.numSram + a.numRram = c.dataConfig.storageConfig.length := by
    rw [e5, e6, rramIdx_sramIdx_length]
  refine ⟨⟨?_, e3, e4, e5, e6, hlen, ?_, ?_, ?_, ?_, ?_, ?_⟩, ?_, haw⟩
  · simp [e2, e1, List.range_succ]
  · simp [hlen, e4, outputMaps_eq]
  · simp [hlen, e4, outputMaps_eq]
  · simp [e7, h1]
  · simp [e8, h2]
  · simp only
    exact (Nat.div_mul_cancel (Nat.dvd_of_mod_eq_zero (by simpa using hdiv))).symm
  · simp only; omega
  · simp only [ne_eq, Decidable.not_not] at hb
    rw [← hb, e1]

end Ramwich
