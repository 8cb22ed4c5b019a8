import Verif.Spec.ConfigTables

/-! # The constructors as total functions of the sizes and the user's numbers -/
namespace Ramwich.Tables

open Spec

variable {κ : Type} [DecidableEq κ]

/-- The table entry, or else what the user gave. -/
def pick (d : Table κ) (k : κ) (u : Option ℚ) : Option ℚ :=
  match d.find? fun x => decide (x.1 = k) with
  | some x => some x.2
  | none => u

/-- Whether a table has an entry, by its keys. -/
theorem has_iff (d : Table κ) (k : κ) : d.has k = true ↔ k ∈ d.map (·.1) := by
  simp only [Table.has, List.any_eq_true, decide_eq_true_eq, List.mem_map]

theorem has_congr {d e : Table κ} (h : d.map (·.1) = e.map (·.1)) (k : κ) : d.has k = e.has k := by
  rw [Bool.eq_iff_iff, has_iff, has_iff, h]

theorem get_of_has (d : Table κ) (k : κ) (u : Option ℚ) (h : d.has k = true) : d.get k = .ok (pick d k u) := by
  induction d with
  | nil => simp [Table.has] at h
  | cons x d ih =>
    unfold Table.get pick
    by_cases hx : x.1 = k
    · simp [hx]
    · have h' : Table.has d k = true := by
        rw [has_iff] at h ⊢
        simpa [Ne.symm hx] using h
      rw [if_neg hx, ih h', List.find?_cons_of_neg (by simpa using hx)]
      rfl

theorem pick_of_not (d : Table κ) (k : κ) (u : Option ℚ) (h : ¬ d.has k = true) : pick d k u = u := by
  unfold pick
  rw [List.find?_eq_none.2]
  intro x hx
  rw [has_iff] at h
  simp only [decide_eq_true_eq]
  rintro rfl
  exact h (List.mem_map_of_mem hx)

theorem pick_of_has (d : Table κ) (k : κ) (u v : Option ℚ) (h : d.has k = true) : pick d k u = pick d k v := by
  have h1 := get_of_has d k u h
  have h2 := get_of_has d k v h
  simpa using h1.symm.trans h2

theorem isSome_pick (d : Table κ) (k : κ) (u : Option ℚ) :
    (pick d k u).isSome = true ↔ k ∈ d.map (·.1) ∨ u.isSome = true := by
  rw [← has_iff]
  by_cases h : d.has k = true
  · simp only [h, true_or, iff_true]
    unfold pick
    cases hf : d.find? fun x => decide (x.1 = k) with
    | some x => rfl
    | none =>
      rw [has_iff, List.mem_map] at h
      obtain ⟨x, hx, e⟩ := h
      exact absurd e (by simpa using List.find?_eq_none.1 hf x hx)
  · rw [pick_of_not d k u h]; simp [h]

theorem mem_of_pick {d : Table κ} {k : κ} {u : Option ℚ} {q : ℚ} (h : d.has k = true) (e : pick d k u = some q) :
    (k, q) ∈ d := by
  rw [pick_of_has d k u none h] at e
  unfold pick at e
  cases hf : d.find? fun x => decide (x.1 = k) with
  | none => rw [hf] at e; cases e
  | some x =>
    rw [hf] at e
    have h1 := List.mem_of_find?_eq_some hf
    have h2 : x.1 = k := by simpa using List.find?_some hf
    simp only [Option.some.injEq] at e
    rw [← h2, ← e]; exact h1

theorem pick_scaled (d : Table κ) (k : κ) (r : ℚ) (u : Option ℚ) (h : d.has k = true) :
    (pick d k u).map (· * r) = pick (d.map fun x => (x.1, x.2 * r)) k u := by
  induction d with
  | nil => simp [Table.has] at h
  | cons x d ih =>
    by_cases hx : x.1 = k
    · simp [pick, hx]
    · have h' : Table.has d k = true := by
        rw [has_iff] at h ⊢
        simpa [Ne.symm hx] using h
      have := ih h'
      unfold pick at this ⊢
      rw [List.find?_cons_of_neg (by simpa using hx), this, List.map_cons, List.find?_cons_of_neg (by simpa using hx)]

/-- The table with every entry multiplied. -/
def scaleTab (r : ℚ) (d : Table κ) : Table κ := d.map fun x => (x.1, x.2 * r)

omit [DecidableEq κ] in
theorem keys_scaleTab (r : ℚ) (d : Table κ) : (scaleTab r d).map (·.1) = d.map (·.1) := by
  simp [scaleTab, Function.comp_def]

/-- `DACConfig.__init__` as a total function. -/
def Dac.done (d : Dac) : Dac :=
  { d with
    lat := pick dacLatTab d.resolution d.lat, powDyn := pick dacPowDynTab d.resolution d.powDyn
    powLeak := pick dacPowLeakTab d.resolution d.powLeak, area := pick dacAreaTab d.resolution d.area }

theorem dac_init (d : Dac) : d.init = .ok d.done := by
  unfold Dac.init Dac.done
  by_cases h : dacLatTab.has d.resolution = true
  · simp only [h, if_true]
    rw [get_of_has dacLatTab _ d.lat h, get_of_has dacPowDynTab _ d.powDyn h,
      get_of_has dacPowLeakTab _ d.powLeak h, get_of_has dacAreaTab _ d.area h]
    rfl
  · rw [if_neg h, pick_of_not dacLatTab _ _ h, pick_of_not dacPowDynTab _ _ h, pick_of_not dacPowLeakTab _ _ h,
      pick_of_not dacAreaTab _ _ h]

/-- `ADCConfig.__init__` as a total function. -/
def Adc.done (d : Adc) : Adc :=
  { d with
    lat := pick adcLatTab d.resolution d.lat, powDyn := pick adcPowDynTab d.resolution d.powDyn
    powLeak := pick adcPowLeakTab d.resolution d.powLeak, area := pick adcAreaTab d.resolution d.area }

theorem adc_init (d : Adc) : d.init = .ok d.done := by
  unfold Adc.init Adc.done
  by_cases h : adcLatTab.has d.resolution = true
  · simp only [h, if_true]
    rw [get_of_has adcLatTab _ d.lat h, get_of_has adcPowDynTab _ d.powDyn h,
      get_of_has adcPowLeakTab _ d.powLeak h, get_of_has adcAreaTab _ d.area h]
    rfl
  · rw [if_neg h, pick_of_not adcLatTab _ _ h, pick_of_not adcPowDynTab _ _ h, pick_of_not adcPowLeakTab _ _ h,
      pick_of_not adcAreaTab _ _ h]

/-- config.py:182-198 as a total function. -/
def Xbar.doneXbar (x : Xbar) : Xbar :=
  let z := x.xbarSize
  { x with
    xbarLat := pick xbarLatTab z x.xbarLat
    xbarPow := if xbarLatTab.has z = true then some (x.xbarIpLat * x.xbarIpPow) else x.xbarPow
    xbarArea := pick xbarAreaTab z x.xbarArea
    inMemLat := pick inMemLatTab z x.inMemLat
    inMemPowDynRead := pick inMemPowDynReadTab z x.inMemPowDynRead
    inMemPowDynWrite := pick inMemPowDynWriteTab z x.inMemPowDynWrite
    inMemPowLeak := pick inMemPowLeakTab z x.inMemPowLeak
    inMemArea := pick inMemAreaTab z x.inMemArea
    outMemLat := pick outMemLatTab z x.outMemLat
    outMemPowDyn := pick outMemPowDynTab z x.outMemPowDyn
    outMemPowLeak := pick outMemPowLeakTab z x.outMemPowLeak
    outMemArea := pick outMemAreaTab z x.outMemArea }

theorem xbar_initXbar (x : Xbar) : x.initXbar = .ok x.doneXbar := by
  unfold Xbar.initXbar Xbar.doneXbar
  by_cases h : xbarLatTab.has x.xbarSize = true
  · simp only [h, if_true]
    rw [get_of_has xbarLatTab _ x.xbarLat h, get_of_has xbarPowTab _ x.xbarPow h, get_of_has xbarAreaTab _ x.xbarArea h,
      get_of_has inMemLatTab _ x.inMemLat h, get_of_has inMemPowDynReadTab _ x.inMemPowDynRead h,
      get_of_has inMemPowDynWriteTab _ x.inMemPowDynWrite h, get_of_has inMemPowLeakTab _ x.inMemPowLeak h,
      get_of_has inMemAreaTab _ x.inMemArea h, get_of_has outMemLatTab _ x.outMemLat h,
      get_of_has outMemPowDynTab _ x.outMemPowDyn h, get_of_has outMemPowLeakTab _ x.outMemPowLeak h,
      get_of_has outMemAreaTab _ x.outMemArea h]
    rfl
  · simp only [h]
    rw [pick_of_not xbarLatTab _ _ h, pick_of_not xbarAreaTab _ _ h,
      pick_of_not inMemLatTab _ _ h, pick_of_not inMemPowDynReadTab _ _ h, pick_of_not inMemPowDynWriteTab _ _ h,
      pick_of_not inMemPowLeakTab _ _ h, pick_of_not inMemAreaTab _ _ h, pick_of_not outMemLatTab _ _ h,
      pick_of_not outMemPowDynTab _ _ h, pick_of_not outMemPowLeakTab _ _ h, pick_of_not outMemAreaTab _ _ h]
    rfl

/-- config.py:200-205 as a total function. -/
def Xbar.doneSram (x : Xbar) : Xbar :=
  let z := x.xbarSize
  { x with
    sramXbarLat := pick sramXbarLatTab z x.sramXbarLat
    sramXbarPowDyn := pick sramXbarPowDynTab z x.sramXbarPowDyn
    sramXbarPowLeak := pick sramXbarPowLeakTab z x.sramXbarPowLeak
    sramXbarArea := pick sramXbarAreaTab z x.sramXbarArea }

theorem xbar_initSram (x : Xbar) : x.initSram = .ok x.doneSram := by
  unfold Xbar.initSram Xbar.doneSram
  by_cases h : sramXbarLatTab.has x.xbarSize = true
  · simp only [h, if_true]
    rw [get_of_has sramXbarLatTab _ x.sramXbarLat h, get_of_has sramXbarPowDynTab _ x.sramXbarPowDyn h,
      get_of_has sramXbarAreaTab _ x.sramXbarArea h, get_of_has sramXbarPowLeakTab _ x.sramXbarPowLeak h]
    rfl
  · simp only [h]
    rw [pick_of_not sramXbarLatTab _ _ h, pick_of_not sramXbarPowDynTab _ _ h, pick_of_not sramXbarAreaTab _ _ h,
      pick_of_not sramXbarPowLeakTab _ _ h]
    rfl

/-- config.py:207-212 as a total function. -/
def Xbar.doneCalculator (x : Xbar) : Xbar :=
  let z := x.xbarSize
  { x with
    calculatorLat := pick calculatorLatTab z x.calculatorLat
    calculatorPowLeak := pick calculatorPowLeakTab z x.calculatorPowLeak
    calculatorPowDyn := pick calculatorPowDynTab z x.calculatorPowDyn
    calculatorArea := pick calculatorAreaTab z x.calculatorArea }

theorem xbar_initCalculator (x : Xbar) : x.initCalculator = .ok x.doneCalculator := by
  unfold Xbar.initCalculator Xbar.doneCalculator
  by_cases h : calculatorLatTab.has x.xbarSize = true
  · simp only [h, if_true]
    rw [get_of_has calculatorLatTab _ x.calculatorLat h, get_of_has calculatorPowLeakTab _ x.calculatorPowLeak h,
      get_of_has calculatorPowDynTab _ x.calculatorPowDyn h, get_of_has calculatorAreaTab _ x.calculatorArea h]
    rfl
  · simp only [h]
    rw [pick_of_not calculatorLatTab _ _ h, pick_of_not calculatorPowLeakTab _ _ h,
      pick_of_not calculatorPowDynTab _ _ h, pick_of_not calculatorAreaTab _ _ h]
    rfl

/-- `XBARConfig.__init__` as a total function. -/
def Xbar.done (x : Xbar) : Xbar := x.doneXbar.doneSram.doneCalculator

theorem xbar_init (x : Xbar) : x.init = .ok x.done := by
  unfold Xbar.init
  rw [xbar_initXbar]
  change (x.doneXbar.initSram >>= _) = _
  rw [xbar_initSram]
  exact xbar_initCalculator _

/-- config.py:428-432 as a total function. -/
def Tile.doneEdram (t : Tile) : Tile :=
  let z := t.edramSizeInKB
  { t with
    edramLat := pick edramLatTab z t.edramLat, edramPowDyn := pick edramPowDynTab z t.edramPowDyn
    edramPowLeak := pick edramPowLeakTab z t.edramPowLeak, edramArea := pick edramAreaTab z t.edramArea }

theorem tile_initEdram (t : Tile) : t.initEdram = .ok t.doneEdram := by
  unfold Tile.initEdram Tile.doneEdram
  by_cases h : edramLatTab.has t.edramSizeInKB = true
  · simp only [h, if_true]
    rw [get_of_has edramLatTab _ t.edramLat h, get_of_has edramPowDynTab _ t.edramPowDyn h,
      get_of_has edramPowLeakTab _ t.edramPowLeak h, get_of_has edramAreaTab _ t.edramArea h]
    rfl
  · simp only [h]
    rw [pick_of_not edramLatTab _ _ h, pick_of_not edramPowDynTab _ _ h,
      pick_of_not edramPowLeakTab _ _ h, pick_of_not edramAreaTab _ _ h]
    rfl

/-- config.py:434-438 as a total function. -/
def Tile.doneInstrn (r8 : ℚ) (t : Tile) : Tile :=
  let z := t.instrnMemSize
  { t with
    instrnMemLat := pick instrnMemLatTab z t.instrnMemLat, instrnMemPowDyn := pick instrnMemPowDynTab z t.instrnMemPowDyn
    instrnMemPowLeak := pick instrnMemPowLeakTab z t.instrnMemPowLeak
    instrnMemArea := pick (scaleTab r8 instrnMemAreaTab) z t.instrnMemArea }

theorem tile_initInstrn (r8 : ℚ) (t : Tile) : t.initInstrn r8 = .ok (t.doneInstrn r8) := by
  unfold Tile.initInstrn Tile.doneInstrn
  by_cases h : instrnMemLatTab.has t.instrnMemSize = true
  · simp only [h, if_true]
    rw [get_of_has instrnMemLatTab _ t.instrnMemLat h, get_of_has instrnMemPowDynTab _ t.instrnMemPowDyn h,
      get_of_has instrnMemPowLeakTab _ t.instrnMemPowLeak h, get_of_has instrnMemAreaTab _ t.instrnMemArea h,
      scaleTab, ← pick_scaled instrnMemAreaTab _ r8 t.instrnMemArea h]
    rfl
  · simp only [h]
    have h' : ¬ (scaleTab r8 instrnMemAreaTab).has t.instrnMemSize = true := by
      rw [has_congr (keys_scaleTab r8 instrnMemAreaTab)]; exact h
    rw [pick_of_not instrnMemLatTab _ _ h, pick_of_not instrnMemPowDynTab _ _ h,
      pick_of_not instrnMemPowLeakTab _ _ h, pick_of_not _ _ _ h']
    rfl

/-- `TileConfig.__init__` as a total function. -/
def Tile.done (r8 : ℚ) (t : Tile) : Tile := t.doneEdram.doneInstrn r8

theorem tile_init (r8 : ℚ) (t : Tile) : t.init r8 = .ok (t.done r8) := by
  unfold Tile.init
  rw [tile_initEdram]
  exact tile_initInstrn r8 _

/-- config.py:539-544 as a total function. -/
def Core.doneData (c : Core) : Core :=
  let z := c.dataMemSize
  { c with
    dataMemLat := pick dataMemLatTab z c.dataMemLat, dataMemPowDyn := pick dataMemPowDynTab z c.dataMemPowDyn
    dataMemPowLeak := pick dataMemPowLeakTab z c.dataMemPowLeak, dataMemArea := pick dataMemAreaTab z c.dataMemArea }

theorem core_initData (c : Core) : c.initData = .ok c.doneData := by
  unfold Core.initData Core.doneData
  by_cases h : dataMemLatTab.has c.dataMemSize = true
  · simp only [h, if_true]
    rw [get_of_has dataMemLatTab _ c.dataMemLat h, get_of_has dataMemPowDynTab _ c.dataMemPowDyn h,
      get_of_has dataMemPowLeakTab _ c.dataMemPowLeak h, get_of_has dataMemAreaTab _ c.dataMemArea h]
    rfl
  · simp only [h]
    rw [pick_of_not dataMemLatTab _ _ h, pick_of_not dataMemPowDynTab _ _ h,
      pick_of_not dataMemPowLeakTab _ _ h, pick_of_not dataMemAreaTab _ _ h]
    rfl

/-- config.py:546-550 as a total function. -/
def Core.doneInstrn (r8 : ℚ) (c : Core) : Core :=
  let z := c.instrnMemSize
  { c with
    instrnMemLat := pick instrnMemLatTab z c.instrnMemLat, instrnMemPowDyn := pick instrnMemPowDynTab z c.instrnMemPowDyn
    instrnMemPowLeak := pick instrnMemPowLeakTab z c.instrnMemPowLeak
    instrnMemArea := pick (scaleTab r8 instrnMemAreaTab) z c.instrnMemArea }

theorem core_initInstrn (r8 : ℚ) (c : Core) : c.initInstrn r8 = .ok (c.doneInstrn r8) := by
  unfold Core.initInstrn Core.doneInstrn
  by_cases h : instrnMemLatTab.has c.instrnMemSize = true
  · simp only [h, if_true]
    rw [get_of_has instrnMemLatTab _ c.instrnMemLat h, get_of_has instrnMemPowDynTab _ c.instrnMemPowDyn h,
      get_of_has instrnMemPowLeakTab _ c.instrnMemPowLeak h, get_of_has instrnMemAreaTab _ c.instrnMemArea h,
      scaleTab, ← pick_scaled instrnMemAreaTab _ r8 c.instrnMemArea h]
    rfl
  · simp only [h]
    have h' : ¬ (scaleTab r8 instrnMemAreaTab).has c.instrnMemSize = true := by
      rw [has_congr (keys_scaleTab r8 instrnMemAreaTab)]; exact h
    rw [pick_of_not instrnMemLatTab _ _ h, pick_of_not instrnMemPowDynTab _ _ h,
      pick_of_not instrnMemPowLeakTab _ _ h, pick_of_not _ _ _ h']
    rfl

/-- `CoreConfig.__init__` as a total function. -/
def Core.done (r8 : ℚ) (c : Core) : Core := c.doneData.doneInstrn r8

theorem core_init (r8 : ℚ) (c : Core) : c.init r8 = .ok (c.done r8) := by
  unfold Core.init
  rw [core_initData]
  exact core_initInstrn r8 _

theorem update_eq (d : Table κ) (k : κ) (u : Option ℚ) : d.update k u = .ok (pick d k u) := by
  unfold Table.update
  by_cases h : d.has k = true
  · rw [if_pos h, get_of_has d k u h]
  · rw [if_neg h, pick_of_not d k u h]

/-- `NOCConfig.__init__` when it returns. -/
def Noc.done (n : Noc) : Noc :=
  { n with
    intraLat := pick nocLatTab n.injRate n.intraLat
    intraPowDyn := pick nocPowDynTab n.numPort n.intraPowDyn
    intraPowLeak := pick nocPowLeakTab n.numPort n.intraPowLeak
    intraArea := pick nocAreaTab n.numPort n.intraArea
    interLat := n.htLat + (pick nocLatTab n.injRate n.intraLat).getD 0 }

theorem noc_init (n : Noc) : n.init =
    if injRateMax < n.injRate then .error .valueError
    else if (pick nocLatTab n.injRate n.intraLat).isSome = true then .ok n.done else .error .typeError := by
  unfold Noc.init Noc.done
  split
  · rfl
  rw [update_eq]
  change (nocPowDynTab.update n.numPort n.intraPowDyn >>= _) = _
  rw [update_eq]
  change (nocPowLeakTab.update n.numPort n.intraPowLeak >>= _) = _
  rw [update_eq]
  change (nocAreaTab.update n.numPort n.intraArea >>= _) = _
  rw [update_eq]
  change (match pick nocLatTab n.injRate n.intraLat with
    | some l => _
    | none => _) = _
  cases pick nocLatTab n.injRate n.intraLat <;> rfl

/-- All constructors when they return. -/
def Numbers.done (r8 : ℚ) (n : Numbers) : Numbers :=
  { noc := n.noc.done, tile := n.tile.done r8, core := n.core.done r8
    mvmu := { n.mvmu with dac := n.mvmu.dac.done, xbar := n.mvmu.xbar.done, adc := n.mvmu.adc.done } }

theorem numbers_init (r8 : ℚ) (n : Numbers) : n.init r8 =
    if injRateMax < n.noc.injRate then .error .valueError
    else if (pick nocLatTab n.noc.injRate n.noc.intraLat).isSome = true then .ok (n.done r8)
    else .error .typeError := by
  unfold Numbers.init
  rw [noc_init]
  split
  · rfl
  split
  · change (n.tile.init r8 >>= _) = _
    rw [tile_init]
    change (n.core.init r8 >>= _) = _
    rw [core_init]
    change (n.mvmu.dac.init >>= _) = _
    rw [dac_init]
    change (n.mvmu.xbar.init >>= _) = _
    rw [xbar_init]
    change (n.mvmu.adc.init >>= _) = _
    rw [adc_init]
    rfl
  · rfl

end Ramwich.Tables
