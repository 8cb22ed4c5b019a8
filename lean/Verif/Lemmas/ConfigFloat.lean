import Verif.Lemmas.PowerNear

/-! # The numbers of config.py in float64 follow the exact ones -/
namespace Ramwich

open Spec Tables

/-- The same exception, or results that are related. -/
def Outcome {α : Type} (R : α → α → Prop) : Except PyErr α → Except PyErr α → Prop
  | .error e, .error e' => e = e'
  | .ok a, .ok b => R a b
  | _, _ => False

theorem Outcome.bind {α β : Type} {R : α → α → Prop} {S : β → β → Prop} {x y : Except PyErr α}
    {f g : α → Except PyErr β} (h : Outcome R x y) (hf : ∀ a b, R a b → Outcome S (f a) (g b)) :
    Outcome S (x >>= f) (y >>= g) := by
  cases x <;> cases y
  · exact h
  · cases h
  · cases h
  · exact hf _ _ h

theorem upTo?_mono {n m : Nat} {a x : Option ℚ} (h : upTo? n a x) (hm : n ≤ m) : upTo? m a x := by
  cases a <;> cases x <;> first | trivial | exact near_mono h hm | cases h

theorem outcome_get {κ : Type} [DecidableEq κ] {j : Nat} (hj : 1 ≤ j) (d : Table κ) (k : κ) (hd : ∀ e ∈ d, 0 ≤ e.2) :
    Outcome (upTo? j) (d.float.get k) (d.get k) := by
  induction d with
  | nil => exact rfl
  | cons e d ih =>
    unfold Table.float
    rw [List.map_cons]
    unfold Table.get
    dsimp only
    split
    · exact near_mono (near_f64 (near_refl _ (hd e List.mem_cons_self))) (by omega)
    · exact ih fun x hx => hd x (List.mem_cons_of_mem _ hx)

theorem has_float {κ : Type} [DecidableEq κ] (d : Table κ) (k : κ) : d.float.has k = d.has k := by
  unfold Table.has Table.float
  rw [List.any_map]
  rfl

theorem outcome_update {κ : Type} [DecidableEq κ] {j : Nat} (hj : 1 ≤ j) (d : Table κ) (k : κ) (hd : ∀ e ∈ d, 0 ≤ e.2)
    {a b : Option ℚ} (h : upTo? j a b) : Outcome (upTo? j) (d.float.update k a) (d.update k b) := by
  unfold Table.update
  rw [has_float]
  split
  · exact outcome_get hj d k hd
  · exact h

theorem outcome_same {α : Type} (x : Except PyErr α) : Outcome (· = ·) x x := by
  cases x <;> exact rfl

theorem outcome_edram {j : Nat} (hj : 2 ≤ j) (k : Nat) :
    Outcome (upTo? j) (edramPowDynTabF.get k) (edramPowDynTab.get k) := by
  have h1 : Near j (f64 (f64 17.2 / 50)) (17.2 / 50) :=
    near_mono (near_f64 (near_div (by norm_num) (near_f64 (near_refl _ (by norm_num))) (near_refl 50 (by
      norm_num)))) hj
  have h2 : Near j (f64 (f64 25.35 / 50)) (25.35 / 50) :=
    near_mono (near_f64 (near_div (by norm_num) (near_f64 (near_refl _ (by norm_num))) (near_refl 50 (by
      norm_num)))) hj
  unfold edramPowDynTabF edramPowDynTab
  simp only [Table.get]
  repeat' split
  all_goals first | exact h1 | exact h2 | exact rfl

theorem scale_near {j : Nat} (hj : 3 ≤ j) {r r' : ℚ} (hr : upTo 1 r r') {a b : Option ℚ} (h : upTo? 1 a b) :
    upTo? j (a.map fun a => f64 (a * r)) (b.map (· * r')) := by
  cases a <;> cases b <;> first | trivial | exact near_mono (near_f64 (near_mul h hr)) hj | cases h

theorem outcome_dac {j : Nat} (hj : 1 ≤ j) {a b : Tables.Dac} (h : nearDacNumbers j a b) :
    Outcome (nearDacNumbers j) a.initF b.init := by
  unfold Tables.Dac.initF Tables.Dac.init
  rw [h.resolution]
  split
  · refine (outcome_same _).bind fun _ _ _ => ?_
    refine (outcome_get (j := j) hj dacPowDynTab _ (by decide +kernel)).bind fun _ _ h1 => ?_
    refine (outcome_get (j := j) hj dacPowLeakTab _ (by decide +kernel)).bind fun _ _ h2 => ?_
    refine (outcome_get (j := j) hj dacAreaTab _ (by decide +kernel)).bind fun _ _ h3 => ?_
    exact ⟨rfl, h1, h2, h3⟩
  · exact h

theorem outcome_adc {j : Nat} (hj : 1 ≤ j) {a b : Tables.Adc} (h : nearAdcNumbers j a b) :
    Outcome (nearAdcNumbers j) a.initF b.init := by
  unfold Tables.Adc.initF Tables.Adc.init
  rw [h.resolution]
  split
  · refine (outcome_same _).bind fun _ _ _ => ?_
    refine (outcome_get (j := j) hj adcPowDynTab _ (by decide +kernel)).bind fun _ _ h1 => ?_
    refine (outcome_get (j := j) hj adcPowLeakTab _ (by decide +kernel)).bind fun _ _ h2 => ?_
    refine (outcome_get (j := j) hj adcAreaTab _ (by decide +kernel)).bind fun _ _ h3 => ?_
    exact ⟨rfl, h1, h2, h3⟩
  · exact h

theorem outcome_initXbar {i j : Nat} (hj : i + i + 1 ≤ j) {a b : Tables.Xbar} (h : nearXbarNumbers i j a b) :
    Outcome (nearXbarNumbers i j) (a.initXbarF) (b.initXbar) := by
  unfold Tables.Xbar.initXbarF Tables.Xbar.initXbar
  rw [h.xbarSize]
  split
  · refine (outcome_same _).bind fun _ _ _ => ?_
    refine (outcome_get (j := j) (by omega) xbarPowTab _ (by decide +kernel)).bind fun _ _ h1 => ?_
    refine (outcome_get (j := j) (by omega) xbarAreaTab _ (by decide +kernel)).bind fun _ _ h2 => ?_
    refine (outcome_same _).bind fun _ _ _ => ?_
    refine (outcome_get (j := j) (by omega) inMemPowDynReadTab _ (by decide +kernel)).bind fun _ _ h4 => ?_
    refine (outcome_get (j := j) (by omega) inMemPowDynWriteTab _ (by decide +kernel)).bind fun _ _ h5 => ?_
    refine (outcome_get (j := j) (by omega) inMemPowLeakTab _ (by decide +kernel)).bind fun _ _ h6 => ?_
    refine (outcome_get (j := j) (by omega) inMemAreaTab _ (by decide +kernel)).bind fun _ _ h7 => ?_
    refine (outcome_same _).bind fun _ _ _ => ?_
    refine (outcome_get (j := j) (by omega) outMemPowDynTab _ (by decide +kernel)).bind fun _ _ h9 => ?_
    refine (outcome_get (j := j) (by omega) outMemPowLeakTab _ (by decide +kernel)).bind fun _ _ h10 => ?_
    refine (outcome_get (j := j) (by omega) outMemAreaTab _ (by decide +kernel)).bind fun _ _ h11 => ?_
    exact ⟨h4, h5, h6, h7, near_mono (near_f64 (near_mul h.xbarIpLat h.xbarIpPow)) hj, h.xbarPowLeak, h2,
      h.sramXbarPowDyn, h.sramXbarPowLeak, h.sramXbarArea, h.calculatorPowLeak, h.calculatorPowDyn,
      h.calculatorArea, h9, h10, h11, h.xbarIpLat, h.xbarIpPow, rfl⟩
  · exact h

theorem outcome_initSram {i j : Nat} (hj : i + i + 1 ≤ j) {a b : Tables.Xbar} (h : nearXbarNumbers i j a b) :
    Outcome (nearXbarNumbers i j) (a.initSramF) (b.initSram) := by
  unfold Tables.Xbar.initSramF Tables.Xbar.initSram
  rw [h.xbarSize]
  split
  · refine (outcome_same _).bind fun _ _ _ => ?_
    refine (outcome_get (j := j) (by omega) sramXbarPowDynTab _ (by decide +kernel)).bind fun _ _ h1 => ?_
    refine (outcome_get (j := j) (by omega) sramXbarAreaTab _ (by decide +kernel)).bind fun _ _ h2 => ?_
    refine (outcome_get (j := j) (by omega) sramXbarPowLeakTab _ (by decide +kernel)).bind fun _ _ h3 => ?_
    exact ⟨h.inMemPowDynRead, h.inMemPowDynWrite, h.inMemPowLeak, h.inMemArea, h.xbarPow, h.xbarPowLeak,
      h.xbarArea, h1, h3, h2, h.calculatorPowLeak, h.calculatorPowDyn, h.calculatorArea, h.outMemPowDyn,
      h.outMemPowLeak, h.outMemArea, h.xbarIpLat, h.xbarIpPow, rfl⟩
  · exact h

theorem outcome_initCalculator {i j : Nat} (hj : i + i + 1 ≤ j) {a b : Tables.Xbar} (h : nearXbarNumbers i j a b) :
    Outcome (nearXbarNumbers i j) (a.initCalculatorF) (b.initCalculator) := by
  unfold Tables.Xbar.initCalculatorF Tables.Xbar.initCalculator
  rw [h.xbarSize]
  split
  · refine (outcome_same _).bind fun _ _ _ => ?_
    refine (outcome_get (j := j) (by omega) calculatorPowLeakTab _ (by decide +kernel)).bind fun _ _ h1 => ?_
    refine (outcome_get (j := j) (by omega) calculatorPowDynTab _ (by decide +kernel)).bind fun _ _ h2 => ?_
    refine (outcome_get (j := j) (by omega) calculatorAreaTab _ (by decide +kernel)).bind fun _ _ h3 => ?_
    exact ⟨h.inMemPowDynRead, h.inMemPowDynWrite, h.inMemPowLeak, h.inMemArea, h.xbarPow, h.xbarPowLeak,
      h.xbarArea, h.sramXbarPowDyn, h.sramXbarPowLeak, h.sramXbarArea, h1, h2, h3, h.outMemPowDyn,
      h.outMemPowLeak, h.outMemArea, h.xbarIpLat, h.xbarIpPow, rfl⟩
  · exact h

theorem outcome_xbar {i j : Nat} (hj : i + i + 1 ≤ j) {a b : Tables.Xbar} (h : nearXbarNumbers i j a b) :
    Outcome (nearXbarNumbers i j) a.initF b.init := by
  unfold Tables.Xbar.initF Tables.Xbar.init
  exact (outcome_initXbar hj h).bind fun _ _ h => (outcome_initSram hj h).bind fun _ _ h => outcome_initCalculator
    hj h

theorem outcome_initEdram {j : Nat} (hj : 3 ≤ j) {a b : Tables.Tile} (h : nearTileNumbers j a b) :
    Outcome (nearTileNumbers j) (a.initEdramF) (b.initEdram) := by
  unfold Tables.Tile.initEdramF Tables.Tile.initEdram
  rw [h.edramSizeInKB]
  split
  · refine (outcome_same _).bind fun _ _ _ => ?_
    refine (outcome_edram (j := j) (by omega) _).bind fun _ _ h1 => ?_
    refine (outcome_get (j := j) (by omega) edramPowLeakTab _ (by decide +kernel)).bind fun _ _ h2 => ?_
    refine (outcome_get (j := j) (by omega) edramAreaTab _ (by decide +kernel)).bind fun _ _ h3 => ?_
    exact ⟨h.tcuPowDyn, h.tcuPowLeak, h.tcuArea, rfl, h1, h2, h3, h.instrnMemSize, h.instrnMemPowDyn,
      h.instrnMemPowLeak, h.instrnMemArea, h.edramBusPowDyn, h.edramBusPowLeak, h.edramBusArea,
      h.edramCtrlPowDyn, h.edramCtrlPowLeak, h.edramCtrlArea, h.receiveBufferPowDyn, h.receiveBufferPowLeak,
      h.receiveBufferArea⟩
  · exact h

theorem outcome_tileInstrn {j : Nat} (hj : 3 ≤ j) {r r' : ℚ} (hr : upTo 1 r r') {a b : Tables.Tile} (h :
  nearTileNumbers j a b) :
    Outcome (nearTileNumbers j) (a.initInstrnF r) (b.initInstrn r') := by
  unfold Tables.Tile.initInstrnF Tables.Tile.initInstrn
  rw [h.instrnMemSize]
  split
  · refine (outcome_same _).bind fun _ _ _ => ?_
    refine (outcome_get (j := j) (by omega) instrnMemPowDynTab _ (by decide +kernel)).bind fun _ _ h1 => ?_
    refine (outcome_get (j := j) (by omega) instrnMemPowLeakTab _ (by decide +kernel)).bind fun _ _ h2 => ?_
    refine (outcome_get (j := 1) le_rfl instrnMemAreaTab _ (by decide +kernel)).bind fun _ _ h3 => ?_
    exact ⟨h.tcuPowDyn, h.tcuPowLeak, h.tcuArea, h.edramSizeInKB, h.edramPowDyn, h.edramPowLeak, h.edramArea,
      rfl, h1, h2, scale_near hj hr h3, h.edramBusPowDyn, h.edramBusPowLeak, h.edramBusArea,
      h.edramCtrlPowDyn, h.edramCtrlPowLeak, h.edramCtrlArea, h.receiveBufferPowDyn, h.receiveBufferPowLeak,
      h.receiveBufferArea⟩
  · exact h

theorem outcome_initData {j : Nat} (hj : 3 ≤ j) {a b : Tables.Core} (h : nearCoreNumbers j a b) :
    Outcome (nearCoreNumbers j) (a.initDataF) (b.initData) := by
  unfold Tables.Core.initDataF Tables.Core.initData
  rw [h.dataMemSize]
  split
  · refine (outcome_same _).bind fun _ _ _ => ?_
    refine (outcome_get (j := j) (by omega) dataMemPowDynTab _ (by decide +kernel)).bind fun _ _ h1 => ?_
    refine (outcome_get (j := j) (by omega) dataMemPowLeakTab _ (by decide +kernel)).bind fun _ _ h2 => ?_
    refine (outcome_get (j := j) (by omega) dataMemAreaTab _ (by decide +kernel)).bind fun _ _ h3 => ?_
    exact ⟨h.ccuPowDyn, h.ccuPowLeak, h.ccuArea, rfl, h1, h2, h3, h.instrnMemSize, h.instrnMemPowDyn,
      h.instrnMemPowLeak, h.instrnMemArea, h.aluPowDyn, h.aluPowDivDyn, h.aluPowMulDyn, h.actPowLeak,
      h.actPowDyn, h.aluPowOthersDyn, h.aluPowLeak, h.aluArea, h.actArea⟩
  · exact h

theorem outcome_coreInstrn {j : Nat} (hj : 3 ≤ j) {r r' : ℚ} (hr : upTo 1 r r') {a b : Tables.Core} (h :
  nearCoreNumbers j a b) :
    Outcome (nearCoreNumbers j) (a.initInstrnF r) (b.initInstrn r') := by
  unfold Tables.Core.initInstrnF Tables.Core.initInstrn
  rw [h.instrnMemSize]
  split
  · refine (outcome_same _).bind fun _ _ _ => ?_
    refine (outcome_get (j := j) (by omega) instrnMemPowDynTab _ (by decide +kernel)).bind fun _ _ h1 => ?_
    refine (outcome_get (j := j) (by omega) instrnMemPowLeakTab _ (by decide +kernel)).bind fun _ _ h2 => ?_
    refine (outcome_get (j := 1) le_rfl instrnMemAreaTab _ (by decide +kernel)).bind fun _ _ h3 => ?_
    exact ⟨h.ccuPowDyn, h.ccuPowLeak, h.ccuArea, h.dataMemSize, h.dataMemPowDyn, h.dataMemPowLeak,
      h.dataMemArea, rfl, h1, h2, scale_near hj hr h3, h.aluPowDyn, h.aluPowDivDyn, h.aluPowMulDyn,
      h.actPowLeak, h.actPowDyn, h.aluPowOthersDyn, h.aluPowLeak, h.aluArea, h.actArea⟩
  · exact h

theorem outcome_tile {j : Nat} (hj : 3 ≤ j) {r r' : ℚ} (hr : upTo 1 r r') {a b : Tables.Tile} (h : nearTileNumbers j
  a b) :
    Outcome (nearTileNumbers j) (a.initF r) (b.init r') := by
  unfold Tables.Tile.initF Tables.Tile.init
  exact (outcome_initEdram hj h).bind fun _ _ h => outcome_tileInstrn hj hr h

theorem outcome_core {j : Nat} (hj : 3 ≤ j) {r r' : ℚ} (hr : upTo 1 r r') {a b : Tables.Core} (h : nearCoreNumbers j
  a b) :
    Outcome (nearCoreNumbers j) (a.initF r) (b.init r') := by
  unfold Tables.Core.initF Tables.Core.init
  exact (outcome_initData hj h).bind fun _ _ h => outcome_coreInstrn hj hr h

theorem outcome_rate {a b : ℚ} (h : ∀ r ∈ [(0.001 : ℚ), 0.005, 0.01, 0.02, 0.025], (f64 r = a ↔ r = b)) (u : Option
  ℚ) :
    nocLatTabF.update a u = nocLatTab.update b u := by
  have h1 := h 0.001 (by simp)
  have h2 := h 0.005 (by simp)
  have h3 := h 0.01 (by simp)
  have h4 := h 0.02 (by simp)
  have h5 := h 0.025 (by simp)
  unfold Table.update nocLatTabF nocLatTab
  simp only [Table.has, Table.get, List.map_cons, List.map_nil, List.any_cons, List.any_nil, h1, h2, h3, h4, h5]
  congr

theorem outcome_noc {j : Nat} (hj : 1 ≤ j) {a b : Tables.Noc} (h : nearNocNumbers j a b) :
    Outcome (nearNocNumbers j) a.initF b.init := by
  unfold Tables.Noc.initF Tables.Noc.init
  have hm : injRateMax = (0.025 : ℚ) := rfl
  by_cases hx : (0.025 : ℚ) < b.injRate
  · rw [hm, if_pos (h.injRate.1.2 hx), if_pos hx]
    exact rfl
  rw [hm, if_neg (fun hx' => hx (h.injRate.1.1 hx')), if_neg hx, outcome_rate h.injRate.2, h.intraLat]
  refine (outcome_same _).bind fun l _ hl => ?_
  subst hl
  rw [h.numPort]
  refine (outcome_update hj nocPowDynTab _ (by decide +kernel) h.intraPowDyn).bind fun _ _ h1 => ?_
  refine (outcome_update hj nocPowLeakTab _ (by decide +kernel) h.intraPowLeak).bind fun _ _ h2 => ?_
  refine (outcome_update hj nocAreaTab _ (by decide +kernel) h.intraArea).bind fun _ _ h3 => ?_
  cases l with
  | none => exact rfl
  | some l =>
    exact ⟨h.injRate, rfl, h.htLat, h.interPowDyn, h.interPowLeak, h.interArea, rfl, h1, h2, h3⟩

/-- All nested `__init__` calls. -/
theorem outcome_init {i j : Nat} (hi : i + i + 1 ≤ j) (hj : 3 ≤ j) {r r' : ℚ} (hr : upTo 1 r r') {a b : Numbers}
    (h : nearNumbers i j a b) : Outcome (nearNumbers i j) (a.initF r) (b.init r') := by
  unfold Numbers.initF Numbers.init
  refine (outcome_noc (by omega) h.noc).bind fun _ _ h1 => ?_
  refine (outcome_tile hj hr h.tile).bind fun _ _ h2 => ?_
  refine (outcome_core hj hr h.core).bind fun _ _ h3 => ?_
  refine (outcome_dac (by omega) h.mvmu.dac).bind fun _ _ h4 => ?_
  refine (outcome_xbar hi h.mvmu.xbar).bind fun _ _ h5 => ?_
  refine (outcome_adc (by omega) h.mvmu.adc).bind fun _ _ h6 => ?_
  exact ⟨h1, h2, h3, ⟨h.mvmu.snhPowLeak, h.mvmu.snhPowDyn, h.mvmu.snhArea, h.mvmu.muxPowLeak, h.mvmu.muxPowDyn,
    h.mvmu.muxArea, h.mvmu.snaPowLeak, h.mvmu.snaPowDyn, h.mvmu.snaArea, h4, h5, h6⟩⟩

/-- The numbers of a report. -/
theorem outcome_power {i j : Nat} {a b : Numbers} (h : nearNumbers i j a b) :
    Outcome (nearPower j) a.power b.power := by
  unfold Numbers.power
  rw [h.noc.numPort]
  split
  · exact rfl
  have hl := h.noc.intraPowLeak
  have ha := h.noc.intraArea
  revert hl ha
  cases a.noc.intraPowLeak <;> cases b.noc.intraPowLeak <;> cases a.noc.intraArea <;> cases b.noc.intraArea <;>
    intro hl ha <;> first | exact rfl | exact hl.elim | exact ha.elim | skip
  refine ⟨h.mvmu.dac.powDyn, h.mvmu.dac.powLeak, h.mvmu.dac.area, h.mvmu.adc.powDyn, h.mvmu.adc.powLeak,
    h.mvmu.adc.area, h.mvmu.xbar.xbarPow, h.mvmu.xbar.xbarPowLeak, h.mvmu.xbar.xbarArea,
    h.mvmu.xbar.sramXbarPowDyn, h.mvmu.xbar.sramXbarPowLeak, h.mvmu.xbar.sramXbarArea,
    h.mvmu.xbar.calculatorPowDyn, h.mvmu.xbar.calculatorPowLeak, h.mvmu.xbar.calculatorArea,
    h.mvmu.xbar.inMemPowDynRead, h.mvmu.xbar.inMemPowDynWrite, h.mvmu.xbar.inMemPowLeak, h.mvmu.xbar.inMemArea,
    h.mvmu.xbar.outMemPowDyn, h.mvmu.xbar.outMemPowLeak, h.mvmu.xbar.outMemArea, h.mvmu.snhPowDyn,
    h.mvmu.snhPowLeak, h.mvmu.snhArea, h.mvmu.muxPowDyn, h.mvmu.muxPowLeak, h.mvmu.muxArea, h.mvmu.snaPowDyn,
    h.mvmu.snaPowLeak, h.mvmu.snaArea, h.core.ccuPowDyn, h.core.ccuPowLeak, h.core.ccuArea,
    h.core.instrnMemPowDyn, h.core.instrnMemPowLeak, h.core.instrnMemArea, h.core.dataMemPowDyn,
    h.core.dataMemPowLeak, h.core.dataMemArea, h.core.aluPowMulDyn, h.core.aluPowDivDyn, h.core.actPowDyn,
    h.core.aluPowOthersDyn, h.core.aluPowLeak, h.core.aluArea, h.core.actArea, h.tile.tcuPowDyn,
    h.tile.tcuPowLeak, h.tile.tcuArea, h.tile.instrnMemPowDyn, h.tile.instrnMemPowLeak, h.tile.instrnMemArea,
    h.tile.edramPowDyn, h.tile.edramPowLeak, h.tile.edramArea, h.tile.edramCtrlPowDyn, h.tile.edramCtrlPowLeak,
    h.tile.edramCtrlArea, h.tile.edramBusPowLeak, h.tile.edramBusArea, h.tile.receiveBufferPowDyn,
    h.tile.receiveBufferPowLeak, h.tile.receiveBufferArea, h.noc.interPowDyn, h.noc.interPowLeak,
    h.noc.interArea, h.noc.intraPowDyn, hl, ha, rfl⟩

end Ramwich
