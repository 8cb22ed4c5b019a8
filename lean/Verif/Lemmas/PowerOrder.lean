import Verif.Spec.ConfigTables
import Mathlib.Tactic.Positivity
import Mathlib.Tactic.GCongr
import Mathlib.Algebra.Order.Field.Basic

/-! # Reports and the order of the power and area numbers -/
namespace Ramwich

open Spec

/-- No number of `p` is larger than that of `q`. -/
structure PowerLe (p q : Power) : Prop where
  dacPowDyn : val p.dacPowDyn ≤ val q.dacPowDyn
  dacPowLeak : val p.dacPowLeak ≤ val q.dacPowLeak
  dacArea : val p.dacArea ≤ val q.dacArea
  adcPowDyn : val p.adcPowDyn ≤ val q.adcPowDyn
  adcPowLeak : val p.adcPowLeak ≤ val q.adcPowLeak
  adcArea : val p.adcArea ≤ val q.adcArea
  xbarPow : val p.xbarPow ≤ val q.xbarPow
  xbarPowLeak : p.xbarPowLeak ≤ q.xbarPowLeak
  xbarArea : val p.xbarArea ≤ val q.xbarArea
  sramXbarPowDyn : val p.sramXbarPowDyn ≤ val q.sramXbarPowDyn
  sramXbarPowLeak : val p.sramXbarPowLeak ≤ val q.sramXbarPowLeak
  sramXbarArea : val p.sramXbarArea ≤ val q.sramXbarArea
  calculatorPowDyn : val p.calculatorPowDyn ≤ val q.calculatorPowDyn
  calculatorPowLeak : val p.calculatorPowLeak ≤ val q.calculatorPowLeak
  inMemPowDynRead : val p.inMemPowDynRead ≤ val q.inMemPowDynRead
  inMemPowDynWrite : val p.inMemPowDynWrite ≤ val q.inMemPowDynWrite
  inMemPowLeak : val p.inMemPowLeak ≤ val q.inMemPowLeak
  inMemArea : val p.inMemArea ≤ val q.inMemArea
  outMemPowDyn : val p.outMemPowDyn ≤ val q.outMemPowDyn
  outMemPowLeak : val p.outMemPowLeak ≤ val q.outMemPowLeak
  outMemArea : val p.outMemArea ≤ val q.outMemArea
  snhPowDyn : p.snhPowDyn ≤ q.snhPowDyn
  snhPowLeak : p.snhPowLeak ≤ q.snhPowLeak
  snhArea : p.snhArea ≤ q.snhArea
  muxPowDyn : p.muxPowDyn ≤ q.muxPowDyn
  muxPowLeak : p.muxPowLeak ≤ q.muxPowLeak
  muxArea : p.muxArea ≤ q.muxArea
  snaPowDyn : p.snaPowDyn ≤ q.snaPowDyn
  snaPowLeak : p.snaPowLeak ≤ q.snaPowLeak
  snaArea : p.snaArea ≤ q.snaArea
  ccuPowDyn : p.ccuPowDyn ≤ q.ccuPowDyn
  ccuPowLeak : p.ccuPowLeak ≤ q.ccuPowLeak
  ccuArea : p.ccuArea ≤ q.ccuArea
  coreInstrnPowDyn : val p.coreInstrnPowDyn ≤ val q.coreInstrnPowDyn
  coreInstrnPowLeak : val p.coreInstrnPowLeak ≤ val q.coreInstrnPowLeak
  coreInstrnArea : val p.coreInstrnArea ≤ val q.coreInstrnArea
  dataMemPowDyn : val p.dataMemPowDyn ≤ val q.dataMemPowDyn
  dataMemPowLeak : val p.dataMemPowLeak ≤ val q.dataMemPowLeak
  dataMemArea : val p.dataMemArea ≤ val q.dataMemArea
  aluPowMulDyn : p.aluPowMulDyn ≤ q.aluPowMulDyn
  aluPowDivDyn : p.aluPowDivDyn ≤ q.aluPowDivDyn
  actPowDyn : p.actPowDyn ≤ q.actPowDyn
  aluPowOthersDyn : p.aluPowOthersDyn ≤ q.aluPowOthersDyn
  aluPowLeak : p.aluPowLeak ≤ q.aluPowLeak
  aluArea : p.aluArea ≤ q.aluArea
  actArea : p.actArea ≤ q.actArea
  tcuPowDyn : p.tcuPowDyn ≤ q.tcuPowDyn
  tcuPowLeak : p.tcuPowLeak ≤ q.tcuPowLeak
  tcuArea : p.tcuArea ≤ q.tcuArea
  tileInstrnPowDyn : val p.tileInstrnPowDyn ≤ val q.tileInstrnPowDyn
  tileInstrnPowLeak : val p.tileInstrnPowLeak ≤ val q.tileInstrnPowLeak
  tileInstrnArea : val p.tileInstrnArea ≤ val q.tileInstrnArea
  edramPowDyn : val p.edramPowDyn ≤ val q.edramPowDyn
  edramPowLeak : val p.edramPowLeak ≤ val q.edramPowLeak
  edramArea : val p.edramArea ≤ val q.edramArea
  edramCtrlPowDyn : p.edramCtrlPowDyn ≤ q.edramCtrlPowDyn
  edramCtrlPowLeak : p.edramCtrlPowLeak ≤ q.edramCtrlPowLeak
  edramCtrlArea : p.edramCtrlArea ≤ q.edramCtrlArea
  edramBusPowLeak : p.edramBusPowLeak ≤ q.edramBusPowLeak
  edramBusArea : p.edramBusArea ≤ q.edramBusArea
  receiveBufferPowDyn : p.receiveBufferPowDyn ≤ q.receiveBufferPowDyn
  receiveBufferPowLeak : p.receiveBufferPowLeak ≤ q.receiveBufferPowLeak
  receiveBufferArea : p.receiveBufferArea ≤ q.receiveBufferArea
  nocInterPowDyn : p.nocInterPowDyn ≤ q.nocInterPowDyn
  nocInterPowLeak : p.nocInterPowLeak ≤ q.nocInterPowLeak
  nocInterArea : p.nocInterArea ≤ q.nocInterArea
  nocIntraPowDyn : val p.nocIntraPowDyn ≤ val q.nocIntraPowDyn
  nocIntraPowLeak : p.nocIntraPowLeak / p.numPort ≤ q.nocIntraPowLeak / q.numPort
  nocIntraArea : p.nocIntraArea / p.numPort ≤ q.nocIntraArea / q.numPort

/-- No number is negative. -/
structure PowerNonneg (p : Power) : Prop where
  dacPowDyn : 0 ≤ val p.dacPowDyn
  dacPowLeak : 0 ≤ val p.dacPowLeak
  dacArea : 0 ≤ val p.dacArea
  adcPowDyn : 0 ≤ val p.adcPowDyn
  adcPowLeak : 0 ≤ val p.adcPowLeak
  adcArea : 0 ≤ val p.adcArea
  xbarPow : 0 ≤ val p.xbarPow
  xbarPowLeak : 0 ≤ p.xbarPowLeak
  xbarArea : 0 ≤ val p.xbarArea
  sramXbarPowDyn : 0 ≤ val p.sramXbarPowDyn
  sramXbarPowLeak : 0 ≤ val p.sramXbarPowLeak
  sramXbarArea : 0 ≤ val p.sramXbarArea
  calculatorPowDyn : 0 ≤ val p.calculatorPowDyn
  calculatorPowLeak : 0 ≤ val p.calculatorPowLeak
  inMemPowDynRead : 0 ≤ val p.inMemPowDynRead
  inMemPowDynWrite : 0 ≤ val p.inMemPowDynWrite
  inMemPowLeak : 0 ≤ val p.inMemPowLeak
  inMemArea : 0 ≤ val p.inMemArea
  outMemPowDyn : 0 ≤ val p.outMemPowDyn
  outMemPowLeak : 0 ≤ val p.outMemPowLeak
  outMemArea : 0 ≤ val p.outMemArea
  snhPowDyn : 0 ≤ p.snhPowDyn
  snhPowLeak : 0 ≤ p.snhPowLeak
  snhArea : 0 ≤ p.snhArea
  muxPowDyn : 0 ≤ p.muxPowDyn
  muxPowLeak : 0 ≤ p.muxPowLeak
  muxArea : 0 ≤ p.muxArea
  snaPowDyn : 0 ≤ p.snaPowDyn
  snaPowLeak : 0 ≤ p.snaPowLeak
  snaArea : 0 ≤ p.snaArea
  ccuPowDyn : 0 ≤ p.ccuPowDyn
  ccuPowLeak : 0 ≤ p.ccuPowLeak
  ccuArea : 0 ≤ p.ccuArea
  coreInstrnPowDyn : 0 ≤ val p.coreInstrnPowDyn
  coreInstrnPowLeak : 0 ≤ val p.coreInstrnPowLeak
  coreInstrnArea : 0 ≤ val p.coreInstrnArea
  dataMemPowDyn : 0 ≤ val p.dataMemPowDyn
  dataMemPowLeak : 0 ≤ val p.dataMemPowLeak
  dataMemArea : 0 ≤ val p.dataMemArea
  aluPowMulDyn : 0 ≤ p.aluPowMulDyn
  aluPowDivDyn : 0 ≤ p.aluPowDivDyn
  actPowDyn : 0 ≤ p.actPowDyn
  aluPowOthersDyn : 0 ≤ p.aluPowOthersDyn
  aluPowLeak : 0 ≤ p.aluPowLeak
  aluArea : 0 ≤ p.aluArea
  actArea : 0 ≤ p.actArea
  tcuPowDyn : 0 ≤ p.tcuPowDyn
  tcuPowLeak : 0 ≤ p.tcuPowLeak
  tcuArea : 0 ≤ p.tcuArea
  tileInstrnPowDyn : 0 ≤ val p.tileInstrnPowDyn
  tileInstrnPowLeak : 0 ≤ val p.tileInstrnPowLeak
  tileInstrnArea : 0 ≤ val p.tileInstrnArea
  edramPowDyn : 0 ≤ val p.edramPowDyn
  edramPowLeak : 0 ≤ val p.edramPowLeak
  edramArea : 0 ≤ val p.edramArea
  edramCtrlPowDyn : 0 ≤ p.edramCtrlPowDyn
  edramCtrlPowLeak : 0 ≤ p.edramCtrlPowLeak
  edramCtrlArea : 0 ≤ p.edramCtrlArea
  edramBusPowLeak : 0 ≤ p.edramBusPowLeak
  edramBusArea : 0 ≤ p.edramBusArea
  receiveBufferPowDyn : 0 ≤ p.receiveBufferPowDyn
  receiveBufferPowLeak : 0 ≤ p.receiveBufferPowLeak
  receiveBufferArea : 0 ≤ p.receiveBufferArea
  nocInterPowDyn : 0 ≤ p.nocInterPowDyn
  nocInterPowLeak : 0 ≤ p.nocInterPowLeak
  nocInterArea : 0 ≤ p.nocInterArea
  nocIntraPowDyn : 0 ≤ val p.nocIntraPowDyn
  nocIntraPowLeak : 0 ≤ p.nocIntraPowLeak / p.numPort
  nocIntraArea : 0 ≤ p.nocIntraArea / p.numPort

/-- The same component, at no larger cost. -/
structure Cheaper (a b : Component) : Prop where
  name : a.name = b.name
  count : a.count = b.count
  dynamic : a.dynamic ≤ b.dynamic
  leak : a.leakPerCycle ≤ b.leakPerCycle
  area : a.area ≤ b.area
  cycles : a.cycles = b.cycles
  nonneg : 0 ≤ a.cycles

/-- A component with costs that are not negative. -/
structure Costs (a : Component) : Prop where
  dynamic : 0 ≤ a.dynamic
  leak : 0 ≤ a.leakPerCycle
  area : 0 ≤ a.area
  cycles : 0 ≤ a.cycles


theorem cheaper_mvmu {p q : Power} (h : PowerLe p q) (m : Mvmu) (cycles : Int) (hc : 0 ≤ cycles)
    (h1 : 0 ≤ m.inreg.stats.readOperations) (h2 : 0 ≤ m.inreg.stats.writeCells)
    (h3 : 0 ≤ m.outreg.stats.totalOperatedCells) :
    List.Forall₂ Cheaper (mvmuComponents p m cycles) (mvmuComponents q m cycles) := by
  unfold mvmuComponents
  obtain ⟨_, _, _, _, _, _, _, _, _, _, _, _, _, _, _, _, _, _, _, _, _, _, _, _, _, _, _, _, _, _, _, _, _, _, _, _, _, _, _, _, _, _, _, _, _, _, _, _, _, _, _, _, _, _, _, _, _, _, _, _, _, _, _, _, _, _, _, _, _⟩ := h
  dsimp only
  refine List.rel_append (List.rel_append ?_ ?_) ?_
  · split
    · refine .cons ?_ (.cons ?_ (.cons ?_ (.cons ?_ (.cons ?_ (.cons ?_ (.cons ?_ .nil)))))) <;>
        refine ⟨rfl, rfl, ?_, ?_, ?_, rfl, hc⟩ <;> dsimp only <;> gcongr
    · exact .nil
  · split
    · refine .cons ?_ (.cons ?_ .nil) <;> refine ⟨rfl, rfl, ?_, ?_, ?_, rfl, hc⟩ <;> dsimp only <;> gcongr
    · exact .nil
  · refine .cons ?_ (.cons ?_ (.cons ?_ .nil)) <;> refine ⟨rfl, rfl, ?_, ?_, ?_, rfl, hc⟩ <;> dsimp only <;> gcongr

theorem costs_mvmu {p : Power} (h : PowerNonneg p) (m : Mvmu) (cycles : Int) (hc : 0 ≤ cycles)
    (h1 : 0 ≤ m.inreg.stats.readOperations) (h2 : 0 ≤ m.inreg.stats.writeCells)
    (h3 : 0 ≤ m.outreg.stats.totalOperatedCells) : ∀ c ∈ mvmuComponents p m cycles, Costs c := by
  unfold mvmuComponents
  obtain ⟨_, _, _, _, _, _, _, _, _, _, _, _, _, _, _, _, _, _, _, _, _, _, _, _, _, _, _, _, _, _, _, _, _, _, _, _, _, _, _, _, _, _, _, _, _, _, _, _, _, _, _, _, _, _, _, _, _, _, _, _, _, _, _, _, _, _, _, _, _⟩ := h
  dsimp only
  rw [List.forall_mem_append, List.forall_mem_append]
  refine ⟨⟨?_, ?_⟩, ?_⟩
  · split
    · simp only [List.forall_mem_cons]
      refine ⟨?_, ?_, ?_, ?_, ?_, ?_, ?_, by simp⟩ <;> refine ⟨?_, ?_, ?_, hc⟩ <;> dsimp only <;> positivity
    · simp
  · split
    · simp only [List.forall_mem_cons]
      refine ⟨?_, ?_, by simp⟩ <;> refine ⟨?_, ?_, ?_, hc⟩ <;> dsimp only <;> positivity
    · simp
  · simp only [List.forall_mem_cons]
    refine ⟨?_, ?_, ?_, by simp⟩ <;> refine ⟨?_, ?_, ?_, hc⟩ <;> dsimp only <;> positivity

theorem forall₂_flatMap {α β : Type} {R : β → β → Prop} {f g : α → List β} {l : List α}
    (h : ∀ x ∈ l, List.Forall₂ R (f x) (g x)) : List.Forall₂ R (l.flatMap f) (l.flatMap g) := by
  induction l with
  | nil => exact .nil
  | cons x l ih =>
    rw [List.flatMap_cons, List.flatMap_cons]
    exact List.rel_append (h x (by simp)) (ih fun y hy => h y (by simp [hy]))

/-- The counters of a core. -/
def coreCounters (c : CoreObj) : List Int :=
  [c.activeCycles, c.core.cache.stats.totalOperatedCells] ++ c.core.mvmus.flatMap fun m =>
    [m.inreg.stats.readOperations, m.inreg.stats.writeCells, m.outreg.stats.totalOperatedCells]

theorem coreCounters_mvmu {c : CoreObj} (h : ∀ x ∈ coreCounters c, 0 ≤ x) (m : Mvmu) (hm : m ∈ c.core.mvmus) :
    0 ≤ m.inreg.stats.readOperations ∧ 0 ≤ m.inreg.stats.writeCells ∧ 0 ≤ m.outreg.stats.totalOperatedCells := by
  unfold coreCounters at h
  rw [List.forall_mem_append] at h
  have := fun x hx => h.2 x (List.mem_flatMap.2 ⟨m, hm, hx⟩)
  simp only [List.forall_mem_cons] at this
  exact ⟨this.1, this.2.1, this.2.2.1⟩

theorem cheaper_core {p q : Power} (h : PowerLe p q) (c : CoreObj) (hn : ∀ x ∈ coreCounters c, 0 ≤ x) :
    List.Forall₂ Cheaper (coreComponents p c) (coreComponents q c) := by
  have hm := coreCounters_mvmu hn
  unfold coreCounters at hn
  rw [List.forall_mem_append] at hn
  simp only [List.forall_mem_cons] at hn
  obtain ⟨⟨hc, h2, -⟩, -⟩ := hn
  unfold coreComponents
  dsimp only
  refine List.rel_append ?_ (forall₂_flatMap fun m hm' => cheaper_mvmu h m _ hc (hm m hm').1 (hm m hm').2.1 (hm m hm').2.2)
  obtain ⟨_, _, _, _, _, _, _, _, _, _, _, _, _, _, _, _, _, _, _, _, _, _, _, _, _, _, _, _, _, _, _, _, _, _, _, _, _, _, _, _, _, _, _, _, _, _, _, _, _, _, _, _, _, _, _, _, _, _, _, _, _, _, _, _, _, _, _, _, _⟩ := h
  refine .cons ?_ (.cons ?_ (.cons ?_ (.cons ?_ (.cons ?_ (.cons ?_ (.cons ?_ (.cons ?_ .nil))))))) <;>
    refine ⟨rfl, rfl, ?_, ?_, ?_, rfl, hc⟩ <;> dsimp only <;> first | exact le_refl _ | gcongr

theorem costs_core {p : Power} (h : PowerNonneg p) (c : CoreObj) (hn : ∀ x ∈ coreCounters c, 0 ≤ x) :
    ∀ x ∈ coreComponents p c, Costs x := by
  have hm := coreCounters_mvmu hn
  unfold coreCounters at hn
  rw [List.forall_mem_append] at hn
  simp only [List.forall_mem_cons] at hn
  obtain ⟨⟨hc, h2, -⟩, -⟩ := hn
  unfold coreComponents
  dsimp only
  rw [List.forall_mem_append]
  constructor
  · obtain ⟨_, _, _, _, _, _, _, _, _, _, _, _, _, _, _, _, _, _, _, _, _, _, _, _, _, _, _, _, _, _, _, _, _, _, _, _, _, _, _, _, _, _, _, _, _, _, _, _, _, _, _, _, _, _, _, _, _, _, _, _, _, _, _, _, _, _, _, _, _⟩ := h
    simp only [List.forall_mem_cons]
    refine ⟨?_, ?_, ?_, ?_, ?_, ?_, ?_, ?_, by simp⟩ <;> refine ⟨?_, ?_, ?_, hc⟩ <;> dsimp only <;> positivity
  · intro x hx
    obtain ⟨m, hm', hx⟩ := List.mem_flatMap.1 hx
    exact costs_mvmu h m _ hc (hm m hm').1 (hm m hm').2.1 (hm m hm').2.2 x hx

theorem cheaper_router {p q : Power} (h : PowerLe p q) (r : RouterStats) (cycles : Int) (hc : 0 ≤ cycles) :
    List.Forall₂ Cheaper (routerComponents p r cycles) (routerComponents q r cycles) := by
  unfold routerComponents
  obtain ⟨_, _, _, _, _, _, _, _, _, _, _, _, _, _, _, _, _, _, _, _, _, _, _, _, _, _, _, _, _, _, _, _, _, _, _, _, _, _, _, _, _, _, _, _, _, _, _, _, _, _, _, _, _, _, _, _, _, _, _, _, _, _, _, _, _, _, _, _, _⟩ := h
  refine .cons ?_ (.cons ?_ (.cons ?_ (.cons ?_ .nil))) <;>
    refine ⟨rfl, rfl, ?_, ?_, ?_, rfl, hc⟩ <;> dsimp only <;> first | exact le_refl _ | gcongr

theorem costs_router {p : Power} (h : PowerNonneg p) (r : RouterStats) (cycles : Int) (hc : 0 ≤ cycles) :
    ∀ x ∈ routerComponents p r cycles, Costs x := by
  unfold routerComponents
  obtain ⟨_, _, _, _, _, _, _, _, _, _, _, _, _, _, _, _, _, _, _, _, _, _, _, _, _, _, _, _, _, _, _, _, _, _, _, _, _, _, _, _, _, _, _, _, _, _, _, _, _, _, _, _, _, _, _, _, _, _, _, _, _, _, _, _, _, _, _, _, _⟩ := h
  simp only [List.forall_mem_cons]
  refine ⟨?_, ?_, ?_, ?_, by simp⟩ <;> refine ⟨?_, ?_, ?_, hc⟩ <;> dsimp only <;> positivity

/-- The counters of a tile. -/
def tileCounters (t : TileObj) : List Int :=
  [t.activeCycles, t.ctrl.mem.stats.totalOperations, t.ctrl.stats.totalRequests] ++ t.cores.flatMap coreCounters

theorem tileCounters_core {t : TileObj} (h : ∀ x ∈ tileCounters t, 0 ≤ x) (c : CoreObj) (hc : c ∈ t.cores) :
    ∀ x ∈ coreCounters c, 0 ≤ x := by
  intro x hx
  exact h x (List.mem_append.2 (.inr (List.mem_flatMap.2 ⟨c, hc, hx⟩)))

theorem cheaper_tile {p q : Power} (h : PowerLe p q) (t : TileObj) (hn : ∀ x ∈ tileCounters t, 0 ≤ x) :
    List.Forall₂ Cheaper (tileComponents p t) (tileComponents q t) := by
  have hm := tileCounters_core hn
  unfold tileCounters at hn
  rw [List.forall_mem_append] at hn
  simp only [List.forall_mem_cons] at hn
  obtain ⟨⟨hc, h2, h3, -⟩, -⟩ := hn
  unfold tileComponents
  dsimp only
  split
  · exact cheaper_router h _ _ (by decide)
  refine List.rel_append (List.rel_append ?_ (cheaper_router h _ _ hc)) (forall₂_flatMap fun c hc' => cheaper_core h c (hm c hc'))
  obtain ⟨_, _, _, _, _, _, _, _, _, _, _, _, _, _, _, _, _, _, _, _, _, _, _, _, _, _, _, _, _, _, _, _, _, _, _, _, _, _, _, _, _, _, _, _, _, _, _, _, _, _, _, _, _, _, _, _, _, _, _, _, _, _, _, _, _, _, _, _, _⟩ := h
  refine .cons ?_ (.cons ?_ (.cons ?_ (.cons ?_ .nil))) <;>
    refine ⟨rfl, rfl, ?_, ?_, ?_, rfl, hc⟩ <;> dsimp only <;> first | exact le_refl _ | gcongr

theorem costs_tile {p : Power} (h : PowerNonneg p) (t : TileObj) (hn : ∀ x ∈ tileCounters t, 0 ≤ x) :
    ∀ x ∈ tileComponents p t, Costs x := by
  have hm := tileCounters_core hn
  unfold tileCounters at hn
  rw [List.forall_mem_append] at hn
  simp only [List.forall_mem_cons] at hn
  obtain ⟨⟨hc, h2, h3, -⟩, -⟩ := hn
  unfold tileComponents
  dsimp only
  split
  · exact costs_router h _ _ (by decide)
  rw [List.forall_mem_append, List.forall_mem_append]
  refine ⟨⟨?_, costs_router h _ _ hc⟩, ?_⟩
  · obtain ⟨_, _, _, _, _, _, _, _, _, _, _, _, _, _, _, _, _, _, _, _, _, _, _, _, _, _, _, _, _, _, _, _, _, _, _, _, _, _, _, _, _, _, _, _, _, _, _, _, _, _, _, _, _, _, _, _, _, _, _, _, _, _, _, _, _, _, _, _, _⟩ := h
    simp only [List.forall_mem_cons]
    refine ⟨?_, ?_, ?_, ?_, by simp⟩ <;> refine ⟨?_, ?_, ?_, hc⟩ <;> dsimp only <;> positivity
  · intro x hx
    obtain ⟨c, hc', hx⟩ := List.mem_flatMap.1 hx
    exact costs_core h c (hm c hc') x hx

theorem ratio_eq (a : ℚ) (t p : Nat) : (t : ℚ) / p * a = t * (a / p) := by ring

theorem cheaper_node {p q : Power} (h : PowerLe p q) (n : NodeObj) (hc : 0 ≤ n.queueBusyCycles)
    (hn : ∀ t ∈ n.tiles, ∀ x ∈ tileCounters t, 0 ≤ x) :
    List.Forall₂ Cheaper (nodeComponents p n) (nodeComponents q n) := by
  unfold nodeComponents
  dsimp only
  refine List.rel_append ?_ (forall₂_flatMap fun t ht => cheaper_tile h t (hn t ht))
  obtain ⟨_, _, _, _, _, _, _, _, _, _, _, _, _, _, _, _, _, _, _, _, _, _, _, _, _, _, _, _, _, _, _, _, _, _, _, _, _, _, _, _, _, _, _, _, _, _, _, _, _, _, _, _, _, _, _, _, _, _, _, _, _, _, _, _, _, _, _, _, _⟩ := h
  refine .cons ⟨rfl, rfl, le_refl _, ?_, ?_, rfl, hc⟩ (.cons ⟨rfl, rfl, le_refl _, ?_, ?_, rfl, hc⟩
    (.cons ⟨rfl, rfl, ?_, le_refl _, le_refl _, rfl, le_refl _⟩ .nil)) <;> dsimp only
  · assumption
  · assumption
  · rw [ratio_eq, ratio_eq]; gcongr
  · rw [ratio_eq, ratio_eq]; gcongr
  · gcongr

theorem costs_node {p : Power} (h : PowerNonneg p) (n : NodeObj) (hc : 0 ≤ n.queueBusyCycles)
    (hn : ∀ t ∈ n.tiles, ∀ x ∈ tileCounters t, 0 ≤ x) : ∀ x ∈ nodeComponents p n, Costs x := by
  unfold nodeComponents
  dsimp only
  rw [List.forall_mem_append]
  constructor
  · obtain ⟨_, _, _, _, _, _, _, _, _, _, _, _, _, _, _, _, _, _, _, _, _, _, _, _, _, _, _, _, _, _, _, _, _, _, _, _, _, _, _, _, _, _, _, _, _, _, _, _, _, _, _, _, _, _, _, _, _, _, _, _, _, _, _, _, _, _, _, _, _⟩ := h
    simp only [List.forall_mem_cons]
    refine ⟨⟨le_refl _, ?_, ?_, hc⟩, ⟨le_refl _, ?_, ?_, hc⟩, ⟨?_, le_refl _, le_refl _, le_refl _⟩, by simp⟩ <;> dsimp only
    · assumption
    · assumption
    · rw [ratio_eq]; positivity
    · rw [ratio_eq]; positivity
    · positivity
  · intro x hx
    obtain ⟨t, ht, hx⟩ := List.mem_flatMap.1 hx
    exact costs_tile h t (hn t ht) x hx

theorem simCounters_node {s : Sim} (h : ∀ x ∈ simCounters s, 0 ≤ x) (n : NodeObj) (hn : n ∈ s.nodes) :
    0 ≤ n.queueBusyCycles ∧ ∀ t ∈ n.tiles, ∀ x ∈ tileCounters t, 0 ≤ x := by
  constructor
  · exact h _ (List.mem_flatMap.2 ⟨n, hn, by simp⟩)
  · intro t ht x hx
    exact h x (List.mem_flatMap.2 ⟨n, hn, List.mem_cons.2 (.inr (List.mem_flatMap.2 ⟨t, ht, hx⟩))⟩)

theorem cheaper_sim {p q : Power} (h : PowerLe p q) (s : Sim) (hn : ∀ x ∈ simCounters s, 0 ≤ x) :
    List.Forall₂ Cheaper (simComponents p s) (simComponents q s) :=
  forall₂_flatMap fun n hm => cheaper_node h n (simCounters_node hn n hm).1 (simCounters_node hn n hm).2

theorem costs_sim {p : Power} (h : PowerNonneg p) (s : Sim) (hn : ∀ x ∈ simCounters s, 0 ≤ x) :
    ∀ x ∈ simComponents p s, Costs x := by
  intro x hx
  obtain ⟨n, hm, hx⟩ := List.mem_flatMap.1 hx
  exact costs_node h n (simCounters_node hn n hm).1 (simCounters_node hn n hm).2 x hx

theorem cheaper_total {l r : List Component} (h : List.Forall₂ Cheaper l r) (k : String) :
    CheaperStats (reportTotal l k) (reportTotal r k) := by
  unfold reportTotal
  induction h with
  | nil => exact ⟨rfl, le_refl _, le_refl _, le_refl _⟩
  | @cons a b l r hab _ ih =>
    rw [List.filter_cons, List.filter_cons, hab.name]
    by_cases hk : b.name = k
    · rw [if_pos (by simpa using hk), if_pos (by simpa using hk), List.map_cons, List.map_cons, List.sum_cons,
        List.sum_cons]
      obtain ⟨i1, i2, i3, i4⟩ := ih
      obtain ⟨-, hcount, hd, hl, ha, hcy, hnn⟩ := hab
      refine ⟨?_, ?_, ?_, ?_⟩
      · change a.count + _ = b.count + _
        rw [hcount, i1]
      · exact add_le_add hd i2
      · change a.leakPerCycle * a.cycles + _ ≤ b.leakPerCycle * b.cycles + _
        rw [← hcy]
        have : (0 : ℚ) ≤ a.cycles := by exact_mod_cast hnn
        exact add_le_add (mul_le_mul_of_nonneg_right hl this) i3
      · exact add_le_add ha i4
    · rw [if_neg (by simpa using hk), if_neg (by simpa using hk)]
      exact ih

theorem costs_total {l : List Component} (h : ∀ c ∈ l, Costs c) (k : String) : NonnegStats (reportTotal l k) := by
  unfold reportTotal
  induction l with
  | nil => exact ⟨le_refl _, le_refl _, le_refl _⟩
  | cons a l ih =>
    have i := ih fun c hc => h c (by simp [hc])
    rw [List.filter_cons]
    by_cases hk : a.name = k
    · rw [if_pos (by simpa using hk), List.map_cons, List.sum_cons]
      obtain ⟨hd, hl, ha, hc⟩ := h a (by simp)
      have : (0 : ℚ) ≤ a.cycles := by exact_mod_cast hc
      exact ⟨add_nonneg hd i.1, add_nonneg (mul_nonneg hl this) i.2.1, add_nonneg ha i.2.2⟩
    · rw [if_neg (by simpa using hk)]
      exact i

end Ramwich
