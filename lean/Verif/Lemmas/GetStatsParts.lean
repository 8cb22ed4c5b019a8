import Verif.Lemmas.GetStats
import Mathlib.Tactic.FieldSimp

/-! # The parts reported by each component -/
namespace Ramwich

open Spec

/-- If the number is there, it is `q`. -/
def Den (n : Num) (q : ℚ) : Prop := ∀ x, n = .ok (some x) → x = q

theorem Den.num {x q : ℚ} (e : x = q) : Den (num x) q := fun y h => (num_ok x y h).trans e
theorem Den.attr {o : Option ℚ} : Den (attr o) (val o) := fun y h => attr_ok o y h
theorem Den.times {o : Option ℚ} {n q : ℚ} (e : n * val o = q) : Den (times o n) q :=
  fun y h => (times_ok o n y h).trans e
theorem Den.plus {a b : Num} {x y q : ℚ} (ha : Den a x) (hb : Den b y) (e : x + y = q) : Den (plus a b) q := by
  intro z h
  obtain ⟨u, v, h1, h2, rfl⟩ := plus_ok a b z h
  rw [ha u h1, hb v h2, e]
theorem Den.scaled {a : Num} {n x q : ℚ} (ha : Den a x) (e : n * x = q) : Den (scaled a n) q := by
  intro z h
  obtain ⟨u, h1, rfl⟩ := scaled_ok a n z h
  rw [ha u h1, e]

theorem leaf {k : String} {n : Int} {dyn leak area : Num} (c : Component) (hk : k = c.name) (hn : n = c.count)
    (hd : Den dyn c.dynamic) (hl : Den leak c.leakPerCycle) (ha : Den area c.area) :
    (fun (x : String × Except PyErr Stats) (y : String × Stats) => x.1 = y.1 ∧ ∀ s, x.2 = .ok s → s = y.2)
      (k, mkStats n dyn leak area) (c.name, unscaled c) := by
  refine ⟨hk, fun s hs => ?_⟩
  obtain ⟨d, l, a, h1, h2, h3, rfl⟩ := mkStats_ok _ _ _ _ _ hs
  exact stats_ext hn (hd d h1) (hl l h2) (ha a h3)

theorem yields_one {k : String} {n : Int} {dyn leak area : Num} (c : Component) (hk : k = c.name)
    (hn : n = c.count) (hd : Den dyn c.dynamic) (hl : Den leak c.leakPerCycle) (ha : Den area c.area) :
    Yields (newDict [(k, mkStats n dyn leak area)]) (unscaledParts [c]) :=
  yields_newDict _ _ (.cons (leaf c hk hn hd hl ha) .nil) (by simp [unscaledParts])

theorem unscaledParts_append (a b : List Component) :
    unscaledParts (a ++ b) = unscaledParts a ++ unscaledParts b := by simp [unscaledParts]
theorem partsOf_append (a b : List Component) : partsOf (a ++ b) = partsOf a ++ partsOf b := by simp [partsOf]
theorem unscaledParts_flatMap {α : Type} (l : List α) (f : α → List Component) :
    unscaledParts (l.flatMap f) = l.flatMap fun x => unscaledParts (f x) := by
  simp [unscaledParts, List.map_flatMap]
theorem partsOf_flatMap {α : Type} (l : List α) (f : α → List Component) :
    partsOf (l.flatMap f) = l.flatMap fun x => partsOf (f x) := by
  simp [partsOf, List.map_flatMap]

/-- The components of an MVMU, in the order of `MVMU.get_stats`. -/
theorem yields_mvmu (p : Power) (m : Mvmu) (cycles : Int) :
    Yields (m.getStats p) (unscaledParts (mvmuComponents p m cycles)) := by
  have snh : ∀ samples, Yields (snhStats p m samples) (unscaledParts [⟨"Sample and Hold", samples,
      samples * p.snhPowDyn, m.cfg.numRramXbarPerMvmu * m.cfg.xbarSize * p.snhPowLeak,
      m.cfg.numRramXbarPerMvmu * m.cfg.xbarSize * p.snhArea, cycles⟩]) := fun samples =>
    yields_one _ rfl rfl (.num (mul_comm ..)) (.num (by push_cast; ring)) (.num (by push_cast; ring))
  have mux : ∀ arrays selections, Yields (muxStats p m arrays selections) (unscaledParts [⟨"MUX", selections,
      selections * p.muxPowDyn, arrays * m.cfg.numAdcPerXbar * p.muxPowLeak,
      arrays * m.cfg.numAdcPerXbar * p.muxArea, cycles⟩]) := fun arrays selections =>
    yields_one _ rfl rfl (.num (mul_comm ..)) (.num (by push_cast; ring)) (.num (by push_cast; ring))
  have rram : Yields (rramStats p m) (unscaledParts [⟨"RRAM Xbar", m.rram.mvmOperations,
      m.rram.mvmOperations * val p.xbarPow, 2 * m.cfg.numRramXbarPerMvmu * p.xbarPowLeak,
      2 * m.cfg.numRramXbarPerMvmu * val p.xbarArea, cycles⟩]) :=
    yields_one _ rfl rfl (.times rfl) (.num (by push_cast; ring)) (.times (by push_cast; ring))
  have dac : Yields (dacStatsCall p m) (unscaledParts [⟨"DAC", m.dacStats.conversions,
      m.dacStats.conversions * val p.dacPowDyn, m.cfg.xbarSize * val p.dacPowLeak,
      m.cfg.xbarSize * val p.dacArea, cycles⟩]) :=
    yields_one _ rfl rfl (.times rfl) (.times rfl) (.times rfl)
  have hsize : ((m.cfg.adcSize : Nat) : ℚ) = ((m.cfg.numRramXbarPerMvmu * m.cfg.numAdcPerXbar *
      (match m.cfg.adcType with | .differential => 1 | .normal => 2) : Nat) : ℚ) := by
    unfold MVMUConfig.adcSize
    cases m.cfg.adcType <;> simp
  have adc : Yields (adcStatsCall p m) (unscaledParts [⟨"ADC", m.adcStats.conversions,
      m.adcStats.conversions * val p.adcPowDyn,
      ((m.cfg.numRramXbarPerMvmu * m.cfg.numAdcPerXbar *
        (match m.cfg.adcType with | .differential => 1 | .normal => 2) : Nat) : ℚ) * val p.adcPowLeak,
      ((m.cfg.numRramXbarPerMvmu * m.cfg.numAdcPerXbar *
        (match m.cfg.adcType with | .differential => 1 | .normal => 2) : Nat) : ℚ) * val p.adcArea, cycles⟩]) :=
    yields_one _ rfl rfl (.times rfl) (.times (by rw [hsize])) (.times (by rw [hsize]))
  have sram : Yields (sramStats p m) (unscaledParts [⟨"SRAM CIM Unit", m.sram.macOperations,
      m.sram.macOperations * (val p.sramXbarPowDyn + val p.calculatorPowDyn),
      2 * m.cfg.numSramXbarPerMvmu * (val p.sramXbarPowLeak +
        ((m.cfg.xbarSize / m.cfg.numColumnsPerCalculator : Nat) : ℚ) * val p.calculatorPowLeak),
      2 * m.cfg.numSramXbarPerMvmu * (val p.sramXbarArea +
        ((m.cfg.xbarSize / m.cfg.numColumnsPerCalculator : Nat) : ℚ)), cycles⟩]) :=
    yields_one _ rfl rfl (.scaled (.plus .attr .attr rfl) rfl)
      (.scaled (.plus .attr (.times rfl) rfl) (by unfold numCalculators; push_cast; ring))
      (.scaled (.plus .attr (.num rfl) rfl) (by unfold numCalculators; push_cast; ring))
  have inr : Yields (inregStats p m) (unscaledParts [⟨"Input Register Array", m.inreg.stats.totalOperations,
      m.inreg.stats.readOperations * val p.inMemPowDynRead + m.inreg.stats.writeCells * val p.inMemPowDynWrite,
      val p.inMemPowLeak, val p.inMemArea, cycles⟩]) :=
    yields_one _ rfl rfl (.plus (.times rfl) (.times rfl) rfl) .attr .attr
  have outr : Yields (outregStats p m) (unscaledParts [⟨"Output Register Array", m.outreg.stats.totalOperations,
      m.outreg.stats.totalOperatedCells * val p.outMemPowDyn, val p.outMemPowLeak, val p.outMemArea, cycles⟩]) :=
    yields_one _ rfl rfl (.times rfl) .attr .attr
  have sna : Yields (snaStats p m) (unscaledParts [⟨"Shift and Add", m.snaOperations,
      m.snaOperations * p.snaPowDyn, p.snaPowLeak, p.snaArea, cycles⟩]) :=
    yields_one _ rfl rfl (.num (mul_comm ..)) (.num rfl) (.num rfl)
  unfold Mvmu.getStats mvmuComponents
  dsimp only
  rw [unscaledParts_append, unscaledParts_append, List.append_assoc, List.append_assoc]
  have last : List.Forall₂ Yields [inregStats p m, outregStats p m, snaStats p m] _ :=
    .cons inr (.cons outr (.cons sna .nil))
  have mid : List.Forall₂ Yields [sramStats p m, muxStats p m m.cfg.numSramXbarPerMvmu m.muxSramSelections] _ :=
    .cons sram (.cons (mux m.cfg.numSramXbarPerMvmu m.muxSramSelections) .nil)
  have first : List.Forall₂ Yields [rramStats p m, dacStatsCall p m, adcStatsCall p m, snhStats p m m.snhPosSamples,
      snhStats p m m.snhNegSamples, muxStats p m m.cfg.numRramXbarPerMvmu m.muxPosSelections,
      muxStats p m m.cfg.numRramXbarPerMvmu m.muxNegSelections] _ :=
    .cons rram (.cons dac (.cons adc (.cons (snh m.snhPosSamples) (.cons (snh m.snhNegSamples)
      (.cons (mux m.cfg.numRramXbarPerMvmu m.muxPosSelections)
        (.cons (mux m.cfg.numRramXbarPerMvmu m.muxNegSelections) .nil))))))
  cases hr : m.cfg.haveRramXbar <;> cases hs : m.cfg.haveSramXbar
  · exact yields_merging _ _ _ _ yields_empty last
  · exact yields_merging _ _ _ _ yields_empty (forall₂_append mid last)
  · exact yields_merging _ _ _ _ yields_empty (forall₂_append first last)
  · exact yields_merging _ _ _ _ yields_empty (forall₂_append first (forall₂_append mid last))

theorem mvmu_cycles (p : Power) (m : Mvmu) (n : Int) : ∀ c ∈ mvmuComponents p m n, c.cycles = n := by
  unfold mvmuComponents
  cases m.cfg.haveRramXbar <;> cases m.cfg.haveSramXbar <;> simp

theorem yields_congr {c : StatsCall} {ps ps' : Parts} (h : Yields c ps) (hp : ps' = ps) : Yields c ps' := hp ▸ h

theorem yields_core (p : Power) (c : CoreObj) : Yields (c.getStats p) (partsOf (coreComponents p c)) := by
  have own : Yields (newDict [
      ("Core Control Unit", mkStats c.activeCycles (num (c.activeCycles * p.ccuPowDyn)) (num p.ccuPowLeak)
        (num p.ccuArea)),
      ("Core instruction memory", mkStats c.operations.length (times p.coreInstrnPowDyn c.operations.length)
        (attr p.coreInstrnPowLeak) (attr p.coreInstrnArea))])
      (unscaledParts [
        ⟨"Core Control Unit", c.activeCycles, c.activeCycles * p.ccuPowDyn, p.ccuPowLeak, p.ccuArea, c.activeCycles⟩,
        ⟨"Core instruction memory", c.operations.length, c.operations.length * val p.coreInstrnPowDyn,
          val p.coreInstrnPowLeak, val p.coreInstrnArea, c.activeCycles⟩]) :=
    yields_newDict _ _
      (.cons (leaf _ rfl rfl (.num rfl) (.num rfl) (.num rfl))
        (.cons (leaf _ rfl rfl (.times rfl) .attr .attr) .nil)) (by simp [unscaledParts])
  have cache : Yields (cacheStats p c.core.cache) (unscaledParts [⟨"SRAM", c.core.cache.stats.totalOperatedCells,
      c.core.cache.stats.totalOperatedCells * val p.dataMemPowDyn, val p.dataMemPowLeak, val p.dataMemArea,
      c.activeCycles⟩]) := yields_one _ rfl rfl (.times rfl) .attr .attr
  have vfu : Yields (vfuStats p c.core.vfu) (unscaledParts [
      ⟨"VFU", c.core.vfu.totalOperations, c.core.vfu.mulOperations * p.aluPowMulDyn
        + c.core.vfu.divOperations * p.aluPowDivDyn + c.core.vfu.actOperations * p.actPowDyn
        + c.core.vfu.otherOperations * p.aluPowOthersDyn, p.aluPowLeak, p.aluArea + p.actArea, c.activeCycles⟩,
      { name := "VFU MUL", count := c.core.vfu.mulOperations, cycles := c.activeCycles },
      { name := "VFU DIV", count := c.core.vfu.divOperations, cycles := c.activeCycles },
      { name := "VFU ACT", count := c.core.vfu.actOperations, cycles := c.activeCycles },
      { name := "VFU OTHERS", count := c.core.vfu.otherOperations, cycles := c.activeCycles }]) :=
    yields_newDict _ _
      (.cons (leaf _ rfl rfl (.num (by ring)) (.num rfl) (.num rfl))
        (.cons (leaf _ rfl rfl (.num rfl) (.num rfl) (.num rfl))
        (.cons (leaf _ rfl rfl (.num rfl) (.num rfl) (.num rfl))
        (.cons (leaf _ rfl rfl (.num rfl) (.num rfl) (.num rfl))
        (.cons (leaf _ rfl rfl (.num rfl) (.num rfl) (.num rfl)) .nil))))) (by simp [unscaledParts])
  have all := yields_leaking _ _ c.activeCycles (yields_merging _ _ _ _ own
    (forall₂_append (.cons cache (.cons vfu .nil))
      (forall₂_map Yields c.core.mvmus (Mvmu.getStats p) _ fun m => yields_mvmu p m c.activeCycles)))
  refine yields_congr all ?_
  rw [← scale_parts (coreComponents p c) c.activeCycles]
  · congr 1
    unfold coreComponents
    dsimp only
    rw [unscaledParts_append, unscaledParts_flatMap, List.flatten_append, ← List.flatMap_def, ← List.append_assoc]
    rfl
  · intro x hx
    unfold coreComponents at hx
    rcases List.mem_append.1 hx with hx | hx
    · simp at hx
      rcases hx with rfl | rfl | rfl | rfl | rfl | rfl | rfl | rfl <;> rfl
    · obtain ⟨m, -, hm⟩ := List.mem_flatMap.1 hx
      exact mvmu_cycles p m _ x hm

theorem yields_router (p : Power) (r : RouterStats) (n : Int) :
    Yields (routerStatsCall p r) (unscaledParts (routerComponents p r n)) :=
  yields_newDict _ _
    (.cons (leaf _ rfl rfl (.num (by push_cast; ring)) (.num rfl) (.num rfl))
      (.cons (leaf _ rfl rfl (.num rfl) (.num rfl) (.num rfl))
      (.cons (leaf _ rfl rfl (.num rfl) (.num rfl) (.num rfl))
      (.cons (leaf _ rfl rfl (.num rfl) (.num rfl) (.num rfl)) .nil))))
    (by simp [unscaledParts, routerComponents])

theorem yields_tile (p : Power) (t : TileObj) : Yields (t.getStats p) (partsOf (tileComponents p t)) := by
  by_cases hid : t.id = 0 ∨ t.id = 1
  · unfold TileObj.getStats
    rw [if_pos hid]
    refine yields_congr (yields_router p t.router.stats 1) ?_
    unfold tileComponents
    dsimp only
    rw [if_pos (by omega), ← scale_parts _ 1 (by
      intro c hc; simp [routerComponents] at hc; rcases hc with rfl | rfl | rfl | rfl <;> rfl)]
    have h1 : ∀ ps : Parts, ps.map (fun x => (x.1, scaleLeak 1 x.2)) = ps := by
      intro ps
      conv_rhs => rw [← List.map_id ps]
      apply List.map_congr_left
      intro x _
      simp [scaleLeak]
    rw [h1]
  · have own : Yields (newDict [
        ("Tile Control Unit", mkStats t.activeCycles (num (t.activeCycles * p.tcuPowDyn)) (num p.tcuPowLeak)
          (num p.tcuArea)),
        ("Tile instruction memory", mkStats t.operations.length
          (times p.tileInstrnPowDyn t.operations.length) (attr p.tileInstrnPowLeak)
          (attr p.tileInstrnArea))])
        (unscaledParts [
          ⟨"Tile Control Unit", t.activeCycles, t.activeCycles * p.tcuPowDyn, p.tcuPowLeak, p.tcuArea, t.activeCycles⟩,
          ⟨"Tile instruction memory", t.operations.length, t.operations.length * val p.tileInstrnPowDyn,
            val p.tileInstrnPowLeak, val p.tileInstrnArea, t.activeCycles⟩]) :=
      yields_newDict _ _
        (.cons (leaf _ rfl rfl (.num rfl) (.num rfl) (.num rfl))
          (.cons (leaf _ rfl rfl (.times rfl) .attr .attr) .nil)) (by simp [unscaledParts])
    have dram : Yields (dramStats p t.ctrl.mem) (unscaledParts [⟨"DRAM", t.ctrl.mem.stats.totalOperations,
        t.ctrl.mem.stats.totalOperations * val p.edramPowDyn, val p.edramPowLeak, val p.edramArea,
        t.activeCycles⟩]) := yields_one _ rfl rfl (.times rfl) .attr .attr
    have ctrl : Yields (ctrlStatsCall p t.ctrl.stats) (unscaledParts [⟨"DRAM Controller",
        t.ctrl.stats.totalRequests, t.ctrl.stats.totalRequests * p.edramCtrlPowDyn,
        p.edramCtrlPowLeak + p.edramBusPowLeak, p.edramCtrlArea + p.edramBusArea, t.activeCycles⟩]) :=
      yields_one _ rfl rfl (.num (mul_comm ..)) (.num rfl) (.num rfl)
    have all := yields_merging _ _ _ _ (yields_leaking _ _ t.activeCycles (yields_merging _ _ _ _ own
      (.cons dram (.cons ctrl (.cons (yields_router p t.router.stats t.activeCycles) .nil)))))
      (forall₂_map Yields t.cores (CoreObj.getStats p) _ (yields_core p))
    unfold TileObj.getStats
    rw [if_neg hid]
    refine yields_congr all ?_
    unfold tileComponents
    dsimp only
    rw [if_neg (by omega), partsOf_append, partsOf_flatMap, ← List.flatMap_def]
    congr 1

/-- Adding to one entry. -/
theorem gives_put (h0 h : Heap) (d : StatsDict) (ps : Parts) (g : Gives h0 d h ps) (k : String) (r : Ref)
    (hr : d.find k = some r) (q : ℚ) :
    Gives h0 d (h.put r { h.get r with dynamicEnergy := (h.get r).dynamicEnergy + q })
      ((k, ⟨0, q, 0, 0⟩) :: ps) := by
  have hrd := mem_refs_of_find hr
  have hra := g.wf.alive r hrd
  refine ⟨⟨g.wf.names, g.wf.refs, by rw [length_put]; exact g.wf.alive⟩, by rw [length_put]; exact g.len, ?_,
    g.fresh, ?_, ?_⟩
  · intro r' hr'
    have := g.fresh r hrd
    rw [get_put, if_neg (by rintro ⟨rfl, -⟩; exact absurd hr' (Nat.not_lt.2 this)), g.old r' hr']
  · intro k'
    rw [sumOf_cons, ← g.sum k']
    unfold statOf
    cases hk : d.find k' with
    | none =>
      have : k ≠ k' := fun e => by rw [e, hk] at hr; cases hr
      simp [this]
    | some r' =>
      dsimp only
      rw [get_put]
      by_cases hkk : k = k'
      · subst hkk
        rw [hr] at hk; injection hk with hk; subst hk
        rw [if_pos ⟨rfl, hra⟩, if_pos rfl]
        exact stats_ext (zero_add _).symm (add_comm _ _) (zero_add _).symm (zero_add _).symm
      · rw [if_neg hkk, zero_add, if_neg]
        rintro ⟨rfl, -⟩
        exact hkk (find_inj g.wf.refs _ _ _ hr hk)
  · intro k'
    rw [g.keys k']
    simp only [List.map_cons, List.mem_cons]
    constructor
    · exact Or.inr
    · rintro (rfl | h)
      · exact (g.keys _).1 (mem_names_of_find hr)
      · exact h

theorem perm_sumOf (k : String) (a b : Parts) (h : a.Perm b) : sumOf k a = sumOf k b :=
  ((h.filter _).map _).sum_eq

/-- Parts in another order. -/
theorem yields_perm {c : StatsCall} {ps ps' : Parts} (h : Yields c ps) (hp : ps.Perm ps') : Yields c ps' := by
  rcases h with h | h
  · exact Or.inl h
  · right; intro x
    obtain ⟨d, h', e, g⟩ := h x
    exact ⟨d, h', e, g.wf, g.len, g.old, g.fresh, fun k => (g.sum k).trans (perm_sumOf k _ _ hp),
      fun k => (g.keys k).trans (hp.map _).mem_iff⟩

theorem yields_addDynamic (c : StatsCall) (ps : Parts) (k : String) (o : Option ℚ) (n : ℚ) (hc : Yields c ps) :
    Yields (c.addDynamic k o n) ((k, ⟨0, val o * n, 0, 0⟩) :: ps) := by
  unfold StatsCall.addDynamic
  rcases hc with ⟨e, he⟩ | hg
  · exact Or.inl ⟨e, fun h => by simp only [he]⟩
  cases o with
  | none =>
    left; refine ⟨.typeError, fun h => ?_⟩
    obtain ⟨d, h', e', g⟩ := hg h
    simp only [e', times]
  | some q =>
    by_cases hk : k ∈ ps.map (·.1)
    · right; intro h
      obtain ⟨d, h', e', g⟩ := hg h
      cases hf : d.find k with
      | none => exact absurd ((g.keys k).2 hk) ((find_none d k).1 hf)
      | some r => exact ⟨d, h'.put r { h'.get r with dynamicEnergy := (h'.get r).dynamicEnergy + q * n },
          by simp only [e', hf, times], gives_put h h' d ps g k r hf _⟩
    · left; refine ⟨.keyError, fun h => ?_⟩
      obtain ⟨d, h', e', g⟩ := hg h
      simp only [e', times, (find_none d k).2 fun hm => hk ((g.keys k).1 hm)]

theorem yields_node (p : Power) (n : NodeObj) : Yields (n.getStats p) (partsOf (nodeComponents p n)) := by
  have noc : Yields (nocStats p n.tiles.length) (unscaledParts [
      { name := "NOC inter", leakPerCycle := p.nocInterPowLeak, area := p.nocInterArea, cycles := n.queueBusyCycles },
      { name := "NOC intra", leakPerCycle := (n.tiles.length / p.numPort : ℚ) * p.nocIntraPowLeak,
        area := (n.tiles.length / p.numPort : ℚ) * p.nocIntraArea, cycles := n.queueBusyCycles }]) :=
    yields_newDict _ _
      (.cons (leaf _ rfl rfl (.num rfl) (.num rfl) (.num rfl))
        (.cons (leaf _ rfl rfl (.num rfl) (.num (mul_comm ..)) (.num (mul_comm ..))) .nil)) (by simp [unscaledParts])
  have all := yields_addDynamic _ _ "Router" p.nocIntraPowDyn n.queueBusyCycles
    (yields_merging _ _ _ _ (yields_leaking _ _ n.queueBusyCycles
      (yields_merging _ _ _ _ yields_empty (.cons noc .nil)))
      (forall₂_map Yields n.tiles (TileObj.getStats p) _ (yields_tile p)))
  refine yields_perm all ?_
  unfold nodeComponents
  dsimp only
  rw [partsOf_append, partsOf_flatMap, ← List.flatMap_def]
  have e1 : (⟨0, val p.nocIntraPowDyn * n.queueBusyCycles, 0, 0⟩ : Stats)
      = (⟨"Router", 0, n.queueBusyCycles * val p.nocIntraPowDyn, 0, 0, 0⟩ : Component).contribution :=
    stats_ext rfl (mul_comm ..) (by simp [Component.contribution]) rfl
  rw [e1, ← List.cons_append]
  apply List.Perm.append_right
  exact (List.perm_append_comm (l₁ := [_]) (l₂ := [_, _]))

theorem yields_sim (p : Power) (s : Sim) : Yields (s.getStats p) (partsOf (simComponents p s)) := by
  refine yields_congr (yields_merging _ _ _ _ yields_empty
    (forall₂_map Yields s.nodes (NodeObj.getStats p) _ (yields_node p))) ?_
  unfold simComponents
  rw [partsOf_flatMap, ← List.flatMap_def]
  rfl

end Ramwich
