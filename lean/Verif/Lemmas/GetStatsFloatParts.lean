import Verif.Lemmas.GetStatsFloat

/-! # The float64 reports of all components follow the exact ones -/
namespace Ramwich

open Spec

local macro "⋆" : term => `(by simp [powerNumbers])

def namesOf (cs : List Component) : List String := cs.map (·.name)

theorem follows_single {x y : String × Except PyErr Stats} (h : closeEntry 4 x y) :
    Follows 4 (newDict [x]) (newDict [y]) [y.1] :=
  follows_newDict 4 [x] [y] (.cons h .nil) (by simp)

theorem follows_empty (c : Nat) : Follows c (newDict []) (newDict []) [] := follows_newDict c [] [] .nil List.nodup_nil

theorem near_prod0 {q n : ℚ} (hq : 0 ≤ q) (hn : 0 ≤ n) : Near 2 (prodF q n) (q * n) :=
  near_prodF n hn (near_refl q hq)

theorem nat0 (n : Nat) : (0 : ℚ) ≤ (n : ℚ) := Nat.cast_nonneg n
theorem int0 {n : Int} (h : 0 ≤ n) : (0 : ℚ) ≤ (n : ℚ) := by exact_mod_cast h

theorem follows_mvmu (p : Power) (m : Mvmu) (hp : ∀ q ∈ powerNumbers p, 0 ≤ q) (hm : ∀ n ∈ mvmuCounters m, 0 ≤ n)
    (cycles : Int) : Follows 4 (m.getStatsF p) (m.getStats p) (namesOf (mvmuComponents p m cycles)) := by
  have snh : ∀ samples, Follows 4 (snhStatsF p m samples) (snhStats p m samples) ["Sample and Hold"] := fun samples =>
    follows_single (close_leaf (.num (near_prod0 (hp _ ⋆) (nat0 _))) (.num (near_prod0 (hp _ ⋆) (nat0 _)))
      (.num (near_prod0 (hp _ ⋆) (nat0 _))))
  have mux : ∀ a s, Follows 4 (muxStatsF p m a s) (muxStats p m a s) ["MUX"] := fun a s =>
    follows_single (close_leaf (.num (near_prod0 (hp _ ⋆) (nat0 _))) (.num (near_prod0 (hp _ ⋆) (nat0 _)))
      (.num (near_prod0 (hp _ ⋆) (nat0 _))))
  have rram : Follows 4 (rramStatsF p m) (rramStats p m) ["RRAM Xbar"] :=
    follows_single (close_leaf (.times (hp _ ⋆) (nat0 _)) (.num (near_prod0 (hp _ ⋆) (nat0 _)))
      (.times (hp _ ⋆) (nat0 _)))
  have dac : Follows 4 (dacStatsCallF p m) (dacStatsCall p m) ["DAC"] :=
    follows_single (close_leaf (.times (hp _ ⋆) (nat0 _)) (.times (hp _ ⋆) (nat0 _)) (.times (hp _ ⋆) (nat0 _)))
  have adc : Follows 4 (adcStatsCallF p m) (adcStatsCall p m) ["ADC"] :=
    follows_single (close_leaf (.times (hp _ ⋆) (nat0 _)) (.times (hp _ ⋆) (nat0 _)) (.times (hp _ ⋆) (nat0 _)))
  have sram : Follows 4 (sramStatsF p m) (sramStats p m) ["SRAM CIM Unit"] :=
    follows_single (close_leaf
      (.scaled (.plus (k := 1) (.attr (hp _ ⋆)) (.attr (hp _ ⋆)) (by omega) (by omega)) (nat0 _))
      (.scaled (.plus (k := 3) (.attr (hp _ ⋆)) (.times (hp _ ⋆) (nat0 _)) (by omega) (by omega)) (nat0 _))
      (.scaled (.plus (k := 2) (.attr (hp _ ⋆)) (.num (near_f64 (near_refl _ (nat0 _)))) (by omega) (by omega))
        (nat0 _)))
  have inr : Follows 4 (inregStatsF p m) (inregStats p m) ["Input Register Array"] :=
    follows_single (close_leaf
      (.plus (k := 3) (.times (hp _ ⋆) (int0 (hm _ (by simp [mvmuCounters]))))
        (.times (hp _ ⋆) (int0 (hm _ (by simp [mvmuCounters])))) (by omega) (by omega))
      (.attr (hp _ ⋆)) (.attr (hp _ ⋆)))
  have outr : Follows 4 (outregStatsF p m) (outregStats p m) ["Output Register Array"] :=
    follows_single (close_leaf (.times (hp _ ⋆) (int0 (hm _ (by simp [mvmuCounters]))))
      (.attr (hp _ ⋆)) (.attr (hp _ ⋆)))
  have sna : Follows 4 (snaStatsF p m) (snaStats p m) ["Shift and Add"] :=
    follows_single (close_leaf (.num (near_prod0 (hp _ ⋆) (nat0 _))) (.num (near_refl _ (hp _ ⋆)))
      (.num (near_refl _ (hp _ ⋆))))
  have last : AllFollow 4 [inregStatsF p m, outregStatsF p m, snaStatsF p m]
      [inregStats p m, outregStats p m, snaStats p m] _ := .cons inr (.cons outr (.cons sna .nil))
  have mid : AllFollow 4 [sramStatsF p m, muxStatsF p m m.cfg.numSramXbarPerMvmu m.muxSramSelections]
      [sramStats p m, muxStats p m m.cfg.numSramXbarPerMvmu m.muxSramSelections] _ :=
    .cons sram (.cons (mux _ _) .nil)
  have first : AllFollow 4 [rramStatsF p m, dacStatsCallF p m, adcStatsCallF p m, snhStatsF p m m.snhPosSamples,
      snhStatsF p m m.snhNegSamples, muxStatsF p m m.cfg.numRramXbarPerMvmu m.muxPosSelections,
      muxStatsF p m m.cfg.numRramXbarPerMvmu m.muxNegSelections]
      [rramStats p m, dacStatsCall p m, adcStatsCall p m, snhStats p m m.snhPosSamples,
      snhStats p m m.snhNegSamples, muxStats p m m.cfg.numRramXbarPerMvmu m.muxPosSelections,
      muxStats p m m.cfg.numRramXbarPerMvmu m.muxNegSelections] _ :=
    .cons rram (.cons dac (.cons adc (.cons (snh _) (.cons (snh _) (.cons (mux _ _) (.cons (mux _ _) .nil))))))
  unfold Mvmu.getStatsF Mvmu.getStats mvmuComponents
  dsimp only
  cases hr : m.cfg.haveRramXbar <;> cases hs : m.cfg.haveSramXbar
  · exact follows_merging (follows_empty 4) last
  · exact follows_merging (follows_empty 4) (allFollow_append mid last)
  · exact follows_merging (follows_empty 4) (allFollow_append first last)
  · exact follows_merging (follows_empty 4) (allFollow_append first (allFollow_append mid last))

theorem near_vfu (p : Power) (v : VfuStats) (hp : ∀ q ∈ powerNumbers p, 0 ≤ q) :
    Near 5 (f64 (f64 (f64 (prodF p.aluPowMulDyn v.mulOperations + prodF p.aluPowDivDyn v.divOperations)
        + prodF p.actPowDyn v.actOperations) + prodF p.aluPowOthersDyn v.otherOperations))
      (p.aluPowMulDyn * v.mulOperations + p.aluPowDivDyn * v.divOperations
        + p.actPowDyn * v.actOperations + p.aluPowOthersDyn * v.otherOperations) :=
  near_sumF (n := 4) (near_sumF (n := 3) (near_sumF (near_prod0 (hp _ ⋆) (nat0 _)) (near_prod0 (hp _ ⋆) (nat0 _))
    (by omega) (by omega)) (near_prod0 (hp _ ⋆) (nat0 _)) (by omega) (by omega)) (near_prod0 (hp _ ⋆) (nat0 _))
    (by omega) (by omega)

theorem zeros_leaf {k : String} {n : Int} :
    closeEntry 4 (k, mkStats n (num 0) (num 0) (num 0)) (k, mkStats n (num 0) (num 0) (num 0)) :=
  close_leaf (.num (near_zero 0)) (.num (near_zero 0)) (.num (near_zero 0))

theorem follows_core (p : Power) (c : CoreObj) (hp : ∀ q ∈ powerNumbers p, 0 ≤ q)
    (hc : ∀ n ∈ coreCounters c, 0 ≤ n) :
    Follows 6 (c.getStatsF p) (c.getStats p) (namesOf (coreComponents p c)) := by
  have hcyc : 0 ≤ c.activeCycles := hc _ (by simp [coreCounters])
  have own := follows_newDict 4 [
      ("Core Control Unit", mkStats c.activeCycles (num (prodF p.ccuPowDyn c.activeCycles)) (num p.ccuPowLeak)
        (num p.ccuArea)),
      ("Core instruction memory", mkStats c.operations.length (timesF p.coreInstrnPowDyn c.operations.length)
        (attr p.coreInstrnPowLeak) (attr p.coreInstrnArea))] [
      ("Core Control Unit", mkStats c.activeCycles (num (c.activeCycles * p.ccuPowDyn)) (num p.ccuPowLeak)
        (num p.ccuArea)),
      ("Core instruction memory", mkStats c.operations.length (times p.coreInstrnPowDyn c.operations.length)
        (attr p.coreInstrnPowLeak) (attr p.coreInstrnArea))]
    (.cons (close_leaf (.num (by rw [mul_comm]; exact near_prod0 (hp _ ⋆) (int0 hcyc))) (.num (near_refl _ (hp _ ⋆)))
        (.num (near_refl _ (hp _ ⋆))))
      (.cons (close_leaf (.times (hp _ ⋆) (nat0 _)) (.attr (hp _ ⋆)) (.attr (hp _ ⋆))) .nil)) (by simp)
  have cache : Follows 4 (cacheStatsF p c.core.cache) (cacheStats p c.core.cache) ["SRAM"] :=
    follows_single (close_leaf (.times (hp _ ⋆) (int0 (hc _ (by simp [coreCounters])))) (.attr (hp _ ⋆))
      (.attr (hp _ ⋆)))
  have vfu : Follows 4 (vfuStatsF p c.core.vfu) (vfuStats p c.core.vfu)
      ["VFU", "VFU MUL", "VFU DIV", "VFU ACT", "VFU OTHERS"] :=
    follows_newDict 4 _ _ (.cons (close_leaf (.num (near_vfu p _ hp)) (.num (near_refl _ (hp _ ⋆)))
        (.num (near_sumF (k := 1) (near_refl _ (hp _ ⋆)) (near_refl _ (hp _ ⋆)) (by omega) (by omega))))
      (.cons zeros_leaf (.cons zeros_leaf (.cons zeros_leaf (.cons zeros_leaf .nil))))) (by simp)
  have all := follows_leaking _ _ _ _ c.activeCycles hcyc (follows_merging own
    (allFollow_append (.cons cache (.cons vfu .nil))
      (allFollow_map c.core.mvmus (Mvmu.getStatsF p) (Mvmu.getStats p) _ fun m hm => follows_mvmu p m hp
        (fun n hn => hc n (by
          unfold coreCounters
          exact List.mem_append_right _ (List.mem_flatMap.2 ⟨m, hm, hn⟩))) c.activeCycles)))
  have e : namesOf (coreComponents p c) = ["Core Control Unit", "Core instruction memory"]
      ++ ([["SRAM"], ["VFU", "VFU MUL", "VFU DIV", "VFU ACT", "VFU OTHERS"]]
        ++ c.core.mvmus.map fun m => namesOf (mvmuComponents p m c.activeCycles)).flatten := by
    unfold namesOf coreComponents
    dsimp only
    rw [List.map_append, List.map_flatMap, List.flatten_append, ← List.flatMap_def, ← List.append_assoc]
    rfl
  rw [e]
  exact all

theorem follows_router (p : Power) (r : RouterStats) (hp : ∀ q ∈ powerNumbers p, 0 ≤ q) :
    Follows 4 (routerStatsCallF p r) (routerStatsCall p r)
      ["Router", "Router send internode", "Router send intranode", "Router receive"] :=
  follows_newDict 4 _ _ (.cons (close_leaf
      (.num (near_sumF (n := 3) (k := 4)
        (near_f64 (near_div (m := 0) (by norm_num) (near_prod0 (hp _ ⋆) (nat0 _)) (near_refl 12 (by norm_num))))
        (near_prod0 (hp _ ⋆) (nat0 _)) (by omega) (by omega)))
      (.num (near_refl _ (hp _ ⋆))) (.num (near_refl _ (hp _ ⋆))))
    (.cons zeros_leaf (.cons zeros_leaf (.cons zeros_leaf .nil)))) (by simp)

theorem follows_tile (p : Power) (t : TileObj) (hp : ∀ q ∈ powerNumbers p, 0 ≤ q)
    (hc : ∀ n ∈ tileCounters t, 0 ≤ n) :
    Follows 6 (t.getStatsF p) (t.getStats p) (namesOf (tileComponents p t)) := by
  have hcyc : 0 ≤ t.activeCycles := hc _ (by simp [tileCounters])
  unfold TileObj.getStatsF TileObj.getStats tileComponents
  dsimp only
  by_cases hid : t.id = 0 ∨ t.id = 1
  · rw [if_pos hid, if_pos hid, if_pos (by omega)]
    exact follows_mono (follows_router p _ hp) (by omega)
  · rw [if_neg hid, if_neg hid, if_neg (by omega)]
    have own := follows_newDict 4 [
        ("Tile Control Unit", mkStats t.activeCycles (num (prodF p.tcuPowDyn t.activeCycles)) (num p.tcuPowLeak)
          (num p.tcuArea)),
        ("Tile instruction memory", mkStats t.operations.length
          (timesF p.tileInstrnPowDyn t.operations.length) (attr p.tileInstrnPowLeak)
          (attr p.tileInstrnArea))] [
        ("Tile Control Unit", mkStats t.activeCycles (num (t.activeCycles * p.tcuPowDyn)) (num p.tcuPowLeak)
          (num p.tcuArea)),
        ("Tile instruction memory", mkStats t.operations.length
          (times p.tileInstrnPowDyn t.operations.length) (attr p.tileInstrnPowLeak)
          (attr p.tileInstrnArea))]
      (.cons (close_leaf (.num (by rw [mul_comm]; exact near_prod0 (hp _ ⋆) (int0 hcyc)))
          (.num (near_refl _ (hp _ ⋆))) (.num (near_refl _ (hp _ ⋆))))
        (.cons (close_leaf (.times (hp _ ⋆) (nat0 _)) (.attr (hp _ ⋆)) (.attr (hp _ ⋆))) .nil)) (by simp)
    have dram : Follows 4 (dramStatsF p t.ctrl.mem) (dramStats p t.ctrl.mem) ["DRAM"] :=
      follows_single (close_leaf (.times (hp _ ⋆) (int0 (hc _ (by simp [tileCounters])))) (.attr (hp _ ⋆))
        (.attr (hp _ ⋆)))
    have ctrl : Follows 4 (ctrlStatsCallF p t.ctrl.stats) (ctrlStatsCall p t.ctrl.stats) ["DRAM Controller"] :=
      follows_single (close_leaf (.num (near_prod0 (hp _ ⋆) (int0 (hc _ (by simp [tileCounters])))))
        (.num (near_sumF (k := 1) (near_refl _ (hp _ ⋆)) (near_refl _ (hp _ ⋆)) (by omega) (by omega)))
        (.num (near_sumF (k := 1) (near_refl _ (hp _ ⋆)) (near_refl _ (hp _ ⋆)) (by omega) (by omega))))
    have all := follows_merging (follows_leaking _ _ _ _ t.activeCycles hcyc (follows_merging own
      (.cons dram (.cons ctrl (.cons (follows_router p t.router.stats hp) .nil)))))
      (allFollow_map t.cores (CoreObj.getStatsF p) (CoreObj.getStats p) _ fun c hc' => follows_core p c hp
        (fun n hn => hc n (by
          unfold tileCounters
          exact List.mem_append_right _ (List.mem_flatMap.2 ⟨c, hc', hn⟩))))
    rw [← List.flatMap_def] at all
    unfold namesOf
    rw [List.map_append, List.map_flatMap]
    exact all

theorem follows_node (p : Power) (n : NodeObj) (hp : ∀ q ∈ powerNumbers p, 0 ≤ q)
    (hc : ∀ k ∈ n.queueBusyCycles :: n.tiles.flatMap tileCounters, 0 ≤ k) :
    Follows 6 (n.getStatsF p) (n.getStats p) (namesOf (nodeComponents p n)) := by
  have hcyc : 0 ≤ n.queueBusyCycles := hc _ List.mem_cons_self
  have ratio : Near 1 (f64 ((n.tiles.length : ℚ) / p.numPort)) ((n.tiles.length : ℚ) / p.numPort) :=
    near_f64 (near_refl _ (div_nonneg (nat0 _) (nat0 _)))
  have noc : Follows 4 (nocStatsF p n.tiles.length) (nocStats p n.tiles.length) ["NOC inter", "NOC intra"] :=
    follows_newDict 4 _ _
      (.cons (close_leaf (.num (near_zero 0)) (.num (near_refl _ (hp _ ⋆))) (.num (near_refl _ (hp _ ⋆))))
        (.cons (close_leaf (.num (near_zero 0)) (.num (near_f64 (near_mul (near_refl _ (hp _ ⋆)) ratio)))
          (.num (near_f64 (near_mul (near_refl _ (hp _ ⋆)) ratio)))) .nil)) (by simp)
  have all := follows_addDynamic 6 (by omega) _ _ _ "Router" p.nocIntraPowDyn n.queueBusyCycles (int0 hcyc)
    (hp _ ⋆) (follows_merging (follows_leaking _ _ _ _ n.queueBusyCycles hcyc
      (follows_merging (follows_empty 4) (.cons noc .nil)))
      (allFollow_map n.tiles (TileObj.getStatsF p) (TileObj.getStats p) _ fun t ht => follows_tile p t hp
        (fun k hk => hc k (List.mem_cons_of_mem _ (List.mem_flatMap.2 ⟨t, ht, hk⟩)))))
  refine follows_perm all ?_
  unfold nodeComponents namesOf
  dsimp only
  rw [List.map_append, List.map_flatMap, ← List.flatMap_def, ← List.cons_append]
  apply List.Perm.append_right
  exact (List.perm_append_comm (l₁ := [_]) (l₂ := [_, _]))

theorem follows_sim (p : Power) (s : Sim) (hn : nonNegative p s) :
    Follows 6 (s.getStatsF p) (s.getStats p) (namesOf (simComponents p s)) := by
  have all := follows_merging (follows_empty 6)
    (allFollow_map s.nodes (NodeObj.getStatsF p) (NodeObj.getStats p) _ fun n h => follows_node p n hn.numbers
      (fun k hk => hn.counters k (by unfold allCounters; exact List.mem_flatMap.2 ⟨n, h, hk⟩)))
  rw [← List.flatMap_def] at all
  unfold simComponents namesOf
  rw [List.map_flatMap]
  exact all

end Ramwich
