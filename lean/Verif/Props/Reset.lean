import Verif.Lemmas.ResetNode
import Verif.Props.SystemDemo
import Verif.Props.GetStats

/-! # C50: reset -/
namespace Ramwich

open Spec

/-- C50, one core: after any calls, `reset` of a core with RRAM crossbars succeeds and gives the core that is
obtained by making only the `load_weights` calls on a new core, except that the counters of the SRAM crossbars
keep their values. -/
theorem C50_core (c0 c : Config) (fl : FloatActs) (hs : Simulable c0) (hb : c0.build = .ok c)
    (hp : 0 < c.mvmuConfig.xbarSize * c.numMvmusPerCore) (hr : c.mvmuConfig.haveRramXbar = true)
    (hist : List CoreCall) :
    ∃ r, ((Core.new c).after fl hist).reset = (.ok (), r) ∧
      noSramCountsCore r = (Core.new c).after fl (hist.filter isLoad) ∧
      r.mvmus.map (fun m => (m.sram, m.muxSramSelections))
        = ((Core.new c).after fl hist).mvmus.map (fun m => (m.sram, m.muxSramSelections)) := by
  obtain ⟨r, h1, h2, -, h3⟩ := reset_exact c fl hr hist _ (coreOk_after c0 c fl hs hb hp hist) rfl
  exact ⟨r, h1, h2, h3⟩

/-- C50, one core without SRAM crossbars: exactly that core. -/
theorem C50_core_exact (c0 c : Config) (fl : FloatActs) (hs : Simulable c0) (hb : c0.build = .ok c)
    (hp : 0 < c.mvmuConfig.xbarSize * c.numMvmusPerCore) (hr : c.mvmuConfig.haveRramXbar = true)
    (hn : c.mvmuConfig.haveSramXbar = false) (hist : List CoreCall) :
    ((Core.new c).after fl hist).reset = (.ok (), (Core.new c).after fl (hist.filter isLoad)) := by
  obtain ⟨r, h1, -, h2, -⟩ := reset_exact c fl hr hist _ (coreOk_after c0 c fl hs hb hp hist) rfl
  rw [h1, h2 hn]

/-- C50: let every node of a simulator that has not run before run to its end, all tiles executing a Halt.
Then `reset` succeeds and the next run starts as a first run with the same weights and operations would,
with empty DRAMs, or with whatever is loaded into the DRAMs; the routers do not run. With SRAM crossbars this
holds except for their counters. -/
theorem C50_next_run (c0 c : Config) (fl : FloatActs) (hs : Simulable c0) (hb : c0.build = .ok c)
    (hp : 0 < c.mvmuConfig.xbarSize * c.numMvmusPerCore) (hr : c.mvmuConfig.haveRramXbar = true)
    (s : Sim) (hn : ∀ n ∈ s.nodes, readyNode c fl n) (cfg : Nat → SysCfg) (y : Nat → Sys) (times : Nat → RunTimes)
    (he : ∀ i n, s.nodes[i]? = some n → endsIn c (cfg i) n (y i)) :
    ∃ s', Sim.reset { s with nodes := s.nodes.mapIdx fun i n => n.afterRun (y i) (times i) } = (.ok (), s') ∧
      s'.config = s.config ∧
      List.Forall₂ (fun n n' =>
        n'.id = n.id ∧ (∀ x ∈ n'.tiles, x.router.running = false) ∧
        noSramCountsSys (n'.start c) = (emptied c n).start c ∧
        (∀ m v, noSramCountsSys ((withDram m v n').start c) = (withDram m v n).start c) ∧
        (c.mvmuConfig.haveSramXbar = false → n'.start c = (emptied c n).start c ∧
          ∀ m v, (withDram m v n').start c = (withDram m v n).start c)) s.nodes s'.nodes := by
  have key : List.Forall₂ (fun n n1 => ∃ n', NodeObj.reset n1 = (.ok (), n') ∧ n'.id = n.id ∧
      List.Forall₂ (StartsLike c) n.tiles n'.tiles) s.nodes (s.nodes.mapIdx fun i n => n.afterRun (y i) (times i)) := by
    conv => arg 2; rw [← mapIdx_self s.nodes]
    apply forall₂_mapIdx
    intro i n hi
    exact node_reset fl hs hb hp hr n (hn n (List.mem_of_getElem? hi)) (cfg i) (y i) (he i n hi) (times i)
  have go : ∀ l l' : List NodeObj, (∀ n ∈ l, readyNode c fl n) → List.Forall₂ (fun n n1 => ∃ n',
      NodeObj.reset n1 = (.ok (), n') ∧ n'.id = n.id ∧ List.Forall₂ (StartsLike c) n.tiles n'.tiles) l l' →
      ∃ l'', forEach NodeObj.reset l' = (.ok (), l'') ∧ List.Forall₂ (fun n n' =>
        n'.id = n.id ∧ (∀ x ∈ n'.tiles, x.router.running = false) ∧
        noSramCountsSys (n'.start c) = (emptied c n).start c ∧
        (∀ m v, noSramCountsSys ((withDram m v n').start c) = (withDram m v n).start c) ∧
        (c.mvmuConfig.haveSramXbar = false → n'.start c = (emptied c n).start c ∧
          ∀ m v, (withDram m v n').start c = (withDram m v n).start c)) l l'' := by
    intro l l' hl h
    induction h with
    | nil => exact ⟨[], rfl, .nil⟩
    | @cons n n1 _ _ h1 _ ih =>
      obtain ⟨n', e1, e2, e3⟩ := h1
      obtain ⟨ns, e4, e5⟩ := ih fun n hn => hl n (by simp [hn])
      have hrn := hl n (by simp)
      obtain ⟨f1, f2⟩ := start_of_startsLike c n n' e3 hrn.router
      refine ⟨n' :: ns, by simp only [forEach, e1, e4], .cons ⟨e2, ?_, f1, ?_, fun h => ⟨f2 h, ?_⟩⟩ e5⟩
      · intro x hx
        obtain ⟨i, hi⟩ := List.mem_iff_getElem?.1 hx
        have := like_getD e3 i
        rw [List.getD_eq_getElem?_getD, List.getD_eq_getElem?_getD, hi] at this
        exact this.router
      · exact fun m v => (start_withDram c fl n n' e3 hrn m v).1
      · exact fun m v => (start_withDram c fl n n' e3 hrn m v).2 h
  obtain ⟨l, e1, e2⟩ := go _ _ hn key
  exact ⟨{ s with nodes := l }, by simp only [Sim.reset, e1], rfl, e2⟩

/-- A node of two tiles with one core each, and 2048 words of DRAM. -/
def resetCfg : Config :=
  { demoCore with
    numTilesPerNode := 2, numCoresPerTile := 1
    tileConfig := { demoCore.tileConfig with edramSizeInKB := 1 } }
def resetBuilt : Config := match resetCfg.build with | .ok c => c | .error _ => resetCfg
theorem resetCfg_build : resetCfg.build = .ok resetBuilt := by decide +kernel
theorem resetCfg_simulable : Simulable resetCfg := by
  refine ⟨rfl, rfl, by decide, by decide, fun _ => by decide, fun _ => by decide, ?_, ?_, ?_⟩ <;>
    norm_num [resetCfg, demoCore, demo]

/-- The same without SRAM crossbars. -/
def resetRram : Config := { resetCfg with dataConfig := { resetCfg.dataConfig with storageConfig := [.mlc, .slc, .mlc] } }
def resetRramBuilt : Config := match resetRram.build with | .ok c => c | .error _ => resetRram
theorem resetRram_build : resetRram.build = .ok resetRramBuilt := by decide +kernel
theorem resetRram_simulable : Simulable resetRram := by
  refine ⟨rfl, rfl, by decide, by decide, fun _ => by decide, fun _ => by decide, ?_, ?_, ?_⟩ <;>
    norm_num [resetRram, resetCfg, demoCore, demo]

def resetQuiet : MvmErrors := ⟨fun _ _ _ _ _ => 0, fun _ _ _ _ _ => 0⟩

def resetHist : List CoreCall := [.load 0 demoWeights, .write 0 [1, 2], .exec (.mvm [0]) resetQuiet, .read 8 4]

example := C50_core resetCfg resetBuilt someActs resetCfg_simulable resetCfg_build (by decide +kernel) (by decide +kernel)
  resetHist
example := C50_core_exact resetRram resetRramBuilt someActs resetRram_simulable resetRram_build (by decide +kernel)
  (by decide +kernel) (by decide +kernel) resetHist
-- the history has set output registers
example : ((Core.new resetBuilt).after someActs resetHist).outputAt 0 1 ≠ 0 := by decide +kernel

/-- Core 0 of tile 0 multiplies, stores four words, and tile 0 sends them to tile 1, whose core 0 loads them. -/
def resetNode (c : Config) : NodeObj :=
  { id := 0
    tiles := [
      { TileObj.new c 0 with
        ctrl := { Ctrl.new c.tileConfig.edramSize with
          mem := { Memory.new c.tileConfig.edramSize with cells := (Memory.new c.tileConfig.edramSize).cells.set 0 5 }
          valid := (List.replicate c.tileConfig.edramSize false).set 0 true }
        cores := [{ core := (Core.new c).after someActs [.load 0 demoWeights]
                    operations := [.set 16 4 1, .set 20 7 3, .mvm [0], .store 16 20 2 2, .hlt] }]
        operations := [.send 4 1 2 2, .halt] },
      { TileObj.new c 1 with
        cores := [{ core := Core.new c, operations := [.set 16 2 1, .load 24 16 2 2, .hlt] }]
        operations := [.receive 2 0 2 2, .halt] }] }

theorem resetNode_ready (c : Config) (h2 : c.numTilesPerNode = 2) (h1 : c.numCoresPerTile = 1) :
    readyNode c someActs (resetNode c) := by
  constructor
  · exact h2.symm
  · intro x hx; simp only [resetNode, List.mem_cons, List.not_mem_nil, or_false] at hx
    rcases hx with rfl | rfl <;> rfl
  · intro x hx; simp only [resetNode, List.mem_cons, List.not_mem_nil, or_false] at hx
    rcases hx with rfl | rfl <;> simp [TileObj.new, Ctrl.new, Memory.new]
  · intro x hx; simp only [resetNode, List.mem_cons, List.not_mem_nil, or_false] at hx
    rcases hx with rfl | rfl <;> rfl
  · intro x hx; simp only [resetNode, List.mem_cons, List.not_mem_nil, or_false] at hx
    rcases hx with rfl | rfl <;> exact h1.symm
  · intro x hx; simp only [resetNode, List.mem_cons, List.not_mem_nil, or_false] at hx
    rcases hx with rfl | rfl <;> intro o ho <;> simp only [List.mem_singleton] at ho <;> subst ho
    · exact ⟨[.load 0 demoWeights], by simp [isLoad], rfl⟩
    · exact ⟨[], by simp, rfl⟩

def resetSys (c : Config) : SysCfg := { demoSys with execLat := c.executionLatency }

def resetRun (c : Config) : List SysAct × Sys :=
  Sys.auto (resetSys c) bothHalted twoTiles twoClocks 200 ((resetNode c).start c)

theorem resetRun_ends : endsIn resetBuilt (resetSys resetBuilt) (resetNode resetBuilt) (resetRun resetBuilt).2 := by
  refine ⟨rfl, by decide +kernel, ⟨_, auto_runs (resetSys resetBuilt) bothHalted twoTiles twoClocks 200 _⟩, ⟨by decide +kernel, ?_⟩, ?_⟩
  · have h : ∀ t < 2, ((resetRun resetBuilt).2.tile t).phase = .ready ∧ ((resetRun resetBuilt).2.tile t).ops = [] ∧
        ∀ k < 1, (((resetRun resetBuilt).2.tile t).core k).phase = .halted := by decide +kernel
    exact fun t ht => ⟨(h t ht).1, (h t ht).2.1, fun k hk => Or.inl ((h t ht).2.2 k hk)⟩
  · have h : ∀ t < 2, .halted ∈ ((resetRun resetBuilt).2.tile t).log := by decide +kernel
    exact h


theorem resetRramRun_ends :
    endsIn resetRramBuilt (resetSys resetRramBuilt) (resetNode resetRramBuilt) (resetRun resetRramBuilt).2 := by
  refine ⟨rfl, by decide +kernel, ⟨_, auto_runs (resetSys resetRramBuilt) bothHalted twoTiles twoClocks 200 _⟩,
    ⟨by decide +kernel, ?_⟩, ?_⟩
  · have h : ∀ t < 2, ((resetRun resetRramBuilt).2.tile t).phase = .ready ∧ ((resetRun resetRramBuilt).2.tile t).ops = [] ∧
        ∀ k < 1, (((resetRun resetRramBuilt).2.tile t).core k).phase = .halted := by decide +kernel
    exact fun t ht => ⟨(h t ht).1, (h t ht).2.1, fun k hk => Or.inl ((h t ht).2.2 k hk)⟩
  · have h : ∀ t < 2, .halted ∈ ((resetRun resetRramBuilt).2.tile t).log := by decide +kernel
    exact h

example := C50_next_run resetCfg resetBuilt someActs resetCfg_simulable resetCfg_build (by decide +kernel)
  (by decide +kernel) ⟨resetBuilt, [resetNode resetBuilt]⟩
  (by simpa using resetNode_ready resetBuilt (by decide +kernel) (by decide +kernel))
  (fun _ => resetSys resetBuilt) (fun _ => (resetRun resetBuilt).2) (fun _ => ⟨fun _ => 90, fun _ _ => 60, 40, false⟩)
  (by
    intro i n hi
    match i with
    | 0 => injection hi with hi; subst hi; exact resetRun_ends
    | i + 1 => cases hi)

example := C50_next_run resetRram resetRramBuilt someActs resetRram_simulable resetRram_build (by decide +kernel)
  (by decide +kernel) ⟨resetRramBuilt, [resetNode resetRramBuilt]⟩
  (by simpa using resetNode_ready resetRramBuilt (by decide +kernel) (by decide +kernel))
  (fun _ => resetSys resetRramBuilt) (fun _ => (resetRun resetRramBuilt).2)
  (fun _ => ⟨fun _ => 90, fun _ _ => 60, 40, false⟩)
  (by
    intro i n hi
    match i with
    | 0 => injection hi with hi; subst hi; exact resetRramRun_ends
    | i + 1 => cases hi)
example : resetRramBuilt.mvmuConfig.haveSramXbar = false := by decide +kernel

-- the run has left its traces: data in the DRAM of tile 1 and packets
example : ((resetRun resetBuilt).2.tile 1).ctrl.mem.cells.getD 4 0 = 7 ∧ ((resetRun resetBuilt).2.net.stats 0).created = 2 := by
  decide +kernel

/-! ## What reset does not do -/

/-- **C50, SRAM crossbars only.** `reset` of a core raises AttributeError in the first unit: there is no
`rram_xbar` (mvmu.py:336-346). -/
theorem C50_sram_only (c : Core) (m : Mvmu) (ms : List Mvmu) (h : c.mvmus = m :: ms)
    (hr : m.cfg.haveRramXbar = false) : c.reset.1 = .error .attributeError := by
  unfold Core.reset
  rw [h]
  have : m.reset = .error .attributeError := if_pos (by simp [hr])
  simp only [Core.reset.go, this]

/-- A configuration with SRAM crossbars only. -/
def sramOnly : Config := { demoCore with dataConfig := { demoCore.dataConfig with storageConfig := List.replicate 5 .sram } }
def sramOnlyBuilt : Config := match sramOnly.build with | .ok c => c | .error _ => sramOnly
example : sramOnly.build = .ok sramOnlyBuilt := by decide +kernel
example := C50_sram_only (Core.new sramOnlyBuilt) (Mvmu.new sramOnlyBuilt) [Mvmu.new sramOnlyBuilt] (by rfl) (by decide +kernel)

/-- **C50, counters of SRAM crossbars.** They are not reset: the exact equation of `C50_core_exact` fails in the
presence of SRAM crossbars. -/
theorem C50_sram_counts_witness : ∃ (c0 c : Config) (hist : List CoreCall), Simulable c0 ∧ c0.build = .ok c ∧
    0 < c.mvmuConfig.xbarSize * c.numMvmusPerCore ∧ c.mvmuConfig.haveRramXbar = true ∧
    (((Core.new c).after someActs hist).reset.2.mvmus.map fun m => m.sram.macOperations)
      ≠ (((Core.new c).after someActs (hist.filter isLoad)).mvmus.map fun m => m.sram.macOperations) :=
  ⟨resetCfg, resetBuilt, resetHist, resetCfg_simulable, resetCfg_build, by decide +kernel, by decide +kernel,
    by decide +kernel⟩

/-- **C50, times.** `queue_busy_cycles` of the network and the `active_cycles` of tiles and cores are not reset, so
the next report contains leakage of the last run. -/
theorem C50_times_kept (n : NodeObj) :
    n.reset.2.queueBusyCycles = n.queueBusyCycles ∧
    n.reset.2.tiles.map (fun x => x.activeCycles) = n.tiles.map (fun x => x.activeCycles) ∧
    n.reset.2.tiles.map (fun x => x.cores.map fun o => o.activeCycles)
      = n.tiles.map (fun x => x.cores.map fun o => o.activeCycles) := by
  have each : ∀ {α β : Type} (f : α → Res α Unit) (g : α → β) (l : List α), (∀ x, g (f x).2 = g x) →
      (forEach f l).2.map g = l.map g := by
    intro α β f g l hf
    induction l with
    | nil => rfl
    | cons x xs ih =>
      unfold forEach
      have := hf x
      rcases hx : f x with ⟨_ | _, x'⟩ <;> rw [hx] at this
      · simp only [List.map_cons, this]
      · simp only [List.map_cons, this, ih]
  refine ⟨rfl, each _ _ _ ?_, each _ _ _ ?_⟩
  · intro x
    unfold TileObj.reset
    dsimp only
    split <;> rfl
  · intro x
    unfold TileObj.reset
    dsimp only
    split
    · rfl
    · exact each _ _ _ fun o => rfl

-- in the report, after a reset, the last run is still visible
example : statOf demoReport.1 demoReport.2 "NOC intra" = match demoSim.reset.2.getStats demoPower [] with
    | .ok r => statOf r.1 r.2 "NOC intra" | .error _ => {} := by decide +kernel

/-- **C50, controllers that were not stopped.** A controller whose tile did not execute a Halt is still running
after `reset`; the next run then leaves it alone, with its old requests (and bound to the old environment, where no
time passes). -/
theorem C50_not_halted (c : Ctrl) (h : c.running = true) (now : Nat) :
    c.reset.begin now = c.reset ∧ c.reset.queue = c.queue ∧ c.reset.pending = c.pending ∧ c.reset.bus = c.bus :=
  ⟨if_pos h, rfl, rfl, rfl⟩

/-- As `resetNode`, but tile 1 has no operations: it ends before its core. -/
def earlyNode : NodeObj :=
  { resetNode resetBuilt with tiles := (resetNode resetBuilt).tiles.map fun x =>
      { x with operations := if x.id = 1 then [] else [.halt] } }

def readWaits (s : Sys) : Bool := !(s.tile 1).ctrl.pending.isEmpty && (s.tile 0).log.contains .halted

def earlyRun : List SysAct × Sys :=
  Sys.auto (resetSys resetBuilt) readWaits twoTiles twoClocks 200 (earlyNode.start resetBuilt)

/-- All tile processes have ended, which ends the simulation; the next run after `reset` does not start like a
first one. -/
theorem C50_early_end_witness :
    (∀ t < 2, (earlyRun.2.tile t).phase = .ready ∧ (earlyRun.2.tile t).ops = []) ∧
    earlyRun.2.crashed = none ∧
    (let r := (earlyNode.afterRun earlyRun.2 ⟨fun _ => 0, fun _ _ => 0, 0, false⟩).reset
     r.1 = .ok () ∧ ((r.2.start resetBuilt).tile 1).ctrl.pending ≠ [] ∧
     (((emptied resetBuilt earlyNode).start resetBuilt).tile 1).ctrl.pending = []) := by decide +kernel

/-- **C50, routers whose send process has failed.** `reset` raises RuntimeError and clears nothing after the
router. -/
theorem C50_dead_sender (x : TileObj) (h : x.router.running = true) (hd : x.router.senderAlive = false) :
    x.reset.1 = .error .runtimeError ∧ x.reset.2.router.stats = x.router.stats ∧ x.reset.2.cores = x.cores := by
  have hr : x.router.reset = (.error .runtimeError, { x.router with running := false }) := by
    unfold RouterObj.reset
    rw [if_pos h, if_neg (by simp [hd])]
  unfold TileObj.reset
  dsimp only
  rw [hr]
  exact ⟨rfl, rfl, rfl⟩

example := C50_dead_sender { TileObj.new demoCoreBuilt 0 with router := { running := true, senderAlive := false } } rfl rfl

end Ramwich
