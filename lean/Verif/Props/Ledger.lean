import Verif.Lemmas.LedgerTile
import Verif.Props.DataFree

/-! # The report of a simulation, computed from the programs without executing them (C95)

C83 and C84 say what the report does not depend on. Here it is computed: every counter of a node at the end of any run
is a sum over the texts of the programs (`Spec/Ledger`), with no state, no time and no order. -/
namespace Ramwich

open Spec

/-- C95: at the end of every run the counters of a core, of its memory, its vector unit and all parts of its MVMUs, are
those of the ledger of its program. -/
theorem C95_core (c0 c : Config) (hc0 : Simulable c0) (hb : c0.build = .ok c) (cfg : SysCfg) (i : SysInit) (h0 : i.ok)
    (hnew : newCores cfg c i) (as : List SysAct) (F : Sys) (hF : i.start.run cfg as = some F) (hf : finished cfg F)
    (t : Nat) (ht : t < cfg.net.tiles) (k : Nat) (hk : k < cfg.cores) :
    ((F.tile t).core k).core.books = coreLedger c (upToHlt (i.prog t k)) := by
  have hl := (build_layout c0 c hb hc0.rramFlag hc0.sramFlag).1.size
  obtain ⟨fl, ws, h1, h2⟩ := hnew t ht k hk
  exact finished_ledger hl h0.good (by rw [h2, after_books fl ws h1]) as hF hf ht hk

/-- C95: the counters of the DRAM and of its controller are sums over the programs of the tile. -/
theorem C95_dram (c0 c : Config) (hc0 : Simulable c0) (hb : c0.build = .ok c) (cfg : SysCfg) (i : SysInit) (h0 : i.ok)
    (hnew : newCores cfg c i) (hfit : transfersFit cfg.net.tiles i.ops) (as : List SysAct) (F : Sys)
    (hF : i.start.run cfg as = some F) (hf : finished cfg F) (t : Nat) (ht : t < cfg.net.tiles) :
    let tr := traffic ((List.range cfg.cores).map (i.prog t)) (i.ops t)
    (F.tile t).ctrl.mem.stats = dramLedger (i.mem t).stats tr ∧
    (F.tile t).ctrl.stats.readRequests = rowsOf tr.1 ∧
    (F.tile t).ctrl.stats.writeRequests = rowsOf tr.2 ∧
    (F.tile t).ctrl.stats.totalRequests = rowsOf tr.1 + rowsOf tr.2 ∧
    (F.tile t).ctrl.stats.operatingTime = cfg.edramLat * (rowsOf tr.1 + rowsOf tr.2) := by
  have hl := (build_layout c0 c hb hc0.rramFlag hc0.sramFlag).1.size
  obtain ⟨-, d1, d2, d3, d4, d5⟩ := C83_dram cfg i h0 as F hF hf t ht
  obtain ⟨r1, r2, r3, r4⟩ := requests_ledger hl h0.good (t := t) (fun k hk => by
    obtain ⟨fl, ws, h1, h2⟩ := hnew t ht k hk
    rw [h2, after_books fl ws h1]) hF hf hfit ht
  refine ⟨?_, ?_, ?_, ?_, ?_⟩
  · rw [d1]; unfold memoryCounts dramLedger; simp only [r1, r2, r3, r4]
  · rw [d2, r1]
  · rw [d3, r3]
  · rw [d4, r1, r3]
  · rw [d5, r1, r3]

theorem finished_halted {cfg : SysCfg} {i : SysInit} {F : Sys} (h0 : i.ok) {as : List SysAct}
    (hF : i.start.run cfg as = some F) (hf : finished cfg F) (hfit : transfersFit cfg.net.tiles i.ops) {t : Nat}
    (ht : t < cfg.net.tiles) (hh : .halt ∈ i.ops t) : .halted ∈ (F.tile t).log := by
  have hd := (finished_done h0.good (sysInv_run h0.good as F hF) hf hfit ht).1
  rw [← hd, List.mem_filterMap] at hh
  obtain ⟨e, he, h⟩ := hh
  cases e <;> simp [TileEv.done] at h
  exact he

/-- C95: the counters of the routers, if every tile program has a Halt, are sums over the tile programs. -/
theorem C95_router (cfg : SysCfg) (i : SysInit) (h0 : i.ok) (hfit : transfersFit cfg.net.tiles i.ops)
    (hh : ∀ t < cfg.net.tiles, .halt ∈ i.ops t) (as : List SysAct) (F : Sys) (hF : i.start.run cfg as = some F)
    (hf : finished cfg F) (t : Nat) (ht : t < cfg.net.tiles) :
    F.net.stats t = routerLedger cfg.net.tiles i.ops t := by
  rw [C83_router cfg i h0 as F hF hf (fun t ht => finished_halted h0 hF hf hfit ht (hh t ht)) t ht,
    router_ledger h0.good (sysInv_run h0.good as F hF) hf hfit ht]

theorem ready_newCores {c : Config} {fl : FloatActs} {n : NodeObj} (hn : readyNode c fl n) (cfg : SysCfg) :
    newCores cfg c (nodeInit c n) := by
  intro t _ k _
  have hnil : ∃ (fl : FloatActs) (ws : List CoreCall), (∀ x ∈ ws, isLoad x = true) ∧ Core.new c = (Core.new c).after fl ws :=
    ⟨fl, [], by simp, rfl⟩
  refine getD_prop (P := fun x : TileObj => ∃ fl ws, (∀ x ∈ ws, isLoad x = true) ∧
    (x.cores.getD k (CoreObj.new c)).core = (Core.new c).after fl ws) n.tiles (TileObj.new c t) t ?_ ?_
  · refine getD_prop (P := fun o : CoreObj => ∃ fl ws, (∀ x ∈ ws, isLoad x = true) ∧ o.core = (Core.new c).after fl ws)
      _ _ k hnil ?_
    intro o ho
    obtain ⟨j, -, rfl⟩ := List.mem_map.1 ho
    exact hnil
  · intro x hx
    refine getD_prop (P := fun o : CoreObj => ∃ fl ws, (∀ x ∈ ws, isLoad x = true) ∧ o.core = (Core.new c).after fl ws)
      _ _ k hnil ?_
    intro o ho
    obtain ⟨ws, h1, h2⟩ := hn.weights x hx o ho
    exact ⟨fl, ws, h1, h2⟩

/-- C95: `get_stats` after any run returns what it would return for the ledgers of the programs: apart from the times
of the run, the report can be computed by reading the programs. -/
theorem C95_report (c0 c : Config) (hc0 : Simulable c0) (hb : c0.build = .ok c) (fl : FloatActs) (n : NodeObj)
    (hn : readyNode c fl n) (hfit : transfersFit n.tiles.length (nodeInit c n).ops) (cfg : SysCfg) (y : Sys)
    (he : endsIn c cfg n y) (p : Power) (times : RunTimes) :
    (n.afterRun y times).getStats p = (ledgerNode c n times).getStats p := by
  obtain ⟨k1, k2, ⟨as, h1⟩, h2, h3⟩ := he
  rw [start_eq hn] at h1
  have hfit' : transfersFit cfg.net.tiles (nodeInit c n).ops := k1 ▸ hfit
  have hok := ready_ok hn
  have hnew := ready_newCores hn cfg
  have ht : (n.afterRun y times).tiles.map (TileObj.getStats p) = (ledgerNode c n times).tiles.map (TileObj.getStats p) := by
    unfold NodeObj.afterRun ledgerNode
    dsimp only
    apply List.ext_getElem?
    intro t
    simp only [List.getElem?_map, List.getElem?_mapIdx]
    cases hx : n.tiles[t]? with
    | none => rfl
    | some x =>
      have hlt : t < cfg.net.tiles := by rw [k1]; exact (List.getElem?_eq_some_iff.1 hx).1
      have hget : n.tiles.getD t (TileObj.new c t) = x := by rw [List.getD_eq_getElem?_getD, hx]; rfl
      have hops : (nodeInit c n).ops t = x.operations := by simp only [nodeInit, hget]
      have hprog : ∀ k o, x.cores[k]? = some o → (nodeInit c n).prog t k = o.operations := by
        intro k o ho
        simp only [nodeInit, hget]
        rw [List.getD_eq_getElem?_getD, ho, Option.getD_some]
      have hlen : x.cores.length = cfg.cores := by rw [hn.cores x (List.mem_of_getElem? hx), k2]
      have hprogs : (List.range cfg.cores).map ((nodeInit c n).prog t) = x.cores.map fun o => o.operations := by
        apply List.ext_getElem?
        intro k
        rw [List.getElem?_map, List.getElem?_map]
        cases ho : x.cores[k]? with
        | none => rw [List.getElem?_eq_none (by rw [List.length_range, ← hlen]; exact List.getElem?_eq_none_iff.1 ho)]; rfl
        | some o =>
          rw [List.getElem?_range (by rw [← hlen]; exact (List.getElem?_eq_some_iff.1 ho).1)]
          simp only [Option.map_some, hprog k o ho]
      obtain ⟨d1, -, -, d4, -⟩ := C95_dram c0 c hc0 hb cfg (nodeInit c n) hok hnew hfit' as y h1 h2 t hlt
      have hrt : y.net.stats t = routerLedger cfg.net.tiles (nodeInit c n).ops t := by
        rw [C83_router cfg _ hok as y h1 h2 h3 t hlt, router_ledger hok.good (sysInv_run hok.good as y h1) h2 hfit' hlt]
      rw [hprogs, hops] at d1 d4
      have hmem : (nodeInit c n).mem t = x.ctrl.mem := by simp only [nodeInit, hget]
      rw [hmem] at d1
      simp only [Option.map_some, Option.some.injEq]
      unfold TileObj.getStats dramStats ctrlStatsCall
      dsimp only
      have hcs : (x.cores.mapIdx fun k o =>
            ({ o with core := ((y.tile t).core k).core, activeCycles := times.core t k } : CoreObj)).map (CoreObj.getStats p) =
          (x.cores.mapIdx fun k o =>
            ({ o with core := coreLedger c (upToHlt o.operations), activeCycles := times.core t k } : CoreObj)).map
              (CoreObj.getStats p) := by
        apply List.ext_getElem?
        intro k
        simp only [List.getElem?_map, List.getElem?_mapIdx]
        cases ho : x.cores[k]? with
        | none => rfl
        | some o =>
          simp only [Option.map_some, Option.some.injEq]
          have hk : k < cfg.cores := by rw [← hlen]; exact (List.getElem?_eq_some_iff.1 ho).1
          refine core_getStats_books p ?_ rfl rfl
          have := C95_core c0 c hc0 hb cfg (nodeInit c n) hok hnew as y h1 h2 t hlt k hk
          rw [hprog k o ho] at this
          dsimp only
          rw [this]
          unfold coreLedger
          rw [ledger_books]
      rw [d1, d4, hrt, hcs, k1]
      rfl
  unfold NodeObj.getStats
  rw [ht]
  unfold NodeObj.afterRun ledgerNode
  simp only [List.length_mapIdx]

/-! ## Examples -/

/-- `transfersFit` can be checked. -/
theorem transfersFit_check (tiles : Nat) (ops : Nat → List TileOp)
    (h1 : ∀ t < tiles, (ops t).all (fun | .receive _ s _ _ => decide (0 ≤ s ∧ s < (tiles : Int)) | _ => true) = true)
    (h2 : ∀ src < tiles, ∀ dst < tiles, rowWidths (sendShapes dst (ops src)) = rowWidths (recvShapes src (ops dst))) :
    transfersFit tiles ops :=
  ⟨fun t ht a s w v hm => by simpa using List.all_eq_true.1 (h1 t ht) _ hm, h2⟩

theorem resetNode_fit : transfersFit (resetNode resetBuilt).tiles.length (nodeInit resetBuilt (resetNode resetBuilt)).ops :=
  transfersFit_check _ _ (by decide +kernel) (by decide +kernel)

example := C95_report resetCfg resetBuilt resetCfg_simulable resetCfg_build someActs (resetNode resetBuilt)
  (resetNode_ready resetBuilt (by decide +kernel) (by decide +kernel)) resetNode_fit (resetSys resetBuilt)
  (resetRun resetBuilt).2 resetRun_ends demoPower fastTimes

example := C95_core resetCfg resetBuilt resetCfg_simulable resetCfg_build (resetSys resetBuilt) (nodeInit resetBuilt (resetNode resetBuilt))
  (ready_ok (resetNode_ready resetBuilt (by decide +kernel) (by decide +kernel)))
  (ready_newCores (resetNode_ready resetBuilt (by decide +kernel) (by decide +kernel)) _)
example := C95_dram resetCfg resetBuilt resetCfg_simulable resetCfg_build (resetSys resetBuilt) (nodeInit resetBuilt (resetNode resetBuilt))
  (ready_ok (resetNode_ready resetBuilt (by decide +kernel) (by decide +kernel)))
  (ready_newCores (resetNode_ready resetBuilt (by decide +kernel) (by decide +kernel)) _) resetNode_fit
example := C95_router (resetSys resetBuilt) (nodeInit resetBuilt (resetNode resetBuilt))
  (ready_ok (resetNode_ready resetBuilt (by decide +kernel) (by decide +kernel))) resetNode_fit
  (by have h : ∀ t < 2, .halt ∈ (nodeInit resetBuilt (resetNode resetBuilt)).ops t := by decide +kernel
      exact h)

-- one product of the first of two units: 16 steps of 4 columns, read back at the end, and once more for the store
example : ((coreLedger resetBuilt [.set 16 4 1, .set 20 7 3, .mvm [0], .store 16 20 2 2, .hlt]).mvmus.map
    fun m => (m.snaOperations, m.rram.mvmOperations, m.outreg.stats.totalOperations, m.adcStats.conversions)) =
  [(64, 16, 17, 64), (0, 0, 0, 0)] := by decide +kernel

end Ramwich
