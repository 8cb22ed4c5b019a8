import Verif.Lemmas.GetStatsFloatParts
import Verif.Props.ReportTime

/-! # The float64 report of a run, from the texts of the programs -/
namespace Ramwich

open Spec

theorem mvmuF_books (p : Power) (m : Mvmu) : m.books.getStatsF p = m.getStatsF p := rfl

theorem coreF_books (p : Power) {o o' : CoreObj} (h1 : o'.core.books = o.core.books)
    (h2 : o'.operations = o.operations) (h3 : o'.activeCycles = o.activeCycles) : o'.getStatsF p = o.getStatsF p := by
  have e1 : o'.core.cache.stats = o.core.cache.stats := show o'.core.books.cache.stats = o.core.books.cache.stats by rw [h1]
  have e2 : o'.core.vfu = o.core.vfu := show o'.core.books.vfu = o.core.books.vfu by rw [h1]
  have e3 : o'.core.mvmus.map (Mvmu.getStatsF p) = o.core.mvmus.map (Mvmu.getStatsF p) := by
    have : o'.core.books.mvmus.map (Mvmu.getStatsF p) = o.core.books.mvmus.map (Mvmu.getStatsF p) := by rw [h1]
    simpa [Core.books, List.map_map, Function.comp_def, mvmuF_books] using this
  unfold CoreObj.getStatsF cacheStatsF
  rw [h2, h3, e1, e2, e3]
theorem nodeF_ledger (c0 c : Config) (hc0 : Simulable c0) (hb : c0.build = .ok c) (fl : FloatActs) (n : NodeObj)
    (hn : readyNode c fl n) (hfit : transfersFit n.tiles.length (nodeInit c n).ops) (cfg : SysCfg) (y : Sys)
    (he : endsIn c cfg n y) (p : Power) (times : RunTimes) :
    (n.afterRun y times).getStatsF p = (ledgerNode c n times).getStatsF p := by
  obtain ⟨k1, k2, ⟨as, h1⟩, h2, h3⟩ := he
  rw [start_eq hn] at h1
  have hfit' : transfersFit cfg.net.tiles (nodeInit c n).ops := k1 ▸ hfit
  have hok := ready_ok hn
  have hnew := ready_newCores hn cfg
  have ht : (n.afterRun y times).tiles.map (TileObj.getStatsF p) = (ledgerNode c n times).tiles.map (TileObj.getStatsF p) := by
    unfold NodeObj.afterRun ledgerNode
    dsimp only
    apply List.ext_getElem?
    intro t
    simp only [List.getElem?_map, List.getElem?_mapIdx]
    cases hx : n.tiles[t]? with
    | none => rfl
    | some x =>
      have hlt : t < cfg.net.tiles := by rw [k1]; exact (List.getElem?_eq_some_iff.1 hx).1
      have hget : n.tiles.getD t (TileObj.new c t) = x := by rw [List.getD_eq_getElem?_getD, hx]; rfl
      have hops : (nodeInit c n).ops t = x.operations := by simp only [nodeInit, hget]
      have hprog : ∀ k o, x.cores[k]? = some o → (nodeInit c n).prog t k = o.operations := by
        intro k o ho
        simp only [nodeInit, hget]
        rw [List.getD_eq_getElem?_getD, ho, Option.getD_some]
      have hlen : x.cores.length = cfg.cores := by rw [hn.cores x (List.mem_of_getElem? hx), k2]
      have hprogs : (List.range cfg.cores).map ((nodeInit c n).prog t) = x.cores.map fun o => o.operations := by
        apply List.ext_getElem?
        intro k
        rw [List.getElem?_map, List.getElem?_map]
        cases ho : x.cores[k]? with
        | none => rw [List.getElem?_eq_none (by rw [List.length_range, ← hlen]; exact List.getElem?_eq_none_iff.1 ho)]; rfl
        | some o =>
          rw [List.getElem?_range (by rw [← hlen]; exact (List.getElem?_eq_some_iff.1 ho).1)]
          simp only [Option.map_some, hprog k o ho]
      obtain ⟨d1, -, -, d4, -⟩ := C95_dram c0 c hc0 hb cfg (nodeInit c n) hok hnew hfit' as y h1 h2 t hlt
      have hrt : y.net.stats t = routerLedger cfg.net.tiles (nodeInit c n).ops t := by
        rw [C83_router cfg _ hok as y h1 h2 h3 t hlt, router_ledger hok.good (sysInv_run hok.good as y h1) h2 hfit' hlt]
      rw [hprogs, hops] at d1 d4
      have hmem : (nodeInit c n).mem t = x.ctrl.mem := by simp only [nodeInit, hget]
      rw [hmem] at d1
      simp only [Option.map_some, Option.some.injEq]
      unfold TileObj.getStatsF dramStatsF ctrlStatsCallF
      dsimp only
      have hcs : (x.cores.mapIdx fun k o =>
            ({ o with core := ((y.tile t).core k).core, activeCycles := times.core t k } : CoreObj)).map (CoreObj.getStatsF p) =
          (x.cores.mapIdx fun k o =>
            ({ o with core := coreLedger c (upToHlt o.operations), activeCycles := times.core t k } : CoreObj)).map
              (CoreObj.getStatsF p) := by
        apply List.ext_getElem?
        intro k
        simp only [List.getElem?_map, List.getElem?_mapIdx]
        cases ho : x.cores[k]? with
        | none => rfl
        | some o =>
          simp only [Option.map_some, Option.some.injEq]
          have hk : k < cfg.cores := by rw [← hlen]; exact (List.getElem?_eq_some_iff.1 ho).1
          refine coreF_books p ?_ rfl rfl
          have := C95_core c0 c hc0 hb cfg (nodeInit c n) hok hnew as y h1 h2 t hlt k hk
          rw [hprog k o ho] at this
          dsimp only
          rw [this]
          unfold coreLedger
          rw [ledger_books]
      rw [d1, d4, hrt, hcs, k1]
      rfl
  unfold NodeObj.getStatsF
  rw [ht]
  unfold NodeObj.afterRun ledgerNode
  simp only [List.length_mapIdx]

theorem tileF_congr {p : Power} {x y : TileObj} (h1 : x.id = y.id) (h2 : x.activeCycles = y.activeCycles)
    (h3 : x.operations = y.operations) (h4 : x.ctrl.mem.stats = y.ctrl.mem.stats)
    (h5 : x.ctrl.stats.totalRequests = y.ctrl.stats.totalRequests) (h6 : x.router.stats = y.router.stats)
    (h7 : x.cores.map (CoreObj.getStatsF p) = y.cores.map (CoreObj.getStatsF p)) :
    x.getStatsF p = y.getStatsF p := by
  unfold TileObj.getStatsF dramStatsF ctrlStatsCallF
  simp only [h1, h2, h3, h4, h5, h6, h7]

theorem coresF_text (p : Power) (c : Config) (l m : List CoreObj) (u : Nat → Int)
    (h : l.map (·.operations) = m.map (·.operations)) :
    (l.mapIdx fun k o => { o with core := coreLedger c (upToHlt o.operations), activeCycles := u k }).map (CoreObj.getStatsF p) =
    (m.mapIdx fun k o => { o with core := coreLedger c (upToHlt o.operations), activeCycles := u k }).map (CoreObj.getStatsF p) := by
  have e : ∀ l : List CoreObj, (l.mapIdx fun k o => { o with core := coreLedger c (upToHlt o.operations), activeCycles := u k }).map
      (CoreObj.getStatsF p) = (l.map (·.operations)).mapIdx fun k ops =>
        CoreObj.getStatsF p { core := coreLedger c (upToHlt ops), operations := ops, activeCycles := u k } := by
    intro l
    apply List.ext_getElem?
    intro k
    simp only [List.getElem?_map, List.getElem?_mapIdx, Option.map_map]
    rfl
  rw [e, e, h]

theorem nodeF_text {p : Power} {c : Config} {fl : FloatActs} {ps : List Placed} {a : Nat} {n : NodeObj}
    (hr : readyNode c fl n) (hf : ∀ t < c.numTilesPerNode, ∃ x, n.tiles[t]? = some x ∧ x.operations = tileProgram ps a t ∧
      x.cores.map (·.operations) = (List.range c.numCoresPerTile).map (coreProgram ps a t) ∧ x.id = t ∧ x.ctrl.mem.stats = {})
    (u : RunTimes) :
    (ledgerNode c n u).getStatsF p = (ledgerNode c (textNode c ps a) u).getStatsF p := by
  have hlen : (textNode c ps a).tiles.length = n.tiles.length := by
    rw [hr.count]; simp [textNode]
  have htiles : (ledgerNode c n u).tiles.length = (ledgerNode c (textNode c ps a) u).tiles.length := by
    simp only [ledgerNode, List.length_mapIdx, hlen]
  have hget : ∀ t < n.tiles.length, (n.tiles.getD t (TileObj.new c t)).operations =
      ((textNode c ps a).tiles.getD t (TileObj.new c t)).operations := by
    intro t ht
    rw [hr.count] at ht
    obtain ⟨x, hx, h1, -⟩ := hf t ht
    rw [List.getD_eq_getElem?_getD, hx, Option.getD_some, h1]
    simp [textNode, ht]
  have hmap : (ledgerNode c n u).tiles.map (TileObj.getStatsF p) = (ledgerNode c (textNode c ps a) u).tiles.map (TileObj.getStatsF p) := by
    apply List.ext_getElem?
    intro t
    simp only [ledgerNode, List.getElem?_map, List.getElem?_mapIdx]
    by_cases ht : t < c.numTilesPerNode
    · obtain ⟨x, hx, h1, h2, h3, h4⟩ := hf t ht
      have hy : (textNode c ps a).tiles[t]? = some { TileObj.new c t with
          operations := tileProgram ps a t
          cores := (List.range c.numCoresPerTile).map fun k => { CoreObj.new c with operations := coreProgram ps a t k } } := by
        simp [textNode, ht]
      have hcores : x.cores.map (·.operations) = ((List.range c.numCoresPerTile).map fun k =>
          { CoreObj.new c with operations := coreProgram ps a t k }).map (·.operations) := by
        rw [h2, List.map_map]; rfl
      rw [hx, hy]
      simp only [Option.map_some, Option.some.injEq]
      refine tileF_congr h3 rfl h1 ?_ ?_ ?_ ?_
      · dsimp only
        rw [h4, h1, hcores]
        rfl
      · dsimp only
        rw [h1, hcores]
      · dsimp only
        rw [hlen]
        exact routerLedger_congr hget t (by rw [hr.count]; exact ht)
      · exact coresF_text p c _ _ _ hcores
    · rw [List.getElem?_eq_none (by rw [hr.count]; omega), List.getElem?_eq_none (by rw [hlen, hr.count]; omega)]
      rfl
  unfold NodeObj.getStatsF
  rw [htiles, hmap]
  rfl


end Ramwich
