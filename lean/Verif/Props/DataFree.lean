import Verif.Spec.DataFree
import Verif.Lemmas.DataFree
import Verif.Props.Counters

/-! # C84: counters and energy report do not depend on the data -/
namespace Ramwich

open Spec

/-- C84: two runs of the same programs on any data (other weights, other contents of the DRAMs and registers, other
noise, other activation functions, other latencies) that both end have the same counters: those of the DRAMs and of
their controllers, of the routers (if the tiles of the first execute a Halt) and of all parts of the cores. -/
theorem C84_counters (cfg cfg' : SysCfg) (htiles : cfg'.net.tiles = cfg.net.tiles) (hcores : cfg'.cores = cfg.cores)
    (i i' : SysInit) (hi : samePrograms i i') (h0 : i.ok) (h0' : i'.ok) (as as' : List SysAct) (F F' : Sys)
    (hF : i.start.run cfg as = some F) (hF' : i'.start.run cfg' as' = some F')
    (hfin : finished cfg F) (hfin' : finished cfg' F') (t : Nat) (ht : t < cfg.net.tiles) :
    (F'.tile t).ctrl.mem.stats = (F.tile t).ctrl.mem.stats ∧
    (F'.tile t).ctrl.stats.readRequests = (F.tile t).ctrl.stats.readRequests ∧
    (F'.tile t).ctrl.stats.writeRequests = (F.tile t).ctrl.stats.writeRequests ∧
    (F'.tile t).ctrl.stats.totalRequests = (F.tile t).ctrl.stats.totalRequests ∧
    (∀ k < cfg.cores, ((F'.tile t).core k).core.books = ((F.tile t).core k).core.books) ∧
    (F'.tile t).log.map blankEv = (F.tile t).log.map blankEv ∧
    ((∀ t < cfg.net.tiles, .halted ∈ (F.tile t).log) → F'.net.stats t = F.net.stats t) := by
  have ht' : t < cfg'.net.tiles := by rw [htiles]; exact ht
  have hI := sysInv_run h0.good as F hF
  have hI' := sysInv_run h0'.good as' F' hF'
  have hlog : ∀ t < cfg.net.tiles, (F'.tile t).log.map blankEv = (F.tile t).log.map blankEv := fun t ht =>
    shapes_eq htiles hi.ops h0.good h0'.good as as' hF hF' hfin hfin' ht
  have hcore : ∀ k < cfg.cores, _ := fun k hk =>
    core_books_eq hi h0.good h0'.good hI hI' hfin hfin' ht ht' hk (by rw [hcores]; exact hk)
  have hreq := requests_same hcores (hlog t ht) fun k hk => (hcore k hk).1
  have e1 := totalReq_same (fun k => (blankKind_fields k).1) hreq
  have e2 := totalReq_same (fun k => (blankKind_fields k).2.1) hreq
  have e3 := totalReq_same (fun k => (blankKind_fields k).2.2.1) hreq
  have e4 := totalReq_same (fun k => (blankKind_fields k).2.2.2) hreq
  obtain ⟨-, d1, d2, d3, d4, -⟩ := C83_dram cfg i h0 as F hF hfin t ht
  obtain ⟨-, g1, g2, g3, g4, -⟩ := C83_dram cfg' i' h0' as' F' hF' hfin' t ht'
  refine ⟨?_, by rw [g2, d2, e1], by rw [g3, d3, e2], by rw [g4, d4, e1, e2], fun k hk => (hcore k hk).2, hlog t ht,
    fun hh => ?_⟩
  · rw [g1, d1, hi.stats]
    unfold memoryCounts
    rw [e1, e2, e3, e4]
  · have hh' : ∀ t < cfg'.net.tiles, .halted ∈ (F'.tile t).log := by
      intro t ht
      rw [htiles] at ht
      exact halted_blank (hlog t ht) (hh t ht)
    have s1 : (rowsSent (F'.tile t).log).length = (rowsSent (F.tile t).log).length := by
      have := congrArg (fun l => (rowsSent l).length) (hlog t ht)
      simpa [rowsSent_blank] using this
    have s2 : ∀ j < cfg.net.tiles, (rowsTo t (F'.tile j).log).length = (rowsTo t (F.tile j).log).length := by
      intro j hj
      have := congrArg (fun l => (rowsTo t l).length) (hlog j hj)
      simpa [rowsTo_blank] using this
    have s3 : ∀ j, (rowsFrom j (F'.tile t).log).length = (rowsFrom j (F.tile t).log).length := by
      intro j
      have := congrArg (fun l => (rowsFrom j l).length) (hlog t ht)
      simpa [rowsFrom_blank] using this
    rw [C83_router cfg i h0 as F hF hfin hh t ht, C83_router cfg' i' h0' as' F' hF' hfin' hh' t ht', htiles]
    simp only [routerCounts, s1, s3]
    congr 1
    exact Finset.sum_congr rfl fun j hj => s2 j (Finset.mem_range.1 hj)

theorem sameTask_programs {c : Config} {fl fl' : FloatActs} {n n' : NodeObj} (hn : readyNode c fl n)
    (hn' : readyNode c fl' n') (h : sameTask n n') : samePrograms (nodeInit c n) (nodeInit c n') := by
  have hg : ∀ (l : List TileObj) (t : Nat) (d x : TileObj), l[t]? = some x → l.getD t d = x := by
    intro l t d x hx; rw [List.getD_eq_getElem?_getD, hx]; rfl
  have hgn : ∀ (l : List TileObj) (t : Nat) (d : TileObj), l[t]? = none → l.getD t d = d := by
    intro l t d hx; rw [List.getD_eq_getElem?_getD, hx]; rfl
  have hb : ∀ {fl : FloatActs} {n : NodeObj}, readyNode c fl n → ∀ t k, ((nodeInit c n).core t k).books = (Core.new c).books := by
    intro fl n hn t k
    refine getD_prop (P := fun x : TileObj => ((x.cores.getD k (CoreObj.new c)).core).books = (Core.new c).books)
      n.tiles (TileObj.new c t) t ?_ ?_
    · refine getD_prop (P := fun o : CoreObj => o.core.books = (Core.new c).books) _ _ k rfl ?_
      intro o ho
      obtain ⟨j, -, rfl⟩ := List.mem_map.1 ho
      rfl
    · intro x hx
      refine getD_prop (P := fun o : CoreObj => o.core.books = (Core.new c).books) _ _ k rfl ?_
      intro o ho
      obtain ⟨ws, h1, h2⟩ := hn.weights x hx o ho
      rw [h2, after_books fl ws h1]
  have hcase : ∀ t : Nat, (∃ x x', n.tiles[t]? = some x ∧ n'.tiles[t]? = some x') ∨ (n.tiles[t]? = none ∧ n'.tiles[t]? = none) := by
    intro t
    by_cases ht : t < n.tiles.length
    · exact Or.inl ⟨_, _, List.getElem?_eq_getElem ht, List.getElem?_eq_getElem (h.count ▸ ht)⟩
    · exact Or.inr ⟨List.getElem?_eq_none (by omega), List.getElem?_eq_none (by rw [h.count]; omega)⟩
  refine ⟨fun t => ?_, fun t k => ?_, fun t k => by rw [hb hn, hb hn'], fun t => ?_⟩
  · rcases hcase t with ⟨x, x', hx, hx'⟩ | ⟨hx, hx'⟩
    · simp only [nodeInit, hg _ _ _ _ hx, hg _ _ _ _ hx', (h.tile t x x' hx hx').2.1]
    · simp only [nodeInit, hgn _ _ _ hx, hgn _ _ _ hx']
  · rcases hcase t with ⟨x, x', hx, hx'⟩ | ⟨hx, hx'⟩
    · simp only [nodeInit, hg _ _ _ _ hx, hg _ _ _ _ hx']
      have key : ∀ l : List CoreObj, (l.getD k (CoreObj.new c)).operations =
          (l.map fun o => o.operations).getD k (CoreObj.new c).operations := by
        intro l
        rw [List.getD_eq_getElem?_getD, List.getD_eq_getElem?_getD, List.getElem?_map]
        cases l[k]? <;> rfl
      rw [key, key, (h.tile t x x' hx hx').2.2.1]
    · simp only [nodeInit, hgn _ _ _ hx, hgn _ _ _ hx']
  · rcases hcase t with ⟨x, x', hx, hx'⟩ | ⟨hx, hx'⟩
    · simp only [nodeInit, hg _ _ _ _ hx, hg _ _ _ _ hx', (h.tile t x x' hx hx').2.2.2]
    · simp only [nodeInit, hgn _ _ _ hx, hgn _ _ _ hx']

/-- C84: `get_stats` after two runs of the same operations on any data that took the same times returns the same
report, whatever the weights, the inputs, the noise and the order of the processes were. -/
theorem C84_report (c : Config) (fl fl' : FloatActs) (n n' : NodeObj) (hn : readyNode c fl n) (hn' : readyNode c fl' n')
    (h : sameTask n n') (cfg cfg' : SysCfg) (y y' : Sys) (he : endsIn c cfg n y) (he' : endsIn c cfg' n' y') (p : Power)
    (times : RunTimes) : (n'.afterRun y' times).getStats p = (n.afterRun y times).getStats p := by
  obtain ⟨k1, k2, ⟨as, h1⟩, h2, h3⟩ := he
  obtain ⟨k1', k2', ⟨as', h1'⟩, h2', -⟩ := he'
  rw [start_eq hn] at h1
  rw [start_eq hn'] at h1'
  have key := C84_counters cfg cfg' (by rw [k1, k1', h.count]) (by rw [k2, k2']) (nodeInit c n) (nodeInit c n')
    (sameTask_programs hn hn' h) (ready_ok hn) (ready_ok hn') as as' y y' h1 h1' h2 h2'
  have ht : (n'.afterRun y' times).tiles.map (TileObj.getStats p) = (n.afterRun y times).tiles.map (TileObj.getStats p) := by
    unfold NodeObj.afterRun
    dsimp only
    apply List.ext_getElem?
    intro t
    simp only [List.getElem?_map, List.getElem?_mapIdx]
    by_cases hlt : t < n.tiles.length
    · have hlt' : t < n'.tiles.length := by rw [h.count]; exact hlt
      obtain ⟨x, hx⟩ : ∃ x, n.tiles[t]? = some x := ⟨_, List.getElem?_eq_getElem hlt⟩
      obtain ⟨x', hx'⟩ : ∃ x, n'.tiles[t]? = some x := ⟨_, List.getElem?_eq_getElem hlt'⟩
      obtain ⟨q1, q2, q3, -⟩ := h.tile t x x' hx hx'
      obtain ⟨a1, -, -, a2, a3, -, a4⟩ := key t (by rw [k1]; exact hlt)
      rw [hx, hx']
      simp only [Option.map_some, Option.some.injEq]
      unfold TileObj.getStats dramStats ctrlStatsCall
      dsimp only
      have hcs : (x'.cores.mapIdx fun k o =>
            ({ o with core := ((y'.tile t).core k).core, activeCycles := times.core t k } : CoreObj)).map (CoreObj.getStats p) =
          (x.cores.mapIdx fun k o =>
            ({ o with core := ((y.tile t).core k).core, activeCycles := times.core t k } : CoreObj)).map (CoreObj.getStats p) := by
        apply List.ext_getElem?
        intro k
        simp only [List.getElem?_map, List.getElem?_mapIdx]
        have hk := congrArg (fun l => l[k]?) q3
        simp only [List.getElem?_map] at hk
        cases ho : x.cores[k]? with
        | none => rw [ho] at hk; cases ho' : x'.cores[k]? with
          | none => rfl
          | some o' => rw [ho'] at hk; cases hk
        | some o => rw [ho] at hk; cases ho' : x'.cores[k]? with
          | none => rw [ho'] at hk; cases hk
          | some o' =>
            rw [ho'] at hk
            simp only [Option.map_some, Option.some.injEq] at hk ⊢
            refine core_getStats_books p (a3 k ?_) hk rfl
            rw [k2, ← hn.cores x (List.mem_of_getElem? hx)]
            exact (List.getElem?_eq_some_iff.1 ho).1
      rw [q1, q2, a1, a2, a4 h3, hcs]
    · have q : n.tiles[t]? = none := List.getElem?_eq_none (by omega)
      have q' : n'.tiles[t]? = none := List.getElem?_eq_none (by rw [h.count]; omega)
      rw [q, q']
      rfl
  unfold NodeObj.getStats
  rw [ht]
  unfold NodeObj.afterRun
  simp only [List.length_mapIdx, h.count]

/-! ## A node with other data -/

/-- The node `resetNode` without weights, and with other contents of the DRAMs. -/
def otherData (c : Config) : NodeObj :=
  { id := 0
    tiles := [
      { TileObj.new c 0 with
        cores := [{ core := Core.new c
                    operations := [.set 16 4 1, .set 20 7 3, .mvm [0], .store 16 20 2 2, .hlt] }]
        operations := [.send 4 1 2 2, .halt] },
      { TileObj.new c 1 with
        ctrl := { Ctrl.new c.tileConfig.edramSize with
          mem := { Memory.new c.tileConfig.edramSize with cells := (Memory.new c.tileConfig.edramSize).cells.set 7 9 }
          valid := (List.replicate c.tileConfig.edramSize false).set 7 true }
        cores := [{ core := Core.new c, operations := [.set 16 2 1, .load 24 16 2 2, .hlt] }]
        operations := [.receive 2 0 2 2, .halt] }] }

theorem otherData_ready (c : Config) (h1 : c.numCoresPerTile = 1) (h2 : c.numTilesPerNode = 2) :
    readyNode c someActs (otherData c) := by
  constructor
  · exact h2.symm
  · intro x hx; simp only [otherData, List.mem_cons, List.not_mem_nil, or_false] at hx
    rcases hx with rfl | rfl <;> rfl
  · intro x hx; simp only [otherData, List.mem_cons, List.not_mem_nil, or_false] at hx
    rcases hx with rfl | rfl <;> simp [TileObj.new, Ctrl.new, Memory.new]
  · intro x hx; simp only [otherData, List.mem_cons, List.not_mem_nil, or_false] at hx
    rcases hx with rfl | rfl <;> rfl
  · intro x hx; simp only [otherData, List.mem_cons, List.not_mem_nil, or_false] at hx
    rcases hx with rfl | rfl <;> exact h1.symm
  · intro x hx; simp only [otherData, List.mem_cons, List.not_mem_nil, or_false] at hx
    rcases hx with rfl | rfl <;> intro o ho <;> simp only [List.mem_singleton] at ho <;> subst ho <;>
      exact ⟨[], by simp, rfl⟩

theorem otherData_task (c : Config) : sameTask (resetNode c) (otherData c) := by
  refine ⟨rfl, fun t x x' hx hx' => ?_⟩
  match t, hx, hx' with
  | 0, hx, hx' => injection hx with hx; injection hx' with hx'; subst hx hx'; exact ⟨rfl, rfl, rfl, rfl⟩
  | 1, hx, hx' => injection hx with hx; injection hx' with hx'; subst hx hx'; exact ⟨rfl, rfl, rfl, rfl⟩

def otherDataRun (c : Config) : List SysAct × Sys :=
  Sys.auto (resetSlow c) bothHalted twoTiles twoClocks 400 ((otherData c).start c)

theorem otherDataRun_ends :
    endsIn resetBuilt (resetSlow resetBuilt) (otherData resetBuilt) (otherDataRun resetBuilt).2 := by
  refine ⟨rfl, by decide +kernel, ⟨_, auto_runs (resetSlow resetBuilt) bothHalted twoTiles twoClocks 400 _⟩,
    ⟨by decide +kernel, ?_⟩, ?_⟩
  · have h : ∀ t < 2, ((otherDataRun resetBuilt).2.tile t).phase = .ready ∧
        ((otherDataRun resetBuilt).2.tile t).ops = [] ∧
        ∀ k < 1, (((otherDataRun resetBuilt).2.tile t).core k).phase = .halted := by decide +kernel
    exact fun t ht => ⟨(h t ht).1, (h t ht).2.1, fun k hk => Or.inl ((h t ht).2.2 k hk)⟩
  · have h : ∀ t < 2, .halted ∈ ((otherDataRun resetBuilt).2.tile t).log := by decide +kernel
    exact h

example := C84_report resetBuilt someActs someActs (resetNode resetBuilt) (otherData resetBuilt)
  (resetNode_ready resetBuilt (by decide +kernel) (by decide +kernel))
  (otherData_ready resetBuilt (by decide +kernel) (by decide +kernel)) (otherData_task resetBuilt) (resetSys resetBuilt)
  (resetSlow resetBuilt) (resetRun resetBuilt).2 (otherDataRun resetBuilt).2 resetRun_ends otherDataRun_ends demoPower
  fastTimes
-- the results of the two runs differ
example : ((resetRun resetBuilt).2.tile 0).ctrl.mem.cells ≠ ((otherDataRun resetBuilt).2.tile 0).ctrl.mem.cells := by
  decide +kernel

end Ramwich
