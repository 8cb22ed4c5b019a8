import Verif.Lemmas.NodeReport
import Verif.Props.Reset
import Verif.Props.System

/-! # The counters and the report of a node do not depend on time (C83)

C44 says that the results of a run do not depend on the order of the processes or on latencies. Here the same for
what the simulator is for: its counters, and the energies computed from them. -/
namespace Ramwich

open Spec

/-- C83: at the end of a run, however the processes were scheduled, the DRAM of a tile has answered one request for
every load and store that its cores have executed and for every Send and every complete Recv of its tile process,
and no other. Its counters and those of its controller are the sums over these requests. -/
theorem C83_dram (cfg : SysCfg) (i : SysInit) (h0 : i.ok) (as : List SysAct) (s : Sys)
    (hs : i.start.run cfg as = some s) (hf : finished cfg s) (t : Nat) (ht : t < cfg.net.tiles) :
    let rs := requestsOf cfg.cores (s.tile t)
    ((s.tile t).ctrl.answers.map fun a => (a.req.start, a.req.kind)).Perm rs ∧
    (s.tile t).ctrl.mem.stats = memoryCounts (i.mem t).stats rs ∧
    (s.tile t).ctrl.stats.readRequests = totalReq rowsRead rs ∧
    (s.tile t).ctrl.stats.writeRequests = totalReq rowsWritten rs ∧
    (s.tile t).ctrl.stats.totalRequests = totalReq rowsRead rs + totalReq rowsWritten rs ∧
    (s.tile t).ctrl.stats.operatingTime = cfg.edramLat * (totalReq rowsRead rs + totalReq rowsWritten rs) := by
  intro rs
  have hi := sysInv_run h0.good as s hs
  have hci := ctrlInv_of (h0.good t) (hi.tile t).ctrl
  have hp := finished_requests hs hf ht
  have ha := finished_answered h0.good hi hf ht
  have hmap : ((s.tile t).ctrl.answers.map fun a => (a.req.start, a.req.kind)) =
      ((s.tile t).ctrl.answers.map Answer.req).map Req.what := by
    rw [List.map_map]; rfl
  have hperm := (ha.map Req.what).trans hp
  obtain ⟨s1, s2, s3⟩ := totalOf_split (s.tile t).ctrl.submitted
  rw [totalReq_perm _ hp] at s1
  rw [totalReq_perm _ hp] at s2
  rw [totalReq_perm rowsRead hp, totalReq_perm rowsWritten hp] at s3
  refine ⟨hmap ▸ hperm, ?_, ?_, ?_, ?_, ?_⟩
  · obtain ⟨cs, hcs⟩ := (hi.tile t).ctrl
    rw [memStats_run (m0 := i.mem t) cs _ _ (by simp [Ctrl.started, memStats, reqW]) hcs, memStats_counts,
      memoryCounts_perm _ hperm]
  · rw [hci.time.readReqs, s1]
  · rw [hci.time.writeReqs, s2]
  · rw [hci.time.totalReqs, s3]
  · rw [hci.time.operating, ← s3]
    have h1 : ((s.tile t).ctrl.answers.map fun a => service cfg.edramLat a.req) =
        ((s.tile t).ctrl.answers.map Answer.req).map (service cfg.edramLat) := by
      rw [List.map_map]; rfl
    rw [h1, (ha.map _).sum_eq]
    unfold totalOf
    generalize (s.tile t).ctrl.submitted = l
    induction l with
    | nil => simp
    | cons r l ih =>
      simp only [List.map_cons, List.sum_cons, ih, service]
      ring

example := C83_dram demoSys demoInit demoInit_ok demoRun.1 demoRun.2 demoRun_runs demoRun_finished 1 (by decide)
example : (demoRun.2.tile 1).ctrl.mem.stats.writeCells = 4 ∧ (demoRun.2.tile 1).ctrl.stats.readRequests = 2 := by
  decide +kernel

/-- C83: when all tiles have executed a Halt, a router has created and sent one packet for every row of the Sends of
its tile, has received all the rows sent to its tile and counts as read what the Recvs have taken. -/
theorem C83_router (cfg : SysCfg) (i : SysInit) (h0 : i.ok) (as : List SysAct) (s : Sys)
    (hs : i.start.run cfg as = some s) (hf : finished cfg s) (hh : ∀ t < cfg.net.tiles, .halted ∈ (s.tile t).log)
    (t : Nat) (ht : t < cfg.net.tiles) :
    s.net.stats t = routerCounts cfg.net.tiles (fun t => (s.tile t).log) t :=
  halted_router h0.good hs hf hh ht

theorem demoRun_halted : ∀ t < demoSys.net.tiles, .halted ∈ (demoRun.2.tile t).log := by
  have h : ∀ t < 2, .halted ∈ (demoRun.2.tile t).log := by decide +kernel
  exact h

example := C83_router demoSys demoInit demoInit_ok demoRun.1 demoRun.2 demoRun_runs demoRun_finished demoRun_halted 0
  (by decide)
example : (demoRun.2.net.stats 0).sent = 2 ∧ (demoRun.2.net.stats 1).received = 2 ∧ (demoRun.2.net.stats 1).read = 2 := by
  decide +kernel

theorem memory_eq {m m' : Memory} (h1 : m'.size = m.size) (h2 : m'.cells = m.cells) (h3 : m'.stats = m.stats) :
    m' = m := by
  cases m; cases m'; simp only at h1 h2 h3; subst h1 h2 h3; rfl

/-- C83: two runs of a program that assigns every DRAM word once, with any latencies and any order of the processes,
end with the same DRAMs including their counters, the same counters of requests, the same cores with all their
counters and, if all tiles execute a Halt, the same counters of the routers. -/
theorem C83_same_counters (cfg cfg' : SysCfg) (hm : sameMachine cfg cfg') (i : SysInit) (h0 : i.ok)
    (as as' : List SysAct) (F F' : Sys) (hF : i.start.run cfg as = some F) (hF' : i.start.run cfg' as' = some F')
    (hfin : finished cfg F) (hfin' : finished cfg' F') (hv : singleAssignment cfg i F)
    (t : Nat) (ht : t < cfg.net.tiles) :
    (F'.tile t).ctrl.mem = (F.tile t).ctrl.mem ∧ (F'.tile t).ctrl.valid = (F.tile t).ctrl.valid ∧
    (F'.tile t).ctrl.stats.readRequests = (F.tile t).ctrl.stats.readRequests ∧
    (F'.tile t).ctrl.stats.writeRequests = (F.tile t).ctrl.stats.writeRequests ∧
    (F'.tile t).ctrl.stats.totalRequests = (F.tile t).ctrl.stats.totalRequests ∧
    (∀ k < cfg.cores, ((F'.tile t).core k).core = ((F.tile t).core k).core) ∧
    ((∀ t < cfg.net.tiles, .halted ∈ (F.tile t).log) → F'.net.stats t = F.net.stats t) := by
  have ht' : t < cfg'.net.tiles := by rw [hm.tiles]; exact ht
  obtain ⟨h1, h2, h3⟩ := C44_same_result cfg cfg' hm i h0 as as' F F' hF hF' hfin hfin' hv t ht
  have hreq : requestsOf cfg'.cores (F'.tile t) = requestsOf cfg.cores (F.tile t) := by
    unfold requestsOf
    rw [hm.cores, h1]
    congr 1
    rw [List.flatMap_def, List.flatMap_def]
    congr 1
    refine List.map_congr_left fun k hk => ?_
    rw [(h2 k (List.mem_range.1 hk)).1]
  obtain ⟨-, d1, d2, d3, d4, -⟩ := C83_dram cfg i h0 as F hF hfin t ht
  obtain ⟨-, e1, e2, e3, e4, -⟩ := C83_dram cfg' i h0 as' F' hF' hfin' t ht'
  rw [hreq] at e1 e2 e3 e4
  have hc := (ctrlInv_of (h0.good t) ((sysInv_run h0.good as F hF).tile t).ctrl).mem
  have hc' := (ctrlInv_of (h0.good t) ((sysInv_run h0.good as' F' hF').tile t).ctrl).mem
  refine ⟨memory_eq (by rw [hc.size, hc'.size]) ?_ (by rw [d1, e1]), ?_, by rw [d2, e2], by rw [d3, e3], by rw [d4, e4],
    fun k hk => (h2 k hk).2, fun hh => ?_⟩
  · apply List.ext_getElem?
    intro a
    by_cases ha : a < (i.mem t).size
    · exact (h3 a ha).2
    · rw [List.getElem?_eq_none (by rw [hc'.len]; omega), List.getElem?_eq_none (by rw [hc.len]; omega)]
  · apply List.ext_getElem?
    intro a
    by_cases ha : a < (i.mem t).size
    · exact (h3 a ha).1
    · rw [List.getElem?_eq_none (by rw [hc'.vlen]; omega), List.getElem?_eq_none (by rw [hc.vlen]; omega)]
  · have hlog : ∀ t < cfg.net.tiles, (F'.tile t).log = (F.tile t).log := fun t ht =>
      (C44_same_result cfg cfg' hm i h0 as as' F F' hF hF' hfin hfin' hv t ht).1
    have hh' : ∀ t < cfg'.net.tiles, .halted ∈ (F'.tile t).log := by
      intro t ht
      rw [hm.tiles] at ht
      rw [hlog t ht]
      exact hh t ht
    rw [C83_router cfg i h0 as F hF hfin hh t ht, C83_router cfg' i h0 as' F' hF' hfin' hh' t ht', hm.tiles]
    simp only [routerCounts, hlog t ht]
    congr 1
    exact Finset.sum_congr rfl fun j hj => by rw [hlog j (Finset.mem_range.1 hj)]

example := (C83_same_counters demoSys slowSys ⟨rfl, rfl, rfl, rfl⟩ demoInit demoInit_ok demoRun.1 otherRun.1 demoRun.2
  otherRun.2 demoRun_runs otherRun_runs demoRun_finished otherRun_finished demoRun_single 1 (by decide)).2.2.2.2.2.2
  demoRun_halted

/-! ## Reports -/

theorem ready_ok {c : Config} {fl : FloatActs} {n : NodeObj} (h : readyNode c fl n) : (nodeInit c n).ok := by
  intro t
  refine getD_prop (P := fun x : TileObj => x.ctrl.mem.cells.length = x.ctrl.mem.size ∧
    x.ctrl.valid.length = x.ctrl.mem.size) n.tiles (TileObj.new c t) t ?_ ?_
  · simp [TileObj.new, Ctrl.new, Memory.new]
  · intro x hx
    obtain ⟨h1, h2, h3⟩ := h.size x hx
    exact ⟨by rw [h1, h2], by rw [h1, h3]⟩

theorem ends_sameCounts {c : Config} {fl : FloatActs} {n : NodeObj} (hn : readyNode c fl n) {cfg cfg' : SysCfg}
    (hm : sameMachine cfg cfg') {y y' : Sys} (he : endsIn c cfg n y) (he' : endsIn c cfg' n y')
    (hv : singleAssignment cfg (nodeInit c n) y) : SameCounts cfg.net.tiles cfg.cores y y' := by
  obtain ⟨-, -, ⟨as, h1⟩, h2, h3⟩ := he
  obtain ⟨-, -, ⟨as', h1'⟩, h2', -⟩ := he'
  rw [start_eq hn] at h1 h1'
  have key := C83_same_counters cfg cfg' hm (nodeInit c n) (ready_ok hn) as as' y y' h1 h1' h2 h2' hv
  exact ⟨fun t ht => by rw [(key t ht).1], fun t ht => (key t ht).2.2.2.2.1, fun t ht => (key t ht).2.2.2.2.2.2 h3,
    fun t ht => (key t ht).2.2.2.2.2.1⟩

/-- C83: the report of a node depends on the run only through the times: two runs of the node to the end, with any
latencies and any order of the processes, whose active cycles are the same give the same report. -/
theorem C83_report (c : Config) (fl : FloatActs) (n : NodeObj) (hn : readyNode c fl n) (cfg cfg' : SysCfg)
    (hm : sameMachine cfg cfg') (y y' : Sys) (he : endsIn c cfg n y) (he' : endsIn c cfg' n y')
    (hv : singleAssignment cfg (nodeInit c n) y) (p : Power) (times : RunTimes) :
    (n.afterRun y' times).getStats p = (n.afterRun y times).getStats p := by
  refine getStats_afterRun (ends_sameCounts hn hm he he' hv) he.1.symm (fun x hx => ?_) p times
  rw [hn.cores x hx, he.2.1]

/-- C83: with other times, the reports of two runs have the same areas; except for the two control units the same
counts, and except for these and the routers the same dynamic energies. The routers differ by the dynamic energy of
the network for the difference of the busy cycles. A run that takes longer in every respect does not leak less. -/
theorem C83_report_times (c : Config) (fl : FloatActs) (n : NodeObj) (hn : readyNode c fl n) (cfg cfg' : SysCfg)
    (hm : sameMachine cfg cfg') (y y' : Sys) (he : endsIn c cfg n y) (he' : endsIn c cfg' n y')
    (hv : singleAssignment cfg (nodeInit c n) y) (p : Power) (a b : RunTimes) (h h2 : Heap) (d d' : StatsDict)
    (h' h2' : Heap) (hr : (n.afterRun y a).getStats p h = .ok (d, h'))
    (hr' : (n.afterRun y' b).getStats p h2 = .ok (d', h2')) (k : String) :
    (statOf d' h2' k).area = (statOf d h' k).area ∧
    (¬countsCycles k → (statOf d' h2' k).activationCount = (statOf d h' k).activationCount ∧
      (statOf d' h2' k).dynamicEnergy = (statOf d h' k).dynamicEnergy +
        if k = "Router" then (b.busy - a.busy) * val p.nocIntraPowDyn else 0) ∧
    (slower a b → (∀ c ∈ nodeComponents p (n.afterRun y a), 0 ≤ c.leakPerCycle) →
      (statOf d h' k).leakageEnergy ≤ (statOf d' h2' k).leakageEnergy) := by
  rw [C83_report c fl n hn cfg cfg' hm y y' he he' hv] at hr'
  rw [(C48_report_levels p h d h').2.2 _ hr k, (C48_report_levels p h2 d' h2').2.2 _ hr' k]
  exact node_report_times p n y a b k

/-- The node of C50 with a slow DRAM and slow memories. -/
def resetSlow (c : Config) : SysCfg := { resetSys c with edramLat := 5, dataMemLat := 17 }

def resetSlowRun (c : Config) : List SysAct × Sys :=
  Sys.auto (resetSlow c) bothHalted twoTiles twoClocks 400 ((resetNode c).start c)

theorem resetSlowRun_ends :
    endsIn resetBuilt (resetSlow resetBuilt) (resetNode resetBuilt) (resetSlowRun resetBuilt).2 := by
  refine ⟨rfl, by decide +kernel, ⟨_, auto_runs (resetSlow resetBuilt) bothHalted twoTiles twoClocks 400 _⟩,
    ⟨by decide +kernel, ?_⟩, ?_⟩
  · have h : ∀ t < 2, ((resetSlowRun resetBuilt).2.tile t).phase = .ready ∧
        ((resetSlowRun resetBuilt).2.tile t).ops = [] ∧
        ∀ k < 1, (((resetSlowRun resetBuilt).2.tile t).core k).phase = .halted := by decide +kernel
    exact fun t ht => ⟨(h t ht).1, (h t ht).2.1, fun k hk => Or.inl ((h t ht).2.2 k hk)⟩
  · have h : ∀ t < 2, .halted ∈ ((resetSlowRun resetBuilt).2.tile t).log := by decide +kernel
    exact h

theorem resetRun_single :
    singleAssignment (resetSys resetBuilt) (nodeInit resetBuilt (resetNode resetBuilt)) (resetRun resetBuilt).2 := by
  have hb : ∀ t < 2, ∀ w ∈ writesOf ((resetRun resetBuilt).2.tile t).ctrl.answers, w.start + w.length ≤ 8 := by
    decide +kernel
  have h : ∀ t < 2, ∀ w ∈ writesOf ((resetRun resetBuilt).2.tile t).ctrl.answers, ∀ a < 8, covers w a →
      (((nodeInit resetBuilt (resetNode resetBuilt)).valid t).getD a false = true →
        w.value a = ((nodeInit resetBuilt (resetNode resetBuilt)).mem t).cells.getD a 0) ∧
      ∀ w' ∈ writesOf ((resetRun resetBuilt).2.tile t).ctrl.answers, covers w' a → w'.value a = w.value a := by
    decide +kernel
  intro t ht w hw a ha
  refine h t ht w hw a ?_ ha
  have := hb t ht w hw
  have := ha.2
  omega

/-- A node whose cores multiply, load and store and whose tiles exchange rows, with a fast and a slow memory. -/
example := C83_report resetBuilt someActs (resetNode resetBuilt)
  (resetNode_ready resetBuilt (by decide +kernel) (by decide +kernel)) (resetSys resetBuilt) (resetSlow resetBuilt)
  ⟨rfl, rfl, rfl, rfl⟩ (resetRun resetBuilt).2 (resetSlowRun resetBuilt).2 resetRun_ends resetSlowRun_ends resetRun_single

example : (resetSlowRun resetBuilt).1 ≠ (resetRun resetBuilt).1 := by decide +kernel

/-- The times of two runs. -/
def fastTimes : RunTimes := ⟨fun _ => 90, fun _ _ => 60, 40, false⟩
def slowTimes : RunTimes := ⟨fun _ => 200, fun _ _ => 150, 45, false⟩

def reportOf (n : NodeObj) : StatsDict × Heap := match n.getStats demoPower [] with | .ok r => r | .error _ => ([], [])

def fastReport : StatsDict × Heap := reportOf ((resetNode resetBuilt).afterRun (resetRun resetBuilt).2 fastTimes)
def slowReport : StatsDict × Heap := reportOf ((resetNode resetBuilt).afterRun (resetSlowRun resetBuilt).2 slowTimes)

theorem fastReport_eq : ((resetNode resetBuilt).afterRun (resetRun resetBuilt).2 fastTimes).getStats demoPower [] =
    .ok (fastReport.1, fastReport.2) := by decide +kernel
theorem slowReport_eq : ((resetNode resetBuilt).afterRun (resetSlowRun resetBuilt).2 slowTimes).getStats demoPower [] =
    .ok (slowReport.1, slowReport.2) := by decide +kernel

example := (C83_report_times resetBuilt someActs (resetNode resetBuilt)
  (resetNode_ready resetBuilt (by decide +kernel) (by decide +kernel)) (resetSys resetBuilt) (resetSlow resetBuilt)
  ⟨rfl, rfl, rfl, rfl⟩ (resetRun resetBuilt).2 (resetSlowRun resetBuilt).2 resetRun_ends resetSlowRun_ends resetRun_single
  demoPower fastTimes slowTimes [] [] _ _ _ _ fastReport_eq slowReport_eq "Router").2.2
  ⟨fun _ => by norm_num [fastTimes, slowTimes], fun _ _ => by norm_num [fastTimes, slowTimes], by decide⟩ (by decide +kernel)
-- five more busy cycles
example : (statOf slowReport.1 slowReport.2 "Router").dynamicEnergy =
      (statOf fastReport.1 fastReport.2 "Router").dynamicEnergy + 5 ∧
    (statOf slowReport.1 slowReport.2 "Router receive").activationCount = 2 ∧
    (statOf fastReport.1 fastReport.2 "Router receive").activationCount = 2 := by decide +kernel

end Ramwich
