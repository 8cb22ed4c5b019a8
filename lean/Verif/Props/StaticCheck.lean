import Verif.Lemmas.DryStart
import Verif.Props.ClockedTime

/-! # C85: programs that a check of their texts has accepted -/
namespace Ramwich

open Pipeline (upd)
open Spec

/-- The hypotheses of C85: a node with configuration `c'` (from `c` by the defaults of config.py), whose cores have done
anything (`hist`) before, e.g. the loading of weights, whose DRAMs have `size` words, with the words of `valid` valid, and
whose programs pass the check. The check does not look at the data in the DRAMs, the weights, the noise or the latencies;
the activation functions play no role in it. -/
structure Spec.checked (cfg : SysCfg) (c c' : Config) (size : Nat) (valid : Nat → Nat) (moves : List DryMove)
    (i : SysInit) : Prop where
  simulable : Simulable c
  build : c.build = .ok c'
  unit : 0 < c'.mvmuConfig.xbarSize * c'.numMvmusPerCore
  lists : i.ok
  words : ∀ t < cfg.net.tiles, (i.mem t).size = size
  there : ∀ t < cfg.net.tiles, ∀ a, (i.valid t).getD a false = (valid t).testBit a
  cores : ∀ t < cfg.net.tiles, ∀ k < cfg.cores, ∃ fl hist, i.core t k = (Core.new c').after fl hist
  check : accepted (coreParamsOf c' id id) size cfg.net.tiles cfg.cores valid i.prog i.ops moves

variable {c c' : Config} {size : Nat} {valid : Nat → Nat} {moves : List DryMove}

theorem Spec.checked.run {cfg : SysCfg} {i : SysInit} (h : checked cfg c c' size valid moves i) :
    ∃ as F, i.start.run cfg.instant as = some F ∧ finished cfg.instant F ∧ atRest cfg.instant F ∧
      singleAssignment cfg.instant i F :=
  accepted_run h.simulable h.build h.unit id id h.lists h.words h.there h.cores h.check

/-- C85: no process of an accepted program ever raises: with every schedule, all latencies that are there and not
negative, all data, all weights and all noise. -/
theorem C85_never_raises (cfg : SysCfg) (i : SysInit) (h : checked cfg c c' size valid moves i) (hl : latenciesOk cfg i)
    (as : List SysAct) (s : Sys) (hs : i.start.run cfg as = some s) : s.crashed = none := by
  obtain ⟨bs, F, h1, h2, h3, h4⟩ := h.run
  exact C80_never_raises cfg.instant cfg (instant_same cfg) i h.lists hl bs as F s h1 h2 h3 h4 hs

/-- C85: an accepted program comes to its end or to a skipped read (C32): however a run has begun, it can be continued
until nothing happens any more, and then every program is executed to its end, or a read waits although its words are
all valid. -/
theorem C85_ends (cfg : SysCfg) (i : SysInit) (h : checked cfg c c' size valid moves i) (hl : latenciesOk cfg i)
    (as : List SysAct) (s : Sys) (hs : i.start.run cfg as = some s) :
    (∃ bs s', s.run cfg bs = some s' ∧ atRest cfg s') ∧
    ∀ bs s', s.run cfg bs = some s' → atRest cfg s' → finished cfg s' ∨ strandedRead cfg s' := by
  refine ⟨C79_comes_to_rest cfg i h.lists as s hs, fun bs s' hb hr => ?_⟩
  have hs' := run_append_some hs hb
  have hc := C85_never_raises cfg i h hl _ s' hs'
  obtain ⟨as, F, h1, h2, h3, h4⟩ := h.run
  exact C78_only_skipped_reads cfg.instant cfg (instant_same cfg) i h.lists as _ F s' h1 hs' h2 h4 hc hr

/-- C85: all complete runs of an accepted program end with the same registers, the same data in the DRAMs and the same
sequence of operations of every core and tile, also if their latencies differ. -/
theorem C85_same_result (cfg cfg' : SysCfg) (hm : sameMachine cfg cfg') (i : SysInit)
    (h : checked cfg c c' size valid moves i) (as as' : List SysAct) (s s' : Sys)
    (hs : i.start.run cfg as = some s) (hs' : i.start.run cfg' as' = some s') (hf : finished cfg s)
    (hf' : finished cfg' s') (t : Nat) (ht : t < cfg.net.tiles) :
    (s'.tile t).log = (s.tile t).log ∧
    (∀ k < cfg.cores, ((s'.tile t).core k).log = ((s.tile t).core k).log ∧
      ((s'.tile t).core k).core = ((s.tile t).core k).core) ∧
    (∀ a < (i.mem t).size, (s'.tile t).ctrl.valid[a]? = (s.tile t).ctrl.valid[a]? ∧
      (s'.tile t).ctrl.mem.cells[a]? = (s.tile t).ctrl.mem.cells[a]?) := by
  obtain ⟨bs, F, h1, h2, h3, h4⟩ := h.run
  have hm' : sameMachine cfg.instant cfg' := ⟨hm.tiles, hm.cores, hm.fl, hm.noise⟩
  obtain ⟨a1, a2, a3⟩ := C44_same_result cfg.instant cfg (instant_same cfg) i h.lists bs as F s h1 hs h2 hf h4 t ht
  obtain ⟨b1, b2, b3⟩ := C44_same_result cfg.instant cfg' hm' i h.lists bs as' F s' h1 hs' h2 hf' h4 t ht
  exact ⟨b1.trans a1.symm, fun k hk => ⟨(b2 k hk).1.trans (a2 k hk).1.symm, (b2 k hk).2.trans (a2 k hk).2.symm⟩,
    fun a ha => ⟨(b3 a ha).1.trans (a3 a ha).1.symm, (b3 a ha).2.trans (a3 a ha).2.symm⟩⟩

/-- C85: the same in simulated time, with the pipelines of the cores and the network in one clock: no process raises, and
once the clock has passed the sum of the times of all operations, all programs have been executed to their ends and all
tile processes have returned, or a read is skipped. -/
theorem C85_simulation (cfg : SysCfg) (l : StageLat) (i : SysInit) (h : checked cfg c c' size valid moves i)
    (hl : latenciesOk cfg i) (as : List FAct) (f : FSys) (hf : i.fstart.run cfg l as = some f) :
    f.ts.sys.crashed = none ∧
    (programCycles cfg l i < f.ts.now →
      f.ts.finished cfg i ∧ allReturned cfg f ∨ strandedRead cfg (f.ts.plain i)) := by
  have hI := clocked_reach h.lists hf
  obtain ⟨cs, hp⟩ := plain_run h.lists.good hI
  have hc : f.ts.sys.crashed = none := C85_never_raises cfg i h hl cs (f.ts.plain i) hp
  refine ⟨hc, fun hlate => ?_⟩
  have hr := (C82_time_bound cfg l i h.lists as f hf).resolve_left (by omega)
  have hrest := C81_no_new_deadlock cfg l i h.lists as f hf hc hr
  rcases (C85_ends cfg i h hl cs _ hp).2 [] _ rfl hrest with hfin | hsk
  · refine .inl ⟨finished_of_plain (hI.both h.lists.good).1 hfin, fun t ht hnone => ?_⟩
    have h2 : f.active t = _ := (hI.tile hc t ht).active
    have h3 : (f.ts.sys.tile t).phase = .ready := (hfin.2 t ht).1
    have h4 : (f.ts.sys.tile t).ops = [] := (hfin.2 t ht).2.1
    rw [if_pos (by show ((f.ts.sys.tile t).phase.isReady && (f.ts.sys.tile t).ops.isEmpty) = true; rw [h3, h4]; rfl)] at h2
    rw [hnone] at h2
    cases h2
  · exact .inr hsk

/-- C85: if moreover at most one process of every tile reads its DRAM, the simulation of an accepted program is over once
the clock has passed the sum of the times of all operations. -/
theorem C85_done_in_time (cfg : SysCfg) (l : StageLat) (i : SysInit) (h : checked cfg c c' size valid moves i)
    (hl : latenciesOk cfg i) (h1 : oneReader cfg i) (as : List FAct) (f : FSys)
    (hf : i.fstart.run cfg l as = some f) (hlate : programCycles cfg l i < f.ts.now) :
    f.ts.finished cfg i ∧ allReturned cfg f := by
  refine ((C85_simulation cfg l i h hl as f hf).2 hlate).resolve_right ?_
  obtain ⟨cs, hp⟩ := plain_run h.lists.good (clocked_reach h.lists hf)
  exact no_skipped h.lists.good h1 hp

/-! The program of C42 passes the check. -/

/-- An order for the program of C42. -/
def demoMoves : List DryMove := [.core 0 0, .tile 0, .tile 1, .core 1 0, .core 0 0, .core 1 0, .tile 0, .tile 1]

theorem demo_checked : checked slowSys demoCore demoCoreBuilt 8 (fun _ => 3) demoMoves demoInit where
  simulable := demoCore_simulable
  build := demoCore_build
  unit := by decide +kernel
  lists := demoInit_ok
  words _ _ := rfl
  there _ _ a := by
    show demoValid.getD a false = _
    rw [show (3 : Nat) = 2 ^ 2 - 1 from rfl, Nat.testBit_two_pow_sub_one]
    by_cases h : a < 8
    · exact (by decide : ∀ a < 8, demoValid.getD a false = decide (a < 2)) a h
    · rw [List.getD_eq_getElem?_getD, List.getElem?_eq_none (by simpa [demoValid] using h)]
      exact (decide_eq_false (by omega)).symm
  cores _ _ _ _ := ⟨someActs, [], rfl⟩
  check := by decide +kernel

example := C85_never_raises slowSys demoInit demo_checked slow_latenciesOk
example := C85_ends slowSys demoInit demo_checked slow_latenciesOk
example := C85_same_result slowSys demoSys ⟨rfl, rfl, rfl, rfl⟩ demoInit demo_checked otherRun.1 demoRun.1 otherRun.2
  demoRun.2 otherRun_runs demoRun_runs
example := C85_simulation slowSys ⟨3, 2⟩ demoInit demo_checked slow_latenciesOk
example := C85_done_in_time slowSys ⟨3, 2⟩ demoInit demo_checked slow_latenciesOk demoInit_oneReader doneRun.1 doneRun.2
  doneRun_runs (by decide +kernel)

/-- Tile 1 waits for rows of three words: the moves end at its Receive. -/
example : ¬ accepted (coreParamsOf demoCoreBuilt id id) 8 2 1 (fun _ => 3) demoInit.prog mismatchInit.ops demoMoves := by
  decide +kernel

end Ramwich
