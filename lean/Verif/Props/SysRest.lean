import Verif.Lemmas.SysCatchUp
import Verif.Lemmas.SysOneReader
import Verif.Props.System

/-! # Programs that always finish

C44 compares two runs that both finish. Here: whether a run comes to its end at all does not depend on the order of
the processes or on latencies either, apart from one bug of the DRAM controller. -/
namespace Ramwich

open Spec

/-! ## C78: who finishes once always finishes -/

/-- C78: if the node has once executed its programs to the end, and no word was given two different values, then
any other run of the same programs, with any latencies and any order of the processes, that does not raise and in
which nothing happens any more has also executed them to the end, or a read is left waiting although its words are
all valid. Hence there are no deadlocks that depend on time but those of the skipped reads (C32). -/
theorem C78_only_skipped_reads (cfg cfg' : SysCfg) (hm : sameMachine cfg cfg') (i : SysInit) (h0 : i.ok)
    (as as' : List SysAct) (F s : Sys) (hF : i.start.run cfg as = some F) (hs : i.start.run cfg' as' = some s)
    (hfin : finished cfg F) (hv : singleAssignment cfg i F) (hc : s.crashed = none) (hr : atRest cfg' s) :
    finished cfg' s ∨ strandedRead cfg' s := by
  by_cases hk : strandedRead cfg' s
  · exact Or.inr hk
  · have hrest := resting_of h0.good hs hc hr
    have hFi := sysInv_run h0.good as F hF
    exact Or.inl (finished_of_caught hm h0.good hFi hfin hrest
      (caught_up hm h0.good as as' hF hfin hv hs hrest hk) (logsLe_run hm h0.good as' hs hFi hfin hv))

/-- C78: if at most one process of every tile reads its DRAM, no read is skipped: a run that does not raise ends
only with every program executed to its end. -/
theorem C78_finishes (cfg cfg' : SysCfg) (hm : sameMachine cfg cfg') (i : SysInit) (h0 : i.ok) (h1 : oneReader cfg i)
    (as as' : List SysAct) (F s : Sys) (hF : i.start.run cfg as = some F) (hs : i.start.run cfg' as' = some s)
    (hfin : finished cfg F) (hv : singleAssignment cfg i F) (hc : s.crashed = none) (hr : atRest cfg' s) :
    finished cfg' s := by
  refine (C78_only_skipped_reads cfg cfg' hm i h0 as as' F s hF hs hfin hv hc hr).resolve_right
    (no_skipped h0.good ?_ hs)
  intro t ht
  rw [hm.tiles] at ht
  simp only [hm.cores]
  exact h1 t ht

/-! A run of the program of C44 with other latencies, up to its end. -/

theorem otherRun_rest : atRest slowSys otherRun.2 := atRest_of_stuck (by decide +kernel)

example := C78_only_skipped_reads demoSys slowSys ⟨rfl, rfl, rfl, rfl⟩ demoInit demoInit_ok demoRun.1 otherRun.1
  demoRun.2 otherRun.2 demoRun_runs otherRun_runs demoRun_finished demoRun_single (by decide +kernel) otherRun_rest

/-- Core 0 of tile 1 is the only process there that reads, on tile 0 it is the tile process. -/
theorem demoInit_oneReader : oneReader demoSys demoInit := by
  intro t ht
  refine ⟨fun k hk j hj _ _ => ?_, fun ⟨a, b, c, d, h⟩ k hk ⟨e, f, g, l, h'⟩ => ?_⟩
  · have hk : k < 1 := hk
    have hj : j < 1 := hj
    omega
  · by_cases h0 : t = 0
    · simp [demoInit, h0] at h'
    · simp [demoInit, h0] at h

example := C78_finishes demoSys slowSys ⟨rfl, rfl, rfl, rfl⟩ demoInit demoInit_ok demoInit_oneReader demoRun.1
  otherRun.1 demoRun.2 otherRun.2 demoRun_runs otherRun_runs demoRun_finished demoRun_single (by decide +kernel)
  otherRun_rest

/-! ## C78 without the condition on the readers -/

/-- One tile with three cores. -/
def oneTileSys : SysCfg := { demoSys with net := ⟨1, 1, some 31, some 36⟩, cores := 3 }

/-- Cores 0 and 1 load two words that core 2 stores; the tile process waits for the three. -/
def tripleInit : SysInit :=
  { demoInit with
    prog := fun _ k => if k < 2 then [.set 16 2 1, .load 24 16 2 1, .hlt]
      else [.set 16 2 1, .set 20 7 2, .store 16 20 2 1, .hlt]
    ops := fun _ => [.halt] }

theorem tripleInit_ok : tripleInit.ok := fun _ => ⟨rfl, rfl⟩

/-- The tile process and the controller. -/
def oneTileActs : List SysAct := [.tile 0, .ctrl 0 .pick, .ctrl 0 .dispatch, .ctrl 0 .grant, .ctrl 0 .complete]

/-- Core 2 alone, to its end. -/
def storeFirst : List SysAct × Sys :=
  Sys.auto oneTileSys (fun s => ((s.tile 0).core 2).phase.isHalted) (.core 0 2 :: oneTileActs) [.ctrl 0 .tick] 100
    tripleInit.start

/-- Then the loads. -/
def storeFirstEnd : List SysAct × Sys :=
  Sys.auto oneTileSys (fun s => (s.tile 0).log.contains .halted) (.core 0 0 :: .core 0 1 :: oneTileActs)
    [.ctrl 0 .tick] 100 storeFirst.2

/-- Cores 0 and 1, until both their loads wait for the data. -/
def loadsFirst : List SysAct × Sys :=
  Sys.auto oneTileSys (fun s => decide ((s.tile 0).ctrl.pending.length = 2)) (.core 0 0 :: .core 0 1 :: oneTileActs)
    [.ctrl 0 .tick] 100 tripleInit.start

/-- Then everybody, until nothing happens any more. -/
def loadsFirstEnd : List SysAct × Sys :=
  Sys.auto oneTileSys (fun s => s.stuck oneTileSys) (.core 0 0 :: .core 0 1 :: .core 0 2 :: oneTileActs)
    [.ctrl 0 .tick] 200 loadsFirst.2

theorem storeFirst_runs : tripleInit.start.run oneTileSys (storeFirst.1 ++ storeFirstEnd.1) = some storeFirstEnd.2 :=
  run_append_some (auto_runs _ _ _ _ _ _) (auto_runs _ _ _ _ _ _)

theorem loadsFirst_runs : tripleInit.start.run oneTileSys (loadsFirst.1 ++ loadsFirstEnd.1) = some loadsFirstEnd.2 :=
  run_append_some (auto_runs _ _ _ _ _ _) (auto_runs _ _ _ _ _ _)

theorem storeFirst_finished : finished oneTileSys storeFirstEnd.2 := by
  refine ⟨by decide +kernel, ?_⟩
  have h : ∀ t < 1, (storeFirstEnd.2.tile t).phase = .ready ∧ (storeFirstEnd.2.tile t).ops = [] ∧
      ∀ k < 3, ((storeFirstEnd.2.tile t).core k).phase = .halted := by decide +kernel
  exact fun t ht => ⟨(h t ht).1, (h t ht).2.1, fun k hk => Or.inl ((h t ht).2.2 k hk)⟩

theorem storeFirst_single : singleAssignment oneTileSys tripleInit storeFirstEnd.2 := by
  have hb : ∀ t < 1, ∀ w ∈ writesOf (storeFirstEnd.2.tile t).ctrl.answers, w.start + w.length ≤ 8 := by decide +kernel
  have h : ∀ t < 1, ∀ w ∈ writesOf (storeFirstEnd.2.tile t).ctrl.answers, ∀ a < 8, covers w a →
      ((tripleInit.valid t).getD a false = true → w.value a = (tripleInit.mem t).cells.getD a 0) ∧
      ∀ w' ∈ writesOf (storeFirstEnd.2.tile t).ctrl.answers, covers w' a → w'.value a = w.value a := by decide +kernel
  intro t ht w hw a ha
  refine h t ht w hw a ?_ ha
  have := hb t ht w hw
  have := ha.2
  omega

/-- The condition of `C78_finishes` cannot be dropped: a program with every word written at most once that finishes
if a store comes before two loads of its words waits for ever, without any message, if it comes after them. -/
theorem C78_timing_decides : ∃ (cfg : SysCfg) (i : SysInit) (as as' : List SysAct) (F s : Sys), i.ok ∧
    i.start.run cfg as = some F ∧ finished cfg F ∧ singleAssignment cfg i F ∧
    i.start.run cfg as' = some s ∧ s.crashed = none ∧ atRest cfg s ∧ ¬finished cfg s := by
  refine ⟨oneTileSys, tripleInit, _, _, _, _, tripleInit_ok, storeFirst_runs, storeFirst_finished, storeFirst_single,
    loadsFirst_runs, by decide +kernel, atRest_of_stuck (by decide +kernel), ?_⟩
  intro h
  have h1 := (h.2 0 (by decide)).1
  have h2 : (loadsFirstEnd.2.tile 0).phase = .haltCores := by decide +kernel
  rw [h2] at h1
  cases h1

/-- Core 1 waits for words that are there. -/
example : ((loadsFirstEnd.2.tile 0).core 1).phase = .loadWait 1 2 24 16 2 1 ∧
    (loadsFirstEnd.2.tile 0).ctrl.mem.cells.take 4 = [5, 6, 7, 7] ∧
    (loadsFirstEnd.2.tile 0).ctrl.valid.take 4 = [true, true, true, true] := by decide +kernel

example := C78_only_skipped_reads oneTileSys oneTileSys ⟨rfl, rfl, rfl, rfl⟩ tripleInit tripleInit_ok _ _ _ _
  storeFirst_runs loadsFirst_runs storeFirst_finished storeFirst_single (by decide +kernel)
  (atRest_of_stuck (by decide +kernel))

end Ramwich
