import Verif.Lemmas.SysErrors
import Verif.Props.SysWork

/-! # Exceptions do not depend on time

C44 and C78 speak about runs that do not raise. Here: whether a run raises does not depend on the order of the
processes or on latencies, as long as the latencies are such that the simulator can wait for them. -/
namespace Ramwich

open Spec

/-! ## C80: who runs once without an error always does -/

/-- C80: if the node has once executed its programs to the end and come to rest, and no word was given two different
values, then no run of the same programs raises an exception, in any order of the processes and with any latencies
that are there and not negative. -/
theorem C80_never_raises (cfg cfg' : SysCfg) (hm : sameMachine cfg cfg') (i : SysInit) (h0 : i.ok)
    (hl : latenciesOk cfg' i) (as as' : List SysAct) (F s : Sys) (hF : i.start.run cfg as = some F)
    (hfin : finished cfg F) (hr : atRest cfg F) (hv : singleAssignment cfg i F)
    (hs : i.start.run cfg' as' = some s) : s.crashed = none :=
  never_raises hm h0.good hl hF hfin hr hv as' s hs

/-- C80: and it comes to its end with the same result, or to a skipped read (C32): however a run has begun, it can
be continued until nothing happens any more, and then every program is executed to its end or a read waits although
its words are all valid. -/
theorem C80_ends (cfg cfg' : SysCfg) (hm : sameMachine cfg cfg') (i : SysInit) (h0 : i.ok)
    (hl : latenciesOk cfg' i) (as as' : List SysAct) (F s : Sys) (hF : i.start.run cfg as = some F)
    (hfin : finished cfg F) (hr : atRest cfg F) (hv : singleAssignment cfg i F)
    (hs : i.start.run cfg' as' = some s) :
    ∃ bs s', s.run cfg' bs = some s' ∧ atRest cfg' s' ∧ s'.crashed = none ∧
      (finished cfg' s' ∨ strandedRead cfg' s') := by
  obtain ⟨bs, s', hb, hr'⟩ := C79_comes_to_rest cfg' i h0 as' s hs
  have hs' := run_append_some hs hb
  have hc := C80_never_raises cfg cfg' hm i h0 hl as (as' ++ bs) F s' hF hfin hr hv hs'
  exact ⟨bs, s', hb, hr', hc, C78_only_skipped_reads cfg cfg' hm i h0 as (as' ++ bs) F s' hF hs' hfin hv hc hr'⟩

/-- C80: if at most one process of every tile reads its DRAM, one complete run is enough to know all others: they do
not raise, they are not in a deadlock, they come to an end, and all of them with the same registers, the same data in
the DRAM and the same sequence of operations of every core and tile. -/
theorem C80_one_run_is_enough (cfg cfg' : SysCfg) (hm : sameMachine cfg cfg') (i : SysInit) (h0 : i.ok)
    (h1 : oneReader cfg i) (hl : latenciesOk cfg' i) (as as' : List SysAct) (F s : Sys)
    (hF : i.start.run cfg as = some F) (hfin : finished cfg F) (hr : atRest cfg F) (hv : singleAssignment cfg i F)
    (hs : i.start.run cfg' as' = some s) :
    s.crashed = none ∧
    (∃ bs s', s.run cfg' bs = some s' ∧ atRest cfg' s') ∧
    ∀ bs s', s.run cfg' bs = some s' → atRest cfg' s' →
      finished cfg' s' ∧ ∀ t < cfg.net.tiles,
        (s'.tile t).log = (F.tile t).log ∧
        (∀ k < cfg.cores, ((s'.tile t).core k).log = ((F.tile t).core k).log ∧
          ((s'.tile t).core k).core = ((F.tile t).core k).core) ∧
        (∀ a < (i.mem t).size, (s'.tile t).ctrl.valid[a]? = (F.tile t).ctrl.valid[a]? ∧
          (s'.tile t).ctrl.mem.cells[a]? = (F.tile t).ctrl.mem.cells[a]?) := by
  refine ⟨C80_never_raises cfg cfg' hm i h0 hl as as' F s hF hfin hr hv hs, C79_comes_to_rest cfg' i h0 as' s hs,
    fun bs s' hb hr' => ?_⟩
  have hs' := run_append_some hs hb
  have hc := C80_never_raises cfg cfg' hm i h0 hl as (as' ++ bs) F s' hF hfin hr hv hs'
  have hf := C78_finishes cfg cfg' hm i h0 h1 as (as' ++ bs) F s' hF hs' hfin hv hc hr'
  exact ⟨hf, C44_same_result cfg cfg' hm i h0 as (as' ++ bs) F s' hF hs' hfin hf hv⟩

/-! The program of C42, with the latencies of C44. -/

theorem demoRun_rest : atRest demoSys demoRun.2 := atRest_of_stuck (by decide +kernel)

theorem slow_latenciesOk : latenciesOk slowSys demoInit := by
  refine ⟨by decide, by decide, ?_, ⟨1, rfl, by decide⟩, by decide⟩
  have hset : ∃ d, demoCoreBuilt.executionLatency (.set 0 0 0) = .ok d ∧ 0 ≤ d := ⟨1, by decide +kernel, by decide⟩
  have hhlt : ∃ d, demoCoreBuilt.executionLatency .hlt = .ok d ∧ 0 ≤ d := ⟨1, by decide +kernel, by decide⟩
  intro t ht k hk op hop
  by_cases h : t = 0
  · simp only [demoInit, h, if_true, List.mem_cons, List.not_mem_nil, or_false] at hop
    rcases hop with rfl | rfl | rfl | rfl | rfl
    · exact hset
    · exact hset
    · exact hset
    · trivial
    · exact hhlt
  · simp only [demoInit, h, if_false, List.mem_cons, List.not_mem_nil, or_false] at hop
    rcases hop with rfl | rfl | rfl
    · exact hset
    · show (0 : Int) ≤ 2
      decide
    · exact hhlt

example := C80_never_raises demoSys slowSys ⟨rfl, rfl, rfl, rfl⟩ demoInit demoInit_ok slow_latenciesOk demoRun.1
  otherRun.1 demoRun.2 otherRun.2 demoRun_runs demoRun_finished demoRun_rest demoRun_single otherRun_runs
example := C80_ends demoSys slowSys ⟨rfl, rfl, rfl, rfl⟩ demoInit demoInit_ok slow_latenciesOk demoRun.1
  otherRun.1 demoRun.2 otherRun.2 demoRun_runs demoRun_finished demoRun_rest demoRun_single otherRun_runs

/-- The one run of `demoSys` decides about every run of `slowSys`. -/
example (as : List SysAct) (s : Sys) (hs : demoInit.start.run slowSys as = some s) : s.crashed = none :=
  (C80_one_run_is_enough demoSys slowSys ⟨rfl, rfl, rfl, rfl⟩ demoInit demoInit_ok demoInit_oneReader slow_latenciesOk
    demoRun.1 as demoRun.2 s demoRun_runs demoRun_finished demoRun_rest demoRun_single hs).1

/-! ## C80 without its conditions -/

/-- Core 0 loads a word and takes it for an address of another load; core 1 stores another value in the word. -/
def raceInit : SysInit :=
  { demoInit with
    mem := fun _ => { size := 8, cells := [1, 6, 0, 0, 0, 0, 0, 0] }
    prog := fun _ k => if k = 0 then [.set 16 0 1, .load 24 16 1 1, .load 25 24 1 1, .hlt]
      else if k = 1 then [.set 16 0 1, .set 20 100 1, .store 16 20 1 1, .hlt] else [.hlt]
    ops := fun _ => [.halt] }

/-- Core `k` alone, to its end. -/
def raceFirst (k : Nat) : List SysAct × Sys :=
  Sys.auto oneTileSys (fun s => ((s.tile 0).core k).phase.isHalted) (.core 0 k :: oneTileActs) [.ctrl 0 .tick] 100
    raceInit.start

/-- Then everybody. -/
def raceEnd (k : Nat) : List SysAct × Sys :=
  Sys.auto oneTileSys (fun s => s.stuck oneTileSys) (.core 0 0 :: .core 0 1 :: .core 0 2 :: oneTileActs)
    [.ctrl 0 .tick] 200 (raceFirst k).2

theorem race_runs (k : Nat) : raceInit.start.run oneTileSys ((raceFirst k).1 ++ (raceEnd k).1) = some (raceEnd k).2 :=
  run_append_some (auto_runs _ _ _ _ _ _) (auto_runs _ _ _ _ _ _)

theorem race_finished : finished oneTileSys (raceEnd 0).2 := by
  refine ⟨by decide +kernel, ?_⟩
  have h : ∀ t < 1, ((raceEnd 0).2.tile t).phase = .ready ∧ ((raceEnd 0).2.tile t).ops = [] ∧
      ∀ k < 3, (((raceEnd 0).2.tile t).core k).phase = .halted := by decide +kernel
  exact fun t ht => ⟨(h t ht).1, (h t ht).2.1, fun k hk => Or.inl ((h t ht).2.2 k hk)⟩

/-- The condition of the single assignment cannot be dropped: a program with a race may finish in one order of its
cores and raise in another, with the same latencies. -/
theorem C80_race_raises : ∃ (cfg : SysCfg) (i : SysInit) (as as' : List SysAct) (F s : Sys), i.ok ∧
    i.start.run cfg as = some F ∧ finished cfg F ∧ atRest cfg F ∧
    i.start.run cfg as' = some s ∧ s.crashed = some .indexError :=
  ⟨oneTileSys, raceInit, _, _, _, _, fun _ => ⟨rfl, rfl⟩, race_runs 0, race_finished,
    atRest_of_stuck (by decide +kernel), race_runs 1, by decide +kernel⟩

/-- One tile with one core. -/
def loneSys : SysCfg := { demoSys with net := ⟨1, 1, some 31, some 36⟩ }

/-- The tile sends a row to tile 5, which does not exist; its program has no Halt, which would wait for the row. -/
def lostInit : SysInit :=
  { demoInit with
    prog := fun _ _ => [.hlt]
    ops := fun _ => [.send 0 5 1 2] }

/-- Everybody but the process of the network that takes the row. -/
def lostRun : List SysAct × Sys :=
  Sys.auto loneSys (fun s => (s.tile 0).ops.isEmpty && (match (s.tile 0).phase with | .ready => true | _ => false))
    (.core 0 0 :: oneTileActs) [.ctrl 0 .tick] 100 lostInit.start

/-- What the process of the network does then. -/
def lostEnd : List SysAct × Sys := Sys.auto loneSys (fun s => s.stuck loneSys) [.thread 0] [] 100 lostRun.2

theorem lostRun_runs : lostInit.start.run loneSys lostRun.1 = some lostRun.2 := auto_runs _ _ _ _ _ _

theorem lostRun_finished : finished loneSys lostRun.2 := by
  refine ⟨by decide +kernel, ?_⟩
  have h : ∀ t < 1, (lostRun.2.tile t).phase = .ready ∧ (lostRun.2.tile t).ops = [] ∧
      ∀ k < 1, ((lostRun.2.tile t).core k).phase = .halted := by decide +kernel
  exact fun t ht => ⟨(h t ht).1, (h t ht).2.1, fun k hk => Or.inl ((h t ht).2.2 k hk)⟩

theorem lostRun_single : singleAssignment loneSys lostInit lostRun.2 := by
  have h : ∀ t < 1, writesOf (lostRun.2.tile t).ctrl.answers = [] := by decide +kernel
  intro t ht w hw
  rw [h t ht] at hw
  cases hw

/-- That the run has come to rest cannot be dropped: a tile whose program does not end with Halt may be at its end
before the row that raises is looked at. -/
theorem C80_late_error : ∃ (cfg : SysCfg) (i : SysInit) (as as' : List SysAct) (F s : Sys), i.ok ∧
    i.start.run cfg as = some F ∧ finished cfg F ∧ singleAssignment cfg i F ∧
    F.run cfg as' = some s ∧ s.crashed = some .keyError :=
  ⟨loneSys, lostInit, _, _, _, _, fun _ => ⟨rfl, rfl⟩, lostRun_runs, lostRun_finished, lostRun_single,
    auto_runs _ _ _ _ _ _, (by decide +kernel : lostEnd.2.crashed = some .keyError)⟩

end Ramwich
