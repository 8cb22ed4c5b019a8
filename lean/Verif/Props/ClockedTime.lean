import Verif.Lemmas.ClockedTime
import Verif.Props.ClockedRest

/-! # The node with one clock: a bound for the time of a simulation (C82) -/
namespace Ramwich

open Spec

section
variable (cfg : SysCfg) (l : StageLat) (i : SysInit) (h0 : i.ok) (as : List FAct) (f : FSys)
  (hrun : i.fstart.run cfg l as = some f)
include h0 hrun

/-- C82: whatever the schedule, once the clock has passed the sum of the times of all operations of all programs,
nothing is ever done again: the simulation is over or hangs. Waiting for other processes never takes longer than what
these processes do in the meantime. -/
theorem C82_time_bound : f.ts.now ≤ programCycles cfg l i ∨ clockedRest cfg l f := by
  have := time_run (n := programCycles cfg l i) h0.good as finv_start
    (.inr (by rw [left_start]; exact (Nat.zero_add _).le)) hrun
  rcases this with h | h
  · exact .inr h
  · exact .inl (by omega)

/-- C82: everything that a simulation does, apart from the passing of time and from looking at the queues of the
routers, it does up to that time. -/
theorem C82_work_in_time (a : FAct) (f' : FSys) (ha : f.act cfg l a = some f') (hw : idleAct a = false) :
    f.ts.now ≤ programCycles cfg l i := by
  rcases C82_time_bound cfg l i h0 as f hrun with h | h
  · exact h
  · have := h [a] f' (by simp [FSys.run, ha]) a (by simp)
    rw [hw] at this
    cases this

/-- C82: `active_cycles` of a tile (tile.py:122) is at most the sum of the times of all operations. -/
theorem C82_active_cycles (t c : Nat) (ht : f.active t = some c) : c ≤ programCycles cfg l i := by
  induction as using List.reverseRecOn generalizing f with
  | nil =>
    injection hrun with e
    subst e
    have : i.fstart.active t = if (i.ops t).isEmpty then some 0 else none := rfl
    rw [this] at ht
    split at ht
    · injection ht with e; omega
    · cases ht
  | append_singleton bs a ih =>
    rw [frun_append, Option.bind_eq_some_iff] at hrun
    obtain ⟨g, h1, h2⟩ := hrun
    have h2 : g.act cfg l a = some f := by simpa [FSys.run] using h2
    rcases active_act h2 ht with h3 | ⟨h3, rfl⟩
    · exact ih g h1 h3
    · exact C82_work_in_time cfg l i h0 bs g h1 a f h2 h3

/-- C82, a watchdog: a tile process that has not returned when the clock has passed the sum of the times of all
operations will never return. -/
theorem C82_watchdog (hlate : programCycles cfg l i < f.ts.now) (t : Nat) (ht : f.active t = none) :
    ∀ bs f', f.run cfg l bs = some f' → f'.active t = none := by
  have hr := (C82_time_bound cfg l i h0 as f hrun).resolve_left (by omega)
  intro bs f' hb
  cases h : f'.active t with
  | none => rfl
  | some c =>
    exfalso
    have key : ∀ (bs : List FAct) (g : FSys), clockedRest cfg l g → g.run cfg l bs = some f' → g.active t = some c := by
      intro bs
      induction bs with
      | nil => intro g _ hg; injection hg with e; rw [e]; exact h
      | cons a bs ih =>
        intro g hg hb
        have hid := hg (a :: bs) f' hb a (by simp)
        simp only [FSys.run, Option.bind_eq_some_iff] at hb
        obtain ⟨u, h1, h2⟩ := hb
        rcases active_act h1 (ih u (rest_run hg (as := [a]) (by simp [FSys.run, h1])) h2) with h3 | ⟨h3, -⟩
        · exact h3
        · rw [h3] at hid; cases hid
    have := key bs f hr hb
    rw [ht] at this
    cases this

end

/-- C82: if a program was once simulated to its end with some latencies, no word was given two different values, and at
most one process of every tile reads its DRAM, then with all latencies that are there and not negative, and every
schedule: once the clock has passed the sum of the times of all operations, all programs have been executed to their
ends and all tile processes have returned. -/
theorem C82_done_in_time (cfg cfg' : SysCfg) (hm : sameMachine cfg cfg') (l l' : StageLat) (i : SysInit)
    (h0 : i.ok) (h1 : oneReader cfg i) (hl : latenciesOk cfg' i) (as as' : List FAct) (F f : FSys)
    (hF : i.fstart.run cfg l as = some F) (hfin : F.ts.finished cfg i) (hr : clockedRest cfg l F)
    (hv : singleAssignment cfg i F.ts.sys) (hf : i.fstart.run cfg' l' as' = some f)
    (hlate : programCycles cfg' l' i < f.ts.now) :
    f.ts.sys.crashed = none ∧ f.ts.finished cfg' i ∧ allReturned cfg' f := by
  obtain ⟨h2, -, h3⟩ := C81_one_simulation_is_enough cfg cfg' hm l l' i h0 h1 hl as as' F f hF hfin hr hv hf
  obtain ⟨h4, h5, -⟩ := h3 [] f rfl ((C82_time_bound cfg' l' i h0 as' f hf).resolve_left (by omega))
  exact ⟨h2, h4, h5⟩

/-! The runs of C73, C81 and a program for which the bound is attained. -/

example : programCycles quickSys demoStages demoInit = 54 ∧ clockedRun.2.ts.now = 34 ∧
    programCycles slowSys ⟨3, 2⟩ demoInit = 90 := by decide +kernel
example := C82_time_bound quickSys demoStages demoInit demoInit_ok clockedRun.1 clockedRun.2 clockedRun_runs
example := C82_active_cycles quickSys demoStages demoInit demoInit_ok clockedRun.1 clockedRun.2 clockedRun_runs 1 34
  (by decide +kernel)

/-- One core with one operation. -/
def oneInit : SysInit := { demoInit with prog := fun t _ => if t = 0 then [.hlt] else [], ops := fun _ => [] }

theorem oneInit_ok : oneInit.ok := fun _ => ⟨rfl, rfl⟩

/-- Up to the end of the operation in the execution stage. -/
def oneRun : List FAct × FSys := FSys.auto quickSys demoStages (fun f => decide (3 ≤ f.ts.now)) twoClocked 100 oneInit.fstart

theorem oneRun_runs : oneInit.fstart.run quickSys demoStages oneRun.1 = some oneRun.2 := fauto_runs _ _ _ _ _ _

/-- The core ends its operation in cycle 3, which is the bound. -/
example := C82_work_in_time quickSys demoStages oneInit oneInit_ok oneRun.1 oneRun.2 oneRun_runs (.t (.fin 0 0))
  ((oneRun.2.act quickSys demoStages (.t (.fin 0 0))).get (by decide +kernel)) (Option.some_get _).symm rfl
example : programCycles quickSys demoStages oneInit = 3 ∧ oneRun.2.ts.now = 3 := by decide +kernel

/-- The deadlock of C61 after the bound. -/
def lateRun : List FAct × FSys :=
  FSys.auto quickSys demoStages (fun f => decide (programCycles quickSys demoStages stuckInit < f.ts.now))
    twoClocked 400 stuckInit.fstart

theorem lateRun_runs : stuckInit.fstart.run quickSys demoStages lateRun.1 = some lateRun.2 := fauto_runs _ _ _ _ _ _

example := C82_watchdog quickSys demoStages stuckInit stuckInit_ok lateRun.1 lateRun.2 lateRun_runs (by decide +kernel) 1
  (by decide +kernel)

/-- The program of C42 after the bound, with the latencies of `slowSys`. -/
def doneRun : List FAct × FSys :=
  FSys.auto slowSys ⟨3, 2⟩ (fun f => decide (programCycles slowSys ⟨3, 2⟩ demoInit < f.ts.now)) twoClocked 600 demoInit.fstart

theorem doneRun_runs : demoInit.fstart.run slowSys ⟨3, 2⟩ doneRun.1 = some doneRun.2 := fauto_runs _ _ _ _ _ _

example := C82_done_in_time quickSys slowSys ⟨rfl, rfl, rfl, rfl⟩ demoStages ⟨3, 2⟩ demoInit demoInit_ok demoInit_oneReader
  slow_latenciesOk clockedRun.1 doneRun.1 clockedRun.2 doneRun.2 clockedRun_runs clockedRun_finished clockedRun_rest
  clockedRun_single doneRun_runs (by decide +kernel)

end Ramwich
