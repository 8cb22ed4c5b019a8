import Verif.Lemmas.ClockedBound
import Verif.Props.ClockedNode
import Verif.Props.SysErrors

/-! # The node with one clock: end, deadlock, exceptions (C81)

C78-C80 speak about the node without a clock, in which any process that can act may be the next one. Here they are
carried over to the node of `Model/ClockedNode.lean`, which is what simpy executes. -/
namespace Ramwich

open Spec

/-! ## C81: a simulation comes to its end or hangs -/

/-- C81: whatever the latencies, a simulation of given programs consists of a bounded number of actions, apart from the
passing of time and from processes that look at the queues of the routers again and again; one more if the last one
raises. -/
theorem C81_bounded (cfg : SysCfg) (l : StageLat) (i : SysInit) (h0 : i.ok) (as : List FAct) (f : FSys)
    (hrun : i.fstart.run cfg l as = some f) :
    (as.filter fun a => !idleAct a).length ≤ clockedWork cfg i + if f.ts.sys.crashed = none then 0 else 1 :=
  frun_bounded h0.good hrun

/-- C81: in a bounded time only a bounded number of actions is possible: no process acts for ever without time
passing. -/
theorem C81_time_passes (cfg : SysCfg) (l : StageLat) (i : SysInit) (h0 : i.ok) (as : List FAct) (f : FSys)
    (hrun : i.fstart.run cfg l as = some f) :
    as.length ≤ (cfg.net.tiles + 2) * (clockedWork cfg i + 2 + f.ts.now) := by
  have h1 := frun_length as hrun
  have h2 := frun_bounded h0.good hrun
  have h3 := polls_le (cfg := cfg) i.fstart
  have h4 : (as.filter fun a => !idleAct a).length ≤ clockedWork cfg i + 1 := h2.trans (by split <;> omega)
  have h5 : (cfg.net.tiles + 2) * ((as.filter fun a => !idleAct a).length + f.ts.now) ≤
      (cfg.net.tiles + 2) * (clockedWork cfg i + 1 + f.ts.now) := Nat.mul_le_mul_left _ (by omega)
  have h6 : (cfg.net.tiles + 2) * (clockedWork cfg i + 2 + f.ts.now) =
      (cfg.net.tiles + 2) * (clockedWork cfg i + 1 + f.ts.now) + (cfg.net.tiles + 2) := by ring
  omega

/-- C81: simpy never runs out of events: as long as no process has raised, something can happen (the monitor of the
network looks at the queues in every cycle, noc.py:82-91). So `env.run` does not notice that nothing will ever happen
any more. -/
theorem C81_always_events (cfg : SysCfg) (l : StageLat) (i : SysInit) (h0 : i.ok) (as : List FAct) (f : FSys)
    (hrun : i.fstart.run cfg l as = some f) (hc : f.ts.sys.crashed = none) : ∃ a f', f.act cfg l a = some f' :=
  f_progress h0.good (clocked_reach h0 hrun) hc

/-- C81: however a simulation has begun, it can be continued to a state in which nothing is ever done again. -/
theorem C81_comes_to_rest (cfg : SysCfg) (l : StageLat) (i : SysInit) (h0 : i.ok) (as : List FAct) (f : FSys)
    (hrun : i.fstart.run cfg l as = some f) : ∃ bs f', f.run cfg l bs = some f' ∧ clockedRest cfg l f' := by
  generalize hk : clockedWork cfg i + 1 - (as.filter fun a => !idleAct a).length = k
  induction k using Nat.strong_induction_on generalizing as f with
  | _ k ih =>
    by_cases hr : clockedRest cfg l f
    · exact ⟨[], f, rfl, hr⟩
    · unfold clockedRest at hr
      push Not at hr
      obtain ⟨bs, f1, h1, a, ha, hw⟩ := hr
      have hrun1 := frun_append_some hrun h1
      have hb := C81_bounded cfg l i h0 (as ++ bs) f1 hrun1
      have hpos : 0 < (bs.filter fun a => !idleAct a).length :=
        List.length_pos_of_mem (List.mem_filter.2 ⟨ha, by simpa using hw⟩)
      rw [List.filter_append, List.length_append] at hb
      have hle : clockedWork cfg i + (if f1.ts.sys.crashed = none then 0 else 1) ≤ clockedWork cfg i + 1 := by
        split <;> omega
      obtain ⟨cs, f2, h2, h3⟩ := ih _ (by
        rw [← hk, List.filter_append, List.length_append]
        omega) (as ++ bs) f1 hrun1 rfl
      exact ⟨bs ++ cs, f2, frun_append_some h1 h2, h3⟩

/-- C81: when nothing is ever done again, the node without clock and pipelines (C42-C46, C78-C80) is at rest, too: the
clock and the pipelines do not bring new deadlocks. -/
theorem C81_no_new_deadlock (cfg : SysCfg) (l : StageLat) (i : SysInit) (h0 : i.ok) (as : List FAct) (f : FSys)
    (hrun : i.fstart.run cfg l as = some f) (hc : f.ts.sys.crashed = none) (hr : clockedRest cfg l f) :
    atRest cfg (f.ts.plain i) :=
  rest_plain h0.good (clocked_reach h0 hrun) hc hr

/-- C81: in a deadlock the simulation hangs: if nothing is ever done again and a tile process has not returned, then
for every time there is a continuation up to that time, and in no continuation the tile process returns. -/
theorem C81_deadlock_hangs (cfg : SysCfg) (l : StageLat) (i : SysInit) (h0 : i.ok) (as : List FAct) (f : FSys)
    (hrun : i.fstart.run cfg l as = some f) (hc : f.ts.sys.crashed = none) (hr : clockedRest cfg l f) (t : Nat)
    (ht : t < cfg.net.tiles) (ha : f.active t = none) :
    (∀ T, ∃ bs f', f.run cfg l bs = some f' ∧ T ≤ f'.ts.now ∧ f'.ts.sys.crashed = none) ∧
    ∀ bs f', f.run cfg l bs = some f' → f'.active t = none := by
  have hI := clocked_reach h0 hrun
  constructor
  · intro T
    obtain ⟨bs, f', h1, h2⟩ := rest_later h0.good hI hc hr T
    exact ⟨bs, f', h1, by rw [h2.now]; omega, by rw [h2.crashed]; exact hc⟩
  · intro bs f' hb
    have same : ∀ (bs : List FAct) (g : FSys), clockedRest cfg l g → g.run cfg l bs = some f' → f'.active = g.active := by
      intro bs
      induction bs with
      | nil => intro g _ h; injection h with h; rw [h]
      | cons a bs ih =>
        intro g hg h
        have hid := hg (a :: bs) f' h a (by simp)
        simp only [FSys.run, Option.bind_eq_some_iff] at h
        obtain ⟨u, h1, h2⟩ := h
        rw [ih u (rest_run hg (as := [a]) (by simp [FSys.run, h1])) h2]
        have hc := fact_alive h1
        unfold FSys.act at h1
        rw [if_neg (by rw [hc]; simp)] at h1
        cases a with
        | t b =>
          cases b with
          | tick =>
            dsimp only at h1
            split at h1
            · rw [Option.map_eq_some_iff] at h1
              obtain ⟨ts, -, rfl⟩ := h1
              rfl
            · cases h1
          | _ => cases hid
        | recheck j =>
          dsimp only at h1
          split at h1
          · rw [Option.map_eq_some_iff] at h1
            obtain ⟨k, -, rfl⟩ := h1
            rfl
          · cases h1
        | monitor =>
          dsimp only at h1
          rw [Option.map_eq_some_iff] at h1
          obtain ⟨k, -, rfl⟩ := h1
          rfl
    rw [same bs f hr hb]
    exact ha

/-- C81: one simulation is enough. If a program was once simulated to its end with some latencies, no word was given two
different values, and at most one process of every tile reads its DRAM, then with all latencies that are there and not
negative: no process raises; the simulation can be continued until nothing is ever done again; and then all programs
have been executed to their ends, all tile processes have returned, and the registers, the contents of the DRAMs, and
what every process has done are the same as in the first simulation. -/
theorem C81_one_simulation_is_enough (cfg cfg' : SysCfg) (hm : sameMachine cfg cfg') (l l' : StageLat) (i : SysInit)
    (h0 : i.ok) (h1 : oneReader cfg i) (hl : latenciesOk cfg' i) (as as' : List FAct) (F f : FSys)
    (hF : i.fstart.run cfg l as = some F) (hfin : F.ts.finished cfg i) (hr : clockedRest cfg l F)
    (hv : singleAssignment cfg i F.ts.sys) (hf : i.fstart.run cfg' l' as' = some f) :
    f.ts.sys.crashed = none ∧
    (∃ bs f', f.run cfg' l' bs = some f' ∧ clockedRest cfg' l' f') ∧
    ∀ bs f', f.run cfg' l' bs = some f' → clockedRest cfg' l' f' →
      f'.ts.finished cfg' i ∧ allReturned cfg' f' ∧ ∀ t < cfg.net.tiles,
        (f'.ts.sys.tile t).log = (F.ts.sys.tile t).log ∧
        (∀ k < cfg.cores, ((f'.ts.sys.tile t).core k).log = ((F.ts.sys.tile t).core k).log ∧
          ((f'.ts.sys.tile t).core k).core = ((F.ts.sys.tile t).core k).core) ∧
        (∀ a < (i.mem t).size, (f'.ts.sys.tile t).ctrl.valid[a]? = (F.ts.sys.tile t).ctrl.valid[a]? ∧
          (f'.ts.sys.tile t).ctrl.mem.cells[a]? = (F.ts.sys.tile t).ctrl.mem.cells[a]?) := by
  have hI := clocked_reach h0 hF
  obtain ⟨bs0, hp⟩ := plain_run h0.good hI
  have hrest := C81_no_new_deadlock cfg l i h0 as F hF hfin.1 hr
  have alive : ∀ {cs : List FAct} {g : FSys}, i.fstart.run cfg' l' cs = some g → g.ts.sys.crashed = none := by
    intro cs g hg
    obtain ⟨bs, hb⟩ := plain_run h0.good (clocked_reach h0 hg)
    exact C80_never_raises cfg cfg' hm i h0 hl bs0 bs (F.ts.plain i) (g.ts.plain i) hp
      (finished_plain hfin) hrest hv hb
  refine ⟨alive hf, C81_comes_to_rest cfg' l' i h0 as' f hf, fun bs f' hb hr' => ?_⟩
  have hrun := frun_append_some hf hb
  have hI' := clocked_reach h0 hrun
  have hc := alive hrun
  obtain ⟨cs, hcs⟩ := plain_run h0.good hI'
  have hrest' := C81_no_new_deadlock cfg' l' i h0 _ f' hrun hc hr'
  have hfin' := C78_finishes cfg cfg' hm i h0 h1 bs0 cs _ _ hp hcs (finished_plain hfin) hv hc hrest'
  refine ⟨finished_of_plain (hI'.both h0.good).1 hfin', fun t ht hnone => ?_,
    C44_same_result cfg cfg' hm i h0 bs0 cs (F.ts.plain i) (f'.ts.plain i) hp hcs
      (finished_plain hfin) hfin' hv⟩
  have h2 : f'.active t = _ := (hI'.tile hc t ht).active
  have h3 : (f'.ts.sys.tile t).phase = .ready := (hfin'.2 t ht).1
  have h4 : (f'.ts.sys.tile t).ops = [] := (hfin'.2 t ht).2.1
  rw [if_pos (by show ((f'.ts.sys.tile t).phase.isReady && (f'.ts.sys.tile t).ops.isEmpty) = true; rw [h3, h4]; rfl)] at h2
  rw [hnone] at h2
  cases h2

/-! The program of C42 with two sets of latencies (C73), and a program that waits for data that never come (C61). -/

/-- A check for `TSys.PipesStill`. -/
def TSys.pipesCheck (cfg : SysCfg) (l : StageLat) (s : TSys) : Bool :=
  (List.range cfg.net.tiles).all fun t => (List.range cfg.cores).all fun k =>
    notBusy ((s.pipe t k).st.ctl 0) && notBusy ((s.pipe t k).st.ctl 1) &&
    (decide (((s.sys.tile t).core k).phase ≠ .halting) || notBusy ((s.pipe t k).st.ctl 2)) &&
    ([.feedIn, .take 0, .start 0, .finish 0, .putIn 0, .next 0, .take 1, .start 1, .finish 1, .putIn 1, .next 1,
      .take 2, .putIn 2, .next 2, .monitor, .signal] : List Pipeline.PAct).all fun a =>
        ((s.pipe t k).move isHlt 3 l.lat a).isNone

theorem pipesStill_of_check {cfg : SysCfg} {l : StageLat} {s : TSys} (h : s.pipesCheck cfg l = true) :
    s.PipesStill cfg l := by
  unfold TSys.pipesCheck at h
  simp only [List.all_eq_true, List.mem_range, Bool.and_eq_true, Bool.or_eq_true, decide_eq_true_eq,
    Option.isNone_iff_eq_none] at h
  have key : ∀ t k, cfg.hasCore t k = true → _ := fun t k hk => h t (hasCore_tile hk) k (hasCore_core hk)
  have nb : ∀ {c : Pipeline.Ctl CoreOp}, notBusy c = true → ∀ op, c ≠ .busy op := by
    intro c hc op e; rw [e] at hc; cases hc
  refine ⟨fun t k hk a h1 h2 => ?_, fun t k hk j hj op => ?_, fun t k hk hp op => ?_⟩
  · have hm := (key t k hk).2
    cases a with
    | feedIn => exact hm _ (by simp)
    | monitor => exact hm _ (by simp)
    | signal => exact hm _ (by simp)
    | tick => rfl
    | take j =>
      rcases j with _ | _ | _ | j
      · exact hm _ (by simp)
      · exact hm _ (by simp)
      · exact hm _ (by simp)
      · simp [Pipeline.Timed.move]
    | start j =>
      rcases j with _ | _ | _ | j
      · exact hm _ (by simp)
      · exact hm _ (by simp)
      · exact absurd rfl h1
      · simp [Pipeline.Timed.move]
    | finish j =>
      rcases j with _ | _ | _ | j
      · exact hm _ (by simp)
      · exact hm _ (by simp)
      · exact absurd rfl h2
      · simp [Pipeline.Timed.move]
    | putIn j =>
      rcases j with _ | _ | _ | j
      · exact hm _ (by simp)
      · exact hm _ (by simp)
      · exact hm _ (by simp)
      · simp [Pipeline.Timed.move]
    | next j =>
      rcases j with _ | _ | _ | j
      · exact hm _ (by simp)
      · exact hm _ (by simp)
      · exact hm _ (by simp)
      · simp [Pipeline.Timed.move]
  · obtain ⟨⟨⟨h0, h1⟩, -⟩, -⟩ := key t k hk
    rcases j with _ | _ | j
    · exact nb h0 op
    · exact nb h1 op
    · omega
  · obtain ⟨⟨-, h2⟩, -⟩ := key t k hk
    exact nb (h2.resolve_left fun e => e hp) op

theorem clockedRest_of_check {cfg : SysCfg} {l : StageLat} {i : SysInit} (h0 : i.ok) {as : List FAct} {f : FSys}
    (hrun : i.fstart.run cfg l as = some f) (h : ((f.ts.plain i).stuck cfg && f.ts.pipesCheck cfg l) = true) :
    clockedRest cfg l f := by
  rw [Bool.and_eq_true] at h
  intro bs f' hb
  exact rest_of_still h0.good bs (clocked_reach h0 hrun) (atRest_of_stuck h.1) (pipesStill_of_check h.2) hb

theorem clockedRun_rest : clockedRest quickSys demoStages clockedRun.2 :=
  clockedRest_of_check demoInit_ok clockedRun_runs (by decide +kernel)

theorem clockedRun_single : singleAssignment quickSys demoInit clockedRun.2.ts.sys := by
  have hb : ∀ t < 2, ∀ w ∈ writesOf (clockedRun.2.ts.sys.tile t).ctrl.answers, w.start + w.length ≤ 8 := by decide +kernel
  have h : ∀ t < 2, ∀ w ∈ writesOf (clockedRun.2.ts.sys.tile t).ctrl.answers, ∀ a < 8, covers w a →
      ((demoInit.valid t).getD a false = true → w.value a = (demoInit.mem t).cells.getD a 0) ∧
      ∀ w' ∈ writesOf (clockedRun.2.ts.sys.tile t).ctrl.answers, covers w' a → w'.value a = w.value a := by decide +kernel
  intro t ht w hw a ha
  refine h t ht w hw a ?_ ha
  have := hb t ht w hw
  have := ha.2
  omega

theorem clockedRun_finished : clockedRun.2.ts.finished quickSys demoInit := finished_of_check (by decide +kernel)

example : clockedWork quickSys demoInit = 218 ∧ (clockedRun.1.filter fun a => !idleAct a).length = 191 ∧
    (otherClockedRun.1.filter fun a => !idleAct a).length = 190 := by decide +kernel
example := C81_bounded quickSys demoStages demoInit demoInit_ok clockedRun.1 clockedRun.2 clockedRun_runs
example := C81_time_passes quickSys demoStages demoInit demoInit_ok clockedRun.1 clockedRun.2 clockedRun_runs
example := C81_always_events quickSys demoStages demoInit demoInit_ok clockedRun.1 clockedRun.2 clockedRun_runs clockedRun_does.1
example := C81_comes_to_rest quickSys demoStages demoInit demoInit_ok clockedRun.1 clockedRun.2 clockedRun_runs
example := C81_no_new_deadlock quickSys demoStages demoInit demoInit_ok clockedRun.1 clockedRun.2 clockedRun_runs
  clockedRun_does.1 clockedRun_rest

/-- The one simulation decides about all simulations with the latencies of `slowSys`, whatever the latencies of the
pipelines are. -/
example (l : StageLat) (as : List FAct) (f : FSys) (hf : demoInit.fstart.run slowSys l as = some f) :=
  C81_one_simulation_is_enough quickSys slowSys ⟨rfl, rfl, rfl, rfl⟩ demoStages l demoInit demoInit_ok demoInit_oneReader
    slow_latenciesOk clockedRun.1 as clockedRun.2 f clockedRun_runs clockedRun_finished clockedRun_rest clockedRun_single hf

/-- Nothing but the passing of time is left. -/
def hungRun : List FAct × FSys :=
  FSys.auto quickSys demoStages (fun f => (f.ts.plain stuckInit).stuck quickSys && f.ts.pipesCheck quickSys demoStages)
    twoClocked 300 stuckInit.fstart

theorem stuckInit_ok : stuckInit.ok := fun _ => ⟨rfl, rfl⟩

theorem hungRun_runs : stuckInit.fstart.run quickSys demoStages hungRun.1 = some hungRun.2 := fauto_runs _ _ _ _ _ _

theorem hungRun_does : hungRun.2.ts.sys.crashed = none ∧ hungRun.2.active 0 = some 12 ∧ hungRun.2.active 1 = none ∧
    ((hungRun.2.ts.plain stuckInit).stuck quickSys && hungRun.2.ts.pipesCheck quickSys demoStages) = true := by
  decide +kernel

/-- Tile 1 waits for data that nobody sends, and the simulator goes on for ever. -/
example := C81_deadlock_hangs quickSys demoStages stuckInit stuckInit_ok hungRun.1 hungRun.2 hungRun_runs hungRun_does.1
  (clockedRest_of_check stuckInit_ok hungRun_runs hungRun_does.2.2.2) 1 (by decide) hungRun_does.2.2.1

end Ramwich
