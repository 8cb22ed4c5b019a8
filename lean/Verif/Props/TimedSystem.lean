import Verif.Lemmas.TimedSysEnd
import Verif.Props.System
import Verif.Props.TimedPipeline
import Verif.Props.TimedSystemDemo

/-! # A node with pipelines and a clock (C61, C62)

C42-C46 are about cores that execute their operations one after the other. Here they are carried over to
cores with pipelines, and the times of the operations are determined. -/
namespace Ramwich

open Spec Pipeline

/-! ## C61: the pipelines change nothing but time -/

theorem timed_reach {cfg : SysCfg} {l : StageLat} {i : SysInit} (h0 : i.ok) {acts : List TAct} {s : TSys}
    (hrun : i.tstart.run cfg l acts = some s) :
    TSI cfg l i s ∧ ∃ as, i.start.run cfg as = some (s.plain i) :=
  tsys_run h0.good acts (tsi_start cfg l i) ⟨[], rfl⟩ hrun

/-- C61: every run of a node whose cores have pipelines is a run of the node whose cores execute their operations
one after the other: the two agree on everything but the clock of the pipelines, and each core has those
operations left that its execution stage has not started. -/
theorem C61_refines (cfg : SysCfg) (l : StageLat) (i : SysInit) (h0 : i.ok) (acts : List TAct) (s : TSys)
    (hrun : i.tstart.run cfg l acts = some s) : ∃ as, i.start.run cfg as = some (s.plain i) :=
  (timed_reach h0 hrun).2

theorem timedRun_runs : demoInit.tstart.run demoSys demoStages timedRun.1 = some timedRun.2 :=
  tauto_runs demoSys demoStages _ twoPipes 300 demoInit.tstart
theorem otherTimedRun_runs : demoInit.tstart.run slowSys ⟨3, 2⟩ otherTimedRun.1 = some otherTimedRun.2 :=
  tauto_runs slowSys ⟨3, 2⟩ _ _ 400 demoInit.tstart

example := C61_refines demoSys demoStages demoInit demoInit_ok timedRun.1 timedRun.2 timedRun_runs
example : (timedRun.1.length, bothHalted timedRun.2.sys, timedRun.2.now) = (217, true, 26) := by decide +kernel

/-- C61: the pipeline of every core is a pipeline in the sense of C59 and C60, started at time 0 with the program
of the core, and has the common clock. -/
theorem C61_pipelines (cfg : SysCfg) (l : StageLat) (i : SysInit) (h0 : i.ok) (acts : List TAct) (s : TSys)
    (hrun : i.tstart.run cfg l acts = some s) (t k : Nat) (ht : t < cfg.net.tiles) (hk : k < cfg.cores) :
    (∃ ps, (Timed.init (i.prog t k) 0).run isHlt 3 l.lat ps = some (s.pipe t k)) ∧ (s.pipe t k).now = s.now := by
  have h := (timed_reach h0 hrun).1
  have hc : cfg.hasCore t k = true := by
    unfold SysCfg.hasCore
    simp [ht, hk]
  exact ⟨h.pipes t k hc, h.pnow t k hc⟩

example := C61_pipelines demoSys demoStages demoInit demoInit_ok timedRun.1 timedRun.2 timedRun_runs 1 0 (by decide) (by decide)
example : ((timedRun.2.pipe 1 0).starts 2, (timedRun.2.pipe 1 0).finishes 2) = ([2, 3, 25], [3, 25, 26]) := by decide +kernel

/-- C61: what a core with a pipeline has done when it has returned: its program in program order, up to the first
hlt (`coreRan`, the instruction set of a core alone), with the data that the DRAM answered. -/
theorem C61_program_order (cfg : SysCfg) (l : StageLat) (i : SysInit) (h0 : i.ok) (acts : List TAct) (s : TSys)
    (hrun : i.tstart.run cfg l acts = some s) (t k : Nat)
    (hp : ((s.sys.tile t).core k).phase = .halted) :
    coreRan cfg.fl (cfg.noise t k) 0 (i.core t k) (i.prog t k) ((s.sys.tile t).core k).log
      ((s.sys.tile t).core k).core [] ∧
    (∀ e ∈ ((s.sys.tile t).core k).log, ∀ dest read w v, e.op = .load dest read w v →
      ∃ r tm, .read r tm e.data ∈ (s.sys.tile t).ctrl.answers ∧ r.start = e.addr ∧ r.kind = .read w v) ∧
    (∀ e ∈ ((s.sys.tile t).core k).log, ∀ dest read w v, e.op = .store dest read w v →
      ∃ r tm, .wrote r tm ∈ (s.sys.tile t).ctrl.answers ∧ r.start = e.addr ∧ r.kind = .write e.data v.toNat) := by
  obtain ⟨hi, as, hr⟩ := timed_reach h0 hrun
  have hinv := sysInv_run h0.good as _ hr
  have hc := (hinv.tile t).cores k
  obtain ⟨cv, rest, h1, h2⟩ := hc.ran
  unfold CorePhaseOk at h2
  have hp' : (((s.plain i).tile t).core k).phase = .halted := hp
  rw [hp'] at h2
  refine ⟨?_, hc.loads, fun e he dest read w v hop => ?_⟩
  · rw [← h2.1, h2.2.2] at h1
    exact h1
  · rcases hc.stores e he dest read w v hop with h3 | h3
    · exact h3
    · rw [hp'] at h3
      cases h3

example := C61_program_order demoSys demoStages demoInit demoInit_ok timedRun.1 timedRun.2 timedRun_runs 1 0 (by decide +kernel)
example : (((timedRun.2.sys.tile 1).core 0).log.map fun e => (e.op, e.data)) =
    [(.set 16 2 1, []), (.load 24 16 2 2, [7, 7, 7, 9]), (.hlt, [])] := by decide +kernel

/-- C61: the results do not depend on the latencies of the pipelines: of two finished runs with any latencies, of
which the first has given no DRAM word two different values, the histories of all processes are the same, and so
are the registers and the contents of the DRAMs and their validity. -/
theorem C61_same_result (cfg cfg' : SysCfg) (hm : sameMachine cfg cfg') (l l' : StageLat) (i : SysInit) (h0 : i.ok)
    (acts acts' : List TAct) (F F' : TSys) (hF : i.tstart.run cfg l acts = some F)
    (hF' : i.tstart.run cfg' l' acts' = some F') (hfin : F.finished cfg i) (hfin' : F'.finished cfg' i)
    (hv : singleAssignment cfg i F.sys) (t : Nat) (ht : t < cfg.net.tiles) :
    (F'.sys.tile t).log = (F.sys.tile t).log ∧
    (∀ k < cfg.cores, ((F'.sys.tile t).core k).log = ((F.sys.tile t).core k).log ∧
      ((F'.sys.tile t).core k).core = ((F.sys.tile t).core k).core) ∧
    (∀ a < (i.mem t).size, (F'.sys.tile t).ctrl.valid[a]? = (F.sys.tile t).ctrl.valid[a]? ∧
      (F'.sys.tile t).ctrl.mem.cells[a]? = (F.sys.tile t).ctrl.mem.cells[a]?) := by
  obtain ⟨as, h⟩ := C61_refines cfg l i h0 acts F hF
  obtain ⟨as', h'⟩ := C61_refines cfg' l' i h0 acts' F' hF'
  have fin : ∀ {cfg : SysCfg} {F : TSys}, F.finished cfg i → Spec.finished cfg (F.plain i) := by
    intro cfg F ⟨h1, h2⟩
    refine ⟨h1, fun t ht => ⟨(h2 t ht).1, (h2 t ht).2.1, fun k hk => ?_⟩⟩
    rcases (h2 t ht).2.2 k hk with h3 | ⟨h3, h4⟩
    · exact Or.inl h3
    · refine Or.inr ⟨h3, ?_⟩
      change leftOf _ _ = []
      unfold leftOf
      rw [h4]
      simp
  exact C44_same_result cfg cfg' hm i h0 as as' _ _ h h' (fin hfin) (fin hfin') hv t ht

theorem finished_of_check {cfg : SysCfg} {i : SysInit} {s : TSys}
    (h : (s.sys.crashed.isNone && (List.range cfg.net.tiles).all fun t =>
      decide ((s.sys.tile t).phase = .ready) && (s.sys.tile t).ops.isEmpty &&
        (List.range cfg.cores).all fun k => decide (((s.sys.tile t).core k).phase = .halted)) = true) :
    s.finished cfg i := by
  simp only [Bool.and_eq_true, List.all_eq_true, List.mem_range, decide_eq_true_eq, Option.isNone_iff_eq_none,
    List.isEmpty_iff] at h
  exact ⟨h.1, fun t ht => ⟨(h.2 t ht).1.1, (h.2 t ht).1.2, fun k hk => Or.inl ((h.2 t ht).2 k hk)⟩⟩

theorem timedRun_single : singleAssignment demoSys demoInit timedRun.2.sys := by
  have hb : ∀ t < 2, ∀ w ∈ writesOf (timedRun.2.sys.tile t).ctrl.answers, w.start + w.length ≤ 8 := by decide +kernel
  have h : ∀ t < 2, ∀ w ∈ writesOf (timedRun.2.sys.tile t).ctrl.answers, ∀ a < 8, covers w a →
      ((demoInit.valid t).getD a false = true → w.value a = (demoInit.mem t).cells.getD a 0) ∧
      ∀ w' ∈ writesOf (timedRun.2.sys.tile t).ctrl.answers, covers w' a → w'.value a = w.value a := by decide +kernel
  intro t ht w hw a ha
  refine h t ht w hw a ?_ ha
  have := hb t ht w hw
  have := ha.2
  omega

example := C61_same_result demoSys slowSys ⟨rfl, rfl, rfl, rfl⟩ demoStages ⟨3, 2⟩ demoInit demoInit_ok timedRun.1
  otherTimedRun.1 timedRun.2 otherTimedRun.2 timedRun_runs otherTimedRun_runs (finished_of_check (by decide +kernel))
  (finished_of_check (by decide +kernel)) timedRun_single 1 (by decide)

/-- C61: the pipelines add no deadlock: when nothing can happen any more at the current time and no core is in a
`timeout`, the node without pipelines cannot do anything at the current time either. -/
theorem C61_no_new_deadlock (cfg : SysCfg) (l : StageLat) (i : SysInit) (h0 : i.ok) (acts : List TAct) (s : TSys)
    (hrun : i.tstart.run cfg l acts = some s) (hs : s.still cfg l) (a : SysAct) (ha : ∀ t, a ≠ .ctrl t .tick) :
    (s.plain i).act cfg a = none := by
  obtain ⟨hi, as, hr⟩ := timed_reach h0 hrun
  exact still_plain hi hs.stalled (fun hc => ((sysInv_run h0.good as _ hr).alive hc).2) a ha

example := C61_no_new_deadlock demoSys demoStages stuckInit (fun _ => ⟨rfl, rfl⟩) stuckRun.1 stuckRun.2
  (tauto_runs demoSys demoStages _ twoPipes 300 stuckInit.tstart) (still_of_check (by decide +kernel))
example : ((stuckRun.2.sys.tile 1).core 0).phase = .loadWait 0 2 24 16 2 2 := by decide +kernel

/-! ## C62: how long the operations of a core take -/

section
variable (cfg : SysCfg) (l : StageLat) (i : SysInit) (h0 : i.ok) (acts : List TAct) (s : TSys)
  (hrun : i.tstart.run cfg l acts = some s) (hc : s.sys.crashed = none) (t k : Nat) (ht : t < cfg.net.tiles)
  (hk : k < cfg.cores)

include h0 hrun hc ht hk

theorem took_of (n : Nat) (hn : n < ((s.pipe t k).finishes 2).length) :
    ∃ op, (i.prog t k)[n]? = some op ∧
      Took cfg k (s.sys.tile t).ctrl op (((s.pipe t k).starts 2).getD n 0) (((s.pipe t k).finishes 2).getD n 0) := by
  obtain ⟨hi, -⟩ := timed_reach h0 hrun
  have hhc : cfg.hasCore t k = true := by
    unfold SysCfg.hasCore
    simp [ht, hk]
  obtain ⟨op, h1, h2⟩ := (hi.core hc t k hhc).past n hn
  obtain ⟨r, hr⟩ := (hi.tinv hhc).inv.prefix_prog (i := 2) (by omega)
  refine ⟨op, ?_, h2⟩
  rw [← hr, List.getElem?_append_left (List.getElem?_eq_some_iff.1 h1).1]
  exact h1

omit hc ht hk in
theorem answer_bound (a : Answer) (ha : a ∈ (s.sys.tile t).ctrl.answers) :
    0 ≤ cfg.edramLat * a.req.numBatches ∧ (a.req.submitTime : Int) + cfg.edramLat * a.req.numBatches ≤ a.time := by
  obtain ⟨-, as, hr⟩ := timed_reach h0 hrun
  have hinv := sysInv_run h0.good as _ hr
  have := (ctrlInv_of (h0.good t) (hinv.tile t).ctrl).time.answered a ha
  unfold service waited at this
  omega

/-- C62, loads: if the `n`-th operation of the core is a load of `v` words, its request is submitted when the
execution stage starts it; the answer comes at least `edram_lat * v` cycles later; and the operation finishes
exactly `dataMem_lat * v` cycles after the answer. -/
theorem C62_load (n : Nat) (hn : n < ((s.pipe t k).finishes 2).length) (dest read w v : Int)
    (hop : (i.prog t k)[n]? = some (.load dest read w v)) :
    ∃ (r : Req) (tm : Nat) (data : List I32), .read r tm data ∈ (s.sys.tile t).ctrl.answers ∧
      r.core = (k : Int) ∧ r.kind = .read w v ∧ r.submitTime = ((s.pipe t k).starts 2).getD n 0 ∧
      (r.submitTime : Int) + cfg.edramLat * v ≤ tm ∧
      ((((s.pipe t k).finishes 2).getD n 0 : Nat) : Int) = tm + cfg.dataMemLat * v ∧
      0 ≤ cfg.edramLat * v ∧ 0 ≤ cfg.dataMemLat * v := by
  obtain ⟨op, h1, h2⟩ := took_of cfg l i h0 acts s hrun hc t k ht hk n hn
  rw [h1] at hop
  cases hop
  obtain ⟨r, tm, data, g1, g2, g3, g4, g5, g6⟩ := h2
  have hb := answer_bound cfg l i h0 acts s hrun t _ g1
  have hnb : r.numBatches = v := by simp only [Req.numBatches, g3]
  simp only [Answer.req, Answer.time, hnb] at hb
  exact ⟨r, tm, data, g1, g2, g3, g4, hb.2, by rw [g6]; push_cast; rw [Int.toNat_of_nonneg g5], hb.1, g5⟩

example := C62_load demoSys demoStages demoInit demoInit_ok timedRun.1 timedRun.2 timedRun_runs (by decide +kernel) 1 0
  (by decide) (by decide) 1 (by decide +kernel) 24 16 2 2 rfl

/-- C62, stores: if the `n`-th operation of the core is a store of `v` words, its request is submitted exactly
`dataMem_lat * v` cycles after the execution stage starts it; the operation finishes when the request is answered, at
least `edram_lat * v` cycles later. -/
theorem C62_store (n : Nat) (hn : n < ((s.pipe t k).finishes 2).length) (dest read w v : Int)
    (hop : (i.prog t k)[n]? = some (.store dest read w v)) :
    ∃ (r : Req) (tm : Nat) (data : List I32), .wrote r tm ∈ (s.sys.tile t).ctrl.answers ∧
      r.core = (k : Int) ∧ r.kind = .write data v.toNat ∧
      (r.submitTime : Int) = ((s.pipe t k).starts 2).getD n 0 + cfg.dataMemLat * v ∧
      (r.submitTime : Int) + cfg.edramLat * v.toNat ≤ tm ∧
      ((s.pipe t k).finishes 2).getD n 0 = tm ∧
      0 ≤ cfg.edramLat * v.toNat ∧ 0 ≤ cfg.dataMemLat * v := by
  obtain ⟨op, h1, h2⟩ := took_of cfg l i h0 acts s hrun hc t k ht hk n hn
  rw [h1] at hop
  cases hop
  obtain ⟨r, tm, data, g1, g2, g3, g4, g5, g6⟩ := h2
  have hb := answer_bound cfg l i h0 acts s hrun t _ g1
  have hnb : r.numBatches = v.toNat := by simp only [Req.numBatches, g3]
  simp only [Answer.req, Answer.time, hnb] at hb
  exact ⟨r, tm, data, g1, g2, g3, by rw [g5]; push_cast; rw [Int.toNat_of_nonneg g4], hb.2, g6, hb.1, g4⟩

example := C62_store demoSys demoStages demoInit demoInit_ok timedRun.1 timedRun.2 timedRun_runs (by decide +kernel) 0 0
  (by decide) (by decide) 3 (by decide +kernel) 16 20 2 2 rfl

/-- C62, all other operations finish exactly as many cycles after their start as `CoreExecutionTimingVisitor` says. -/
theorem C62_other (n : Nat) (hn : n < ((s.pipe t k).finishes 2).length) (op : CoreOp)
    (hop : (i.prog t k)[n]? = some op) (hl : op.isLocal = true) :
    ∃ d, cfg.execLat op = .ok d ∧ 0 ≤ d ∧
      ((((s.pipe t k).finishes 2).getD n 0 : Nat) : Int) = ((s.pipe t k).starts 2).getD n 0 + d := by
  obtain ⟨op', h1, h2⟩ := took_of cfg l i h0 acts s hrun hc t k ht hk n hn
  rw [h1] at hop
  cases hop
  cases op with
  | load => cases hl
  | store => cases hl
  | _ =>
    obtain ⟨d, g1, g2, g3⟩ := h2
    exact ⟨d, g1, g2, by rw [g3]; push_cast; rw [Int.toNat_of_nonneg g2]⟩

example := C62_other demoSys demoStages demoInit demoInit_ok timedRun.1 timedRun.2 timedRun_runs (by decide +kernel) 0 0
  (by decide) (by decide) 2 (by decide +kernel) (.set 23 9 1) rfl rfl

theorem min_le (n : Nat) (hn : n < ((s.pipe t k).finishes 2).length) (op : CoreOp)
    (hop : (i.prog t k)[n]? = some op) :
    cfg.minCycles op ≤ ((((s.pipe t k).finishes 2).getD n 0 - ((s.pipe t k).starts 2).getD n 0 : Nat) : Int) ∧
    (op.isLocal = true →
      cfg.minCycles op = ((((s.pipe t k).finishes 2).getD n 0 - ((s.pipe t k).starts 2).getD n 0 : Nat) : Int)) := by
  by_cases hl : op.isLocal = true
  · obtain ⟨d, g1, g2, g3⟩ := C62_other cfg l i h0 acts s hrun hc t k ht hk n hn op hop hl
    have : cfg.minCycles op = d := by
      cases op with
      | load => cases hl
      | store => cases hl
      | _ => simp only [SysCfg.minCycles, g1]
    rw [this]
    omega
  · cases op with
    | load dest read w v =>
      obtain ⟨r, tm, data, -, -, -, g4, g5, g6, g7, g8⟩ :=
        C62_load cfg l i h0 acts s hrun hc t k ht hk n hn dest read w v hop
      simp only [SysCfg.minCycles]
      refine ⟨by omega, fun h => absurd h hl⟩
    | store dest read w v =>
      obtain ⟨r, tm, data, -, -, -, g4, g5, g6, g7, g8⟩ :=
        C62_store cfg l i h0 acts s hrun hc t k ht hk n hn dest read w v hop
      simp only [SysCfg.minCycles]
      refine ⟨by omega, fun h => absurd h hl⟩
    | _ => exact absurd rfl hl

/-- C62: the cycles for which a core is active (from time 0 until its `done_event`): at least the fetch and
decode latency of one operation plus the least execution times of all operations up to the first hlt. If none
of these is a load or store, at most that with every execution time but that of the hlt raised to the fetch and decode
latencies. -/
theorem C62_cycles (pre post : List CoreOp) (hprog : i.prog t k = pre ++ .hlt :: post) (hpre : CoreOp.hlt ∉ pre)
    (hd : (s.pipe t k).st.done = true) :
    ∃ cycles : Nat, (s.pipe t k).doneAt = some cycles ∧
      (l.fetch + l.decode : Int) + ((pre ++ [CoreOp.hlt]).map cfg.minCycles).sum ≤ cycles ∧
      ((∀ op ∈ pre, op.isLocal = true) → (cycles : Int) ≤ l.fetch + l.decode +
        (pre.map fun op => max (cfg.minCycles op) (max l.fetch l.decode)).sum + cfg.minCycles .hlt) := by
  have hp := (C61_pipelines cfg l i h0 acts s hrun t k ht hk).1
  obtain ⟨ps, hps⟩ := hp
  rw [hprog] at hps
  have hpre' : ∀ x ∈ pre, isHlt x = false := by
    intro x hx
    cases x <;> first | rfl | exact absurd hx hpre
  obtain ⟨cycles, h1, h2, h3⟩ := C60_core_cycles isHlt l.fetch l.decode l.lat (fun _ => rfl) (fun _ => rfl) pre post
    .hlt rfl hpre' 0 ps _ hps hd
  have hlen := ((C59_done isHlt 3 (by omega) l.lat pre post .hlt rfl hpre' 0 ps _ hps hd).1 2 (by omega)).2.2.1
  have each : ∀ n op, (pre ++ [.hlt])[n]? = some op →
      cfg.minCycles op ≤ ((((s.pipe t k).finishes 2).getD n 0 - ((s.pipe t k).starts 2).getD n 0 : Nat) : Int) ∧
      (op.isLocal = true →
        cfg.minCycles op = ((((s.pipe t k).finishes 2).getD n 0 - ((s.pipe t k).starts 2).getD n 0 : Nat) : Int)) := by
    intro n op hop
    have hlt := (List.getElem?_eq_some_iff.1 hop).1
    rw [List.length_append, List.length_singleton] at hlt
    refine min_le cfg l i h0 acts s hrun hc t k ht hk n (by omega) op ?_
    rw [hprog, show pre ++ .hlt :: post = (pre ++ [.hlt]) ++ post by simp, List.getElem?_append_left (by simpa using hlt)]
    exact hop
  rw [Nat.zero_add] at h1
  refine ⟨cycles, h1, ?_, fun hloc => ?_⟩
  · have := sum_le_total (L := pre ++ [.hlt]) cfg.minCycles _ fun n op ho => (each n op ho).1
    rw [List.length_append, List.length_singleton] at this
    have h2' : ((l.fetch + l.decode + Pipeline.total (fun k_1 => ((s.pipe t k).finishes 2).getD k_1 0 -
      ((s.pipe t k).starts 2).getD k_1 0) (pre.length + 1) : Nat) : Int) ≤ cycles := by exact_mod_cast h2
    push_cast at h2'
    omega
  · have e1 := total_le_sum (L := pre) (fun op => max (cfg.minCycles op) (max (l.fetch : Int) l.decode))
      (fun k_1 => max (((s.pipe t k).finishes 2).getD k_1 0 - ((s.pipe t k).starts 2).getD k_1 0)
        (max l.fetch l.decode)) fun n op ho => by
      have h := (each n op (by
        rw [List.getElem?_append_left (List.getElem?_eq_some_iff.1 ho).1]
        exact ho)).2 (hloc op (List.mem_of_getElem? ho))
      rw [h]
      push_cast
      exact le_refl _
    have e2 := (each pre.length .hlt (by simp)).2 rfl
    have h3' : (cycles : Int) ≤ ((l.fetch + l.decode + Pipeline.total (fun k_1 =>
        max (((s.pipe t k).finishes 2).getD k_1 0 - ((s.pipe t k).starts 2).getD k_1 0) (max l.fetch l.decode))
        pre.length + (((s.pipe t k).finishes 2).getD pre.length 0 - ((s.pipe t k).starts 2).getD pre.length 0) : Nat) : Int) := by
      exact_mod_cast h3
    rw [Nat.cast_add, Nat.cast_add, Nat.cast_add] at h3'
    omega

end

example := C62_cycles demoSys demoStages demoInit demoInit_ok timedRun.1 timedRun.2 timedRun_runs (by decide +kernel) 0 0
  (by decide) (by decide) [.set 16 4 1, .set 20 7 3, .set 23 9 1, .store 16 20 2 2] [] rfl (by decide) (by decide +kernel)
example : (timedRun.2.pipe 0 0).doneAt = some 12 ∧
    2 + (([.set 16 4 1, .set 20 7 3, .set 23 9 1, .store 16 20 2 2, .hlt] : List CoreOp).map demoSys.minCycles).sum = 12 := by
  decide +kernel

end Ramwich
