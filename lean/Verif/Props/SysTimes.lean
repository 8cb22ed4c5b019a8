import Verif.Lemmas.SysTimes
import Verif.Lemmas.SysCode
import Verif.Props.TimedSystem

/-! # Contention for the DRAM of a tile (C65, C66)

The processes of a tile are its cores 0, 1, ... and the tile process, whose requests have core number -1. -/
namespace Ramwich

open Spec Pipeline

/-! ## Example runs -/

/-- Two tiles with two cores each. -/
def pairSys : SysCfg := { demoSys with cores := 2 }

/-- In tile 0 both cores store two words of four and one of them loads what it has stored; tile 0 then sends them to
tile 1. -/
def pairInit : SysInit :=
  { demoInit with
    prog := fun t k => if t = 0 then
        if k = 0 then [.set 16 4 1, .set 20 7 2, .store 16 20 2 1, .load 24 16 2 1, .hlt]
        else [.set 16 6 1, .set 20 9 2, .store 16 20 2 1, .hlt]
      else [.hlt]
    ops := fun t => if t = 0 then [.send 4 1 2 2, .halt] else [.receive 2 0 2 2, .halt] }

def pairPipes : List TAct :=
  coreActs 0 0 ++ coreActs 0 1 ++ coreActs 1 0 ++ coreActs 1 1 ++ (twoTiles.drop 2).map .other ++ [.tick]

def pairRun : List TAct × TSys :=
  TSys.auto pairSys demoStages (fun s => bothHalted s.sys) pairPipes 500 pairInit.tstart

/-- The same, but only core 0 of tile 0 uses its DRAM. -/
def soleInit : SysInit :=
  { pairInit with
    prog := fun t k => if k = 0 then pairInit.prog t k else [.set 16 6 1, .hlt]
    ops := fun _ => [.halt] }

def soleRun : List TAct × TSys :=
  TSys.auto pairSys demoStages (fun s => bothHalted s.sys) pairPipes 500 soleInit.tstart

theorem pairInit_ok : pairInit.ok := fun _ => ⟨rfl, rfl⟩
theorem soleInit_ok : soleInit.ok := fun _ => ⟨rfl, rfl⟩
theorem pairRun_runs : pairInit.tstart.run pairSys demoStages pairRun.1 = some pairRun.2 :=
  tauto_runs pairSys demoStages _ pairPipes 500 pairInit.tstart
theorem soleRun_runs : soleInit.tstart.run pairSys demoStages soleRun.1 = some soleRun.2 :=
  tauto_runs pairSys demoStages _ pairPipes 500 soleInit.tstart

/-! ## C65: how long a request waits

The runs are those of nodes whose cores execute their operations one after the other; by `C61_refines` the
theorems hold of nodes with pipelines, too. -/

section
variable (cfg : SysCfg) (i : SysInit) (h0 : i.ok) (as : List SysAct) (s : Sys) (hrun : i.start.run cfg as = some s)
  (t : Nat)

include h0 hrun

/-- C65: the requests of one process are answered one after the other, each before the next one is submitted. -/
theorem C65_in_turn (r r' : Req) (hr : r ∈ (s.tile t).ctrl.submitted) (hr' : r' ∈ (s.tile t).ctrl.submitted)
    (hcore : r.core = r'.core) (hid : r.id < r'.id) :
    ∃ (n : Nat) (a : Answer), (s.tile t).ctrl.answers[n]? = some a ∧ a.req = r ∧ a.time ≤ r'.submitTime ∧
      ∀ (m : Nat) (b : Answer), (s.tile t).ctrl.answers[m]? = some b → b.req = r' → n < m :=
  (ctrlUsed_run h0.good as s hrun t).seq r hr r' hr' hcore hid

/-- C65: a request that does not have to wait for data waits for at most one request of each of the other
processes of the tile: it is answered at the latest when these and then the request itself could have been
served; the clock does not pass that time before. -/
theorem C65_contention (r : Req) (hr : r ∈ (s.tile t).ctrl.submitted)
    (ht : timely (i.valid t) (s.tile t).ctrl.answers r) :
    ∃ L : List Req,
      (∀ x ∈ L, x ∈ (s.tile t).ctrl.submitted ∧ x.core ≠ r.core ∧ (x.core = -1 ∨ ∃ k : Nat, k < cfg.cores ∧ x.core = k)) ∧
      (L.map Req.core).Nodup ∧
      ((∃ a ∈ (s.tile t).ctrl.answers, a.req = r ∧
        a.time ≤ r.submitTime + workload cfg.edramLat L + serviceTime cfg.edramLat r) ∨
       (∀ a ∈ (s.tile t).ctrl.answers, a.req ≠ r) ∧
        (s.tile t).ctrl.now ≤ r.submitTime + workload cfg.edramLat L + serviceTime cfg.edramLat r) := by
  have hu := ctrlUsed_run h0.good as s hrun t
  obtain ⟨L, ⟨h1, h2⟩, h3⟩ := hu.fair r hr ht
  refine ⟨L, h1, h2, ?_⟩
  rcases h3 with ⟨a, g1, g2, g3, -⟩ | ⟨-, pre, post, g2, g3, -⟩
  · exact Or.inl ⟨a, g1, g2, g3⟩
  · refine Or.inr ⟨fun a ha hne => ?_, ?_⟩
    · exact line_open hu.all.inv.line (r := r) (by simp [g2]) ⟨a, ha, hne⟩
    · have := now_le _ _ _ hu.all.inv.time hu.all.busy r pre post g2
      omega

/-- C65: so if no request needs the DRAM for more than `S` cycles, it is answered within `cores * S` cycles plus
its own service time. -/
theorem C65_bound (S : Nat) (hS : ∀ x ∈ (s.tile t).ctrl.submitted, serviceTime cfg.edramLat x ≤ S) (a : Answer)
    (ha : a ∈ (s.tile t).ctrl.answers) (ht : timely (i.valid t) (s.tile t).ctrl.answers a.req) :
    a.time ≤ a.req.submitTime + cfg.cores * S + serviceTime cfg.edramLat a.req := by
  have hu := ctrlUsed_run h0.good as s hrun t
  have hr := answer_submitted hu.all.inv.line ha
  obtain ⟨L, h1, h2, h3⟩ := C65_contention cfg i h0 as s hrun t a.req hr ht
  have hlen : L.length ≤ cfg.cores := by
    -- the core numbers, without that of the request
    have hp := hu.procs a.req hr
    have hsub : L.map Req.core ⊆ ((-1 : Int) :: (List.range cfg.cores).map Nat.cast).erase a.req.core := by
      intro n hn
      obtain ⟨x, hx, rfl⟩ := List.mem_map.1 hn
      obtain ⟨-, g1, g2⟩ := h1 x hx
      rw [List.mem_erase_of_ne g1]
      rcases g2 with g2 | ⟨k, hk, g2⟩
      · rw [g2]; exact List.mem_cons_self
      · exact List.mem_cons_of_mem _ (List.mem_map.2 ⟨k, List.mem_range.2 hk, g2.symm⟩)
    have := (List.subperm_of_subset h2 hsub).length_le
    rw [List.length_erase_of_mem (by
      rcases hp with hp | ⟨k, hk, hp⟩
      · rw [hp]; exact List.mem_cons_self
      · exact List.mem_cons_of_mem _ (List.mem_map.2 ⟨k, List.mem_range.2 hk, hp.symm⟩))] at this
    simpa using this
  have hw : workload cfg.edramLat L ≤ L.length * S := by
    have hL : ∀ x ∈ L, serviceTime cfg.edramLat x ≤ S := fun x hx => hS x (h1 x hx).1
    clear * - hL
    induction L with
    | nil => simp [workload]
    | cons x xs ih =>
      have := ih fun y hy => hL y (List.mem_cons_of_mem _ hy)
      have := hL x List.mem_cons_self
      rw [workload_cons, List.length_cons, Nat.succ_mul]
      omega
  have hmul := Nat.mul_le_mul_right S hlen
  rcases h3 with ⟨b, g1, g2, g3⟩ | ⟨g1, -⟩
  · have : b = a := by
      have hnd : (((s.tile t).ctrl.answers).map Answer.req).Nodup :=
        (List.nodup_append.1 (hu.all.inv.line.perm.nodup_iff.2 (submitted_nodup _ hu.all.inv.line))).2.1
      exact List.inj_on_of_nodup_map hnd g1 ha g2
    rw [this] at g3
    omega
  · exact absurd rfl (g1 a ha)

/-- C65: if only one process uses the DRAM, each of its requests that is answered at all is answered after exactly
its service time. -/
theorem C65_alone (n : Int) (hn : ∀ r ∈ (s.tile t).ctrl.submitted, r.core = n) (a : Answer)
    (ha : a ∈ (s.tile t).ctrl.answers) : a.time = a.req.submitTime + serviceTime cfg.edramLat a.req := by
  have hu := ctrlUsed_run h0.good as s hrun t
  have hr := answer_submitted hu.all.inv.line ha
  have ht := timely_alone (h0.good t) hu hn ha
  obtain ⟨L, h1, h2, h3⟩ := C65_contention cfg i h0 as s hrun t a.req hr ht
  have hL : L = [] := by
    cases L with
    | nil => rfl
    | cons x xs =>
      obtain ⟨g1, g2, -⟩ := h1 x List.mem_cons_self
      exact absurd ((hn x g1).trans (hn _ hr).symm) g2
  subst hL
  have hb := hu.all.inv.time.answered a ha
  unfold service waited at hb
  rcases h3 with ⟨b, g1, g2, g3⟩ | ⟨g1, -⟩
  · have : b = a := by
      have hnd : (((s.tile t).ctrl.answers).map Answer.req).Nodup :=
        (List.nodup_append.1 (hu.all.inv.line.perm.nodup_iff.2 (submitted_nodup _ hu.all.inv.line))).2.1
      exact List.inj_on_of_nodup_map hnd g1 ha g2
    rw [this] at g3
    simp only [workload, List.map_nil, List.sum_nil, Nat.add_zero] at g3
    unfold serviceTime at g3 ⊢
    omega
  · exact absurd rfl (g1 a ha)

end

/-- The node without pipelines, both cores of both tiles. -/
def pairActs : List SysAct := [.core 0 1, .core 1 1] ++ twoTiles

def pairPlain : List SysAct × Sys := Sys.auto pairSys bothHalted pairActs twoClocks 300 pairInit.start
theorem pairPlain_runs : pairInit.start.run pairSys pairPlain.1 = some pairPlain.2 :=
  auto_runs pairSys bothHalted pairActs twoClocks 300 pairInit.start

def solePlain : List SysAct × Sys := Sys.auto pairSys bothHalted pairActs twoClocks 300 soleInit.start
theorem solePlain_runs : soleInit.start.run pairSys solePlain.1 = some solePlain.2 :=
  auto_runs pairSys bothHalted pairActs twoClocks 300 soleInit.start

/-- The store and the load of core 0, and the read of the Send. -/
def pairStore : Req := ⟨2, 0, 4, .write [7, 7] 1, 0⟩
def pairLoad : Req := ⟨3, 0, 4, .read 2 1, 4⟩
def pairSend : Req := ⟨1, -1, 4, .read 2 2, 0⟩

theorem pairPlain_answers : (pairPlain.2.tile 0).ctrl.answers =
    [.wrote ⟨0, 1, 6, .write [9, 9] 1, 0⟩ 2, .wrote pairStore 4, .read pairSend 8 [7, 7, 9, 9],
      .read pairLoad 10 [7, 7]] := by decide +kernel

theorem pairLoad_timely : timely (pairInit.valid 0) (pairPlain.2.tile 0).ctrl.answers pairLoad := by
  refine Or.inr ⟨by decide, by decide, fun a ha => Or.inr ⟨pairStore, 4, by rw [pairPlain_answers]; simp, by decide, ?_⟩⟩
  exact ha

example := C65_in_turn pairSys pairInit pairInit_ok pairPlain.1 pairPlain.2 pairPlain_runs 0 pairStore pairLoad
  (by decide +kernel) (by decide +kernel) rfl (by decide)
example := C65_contention pairSys pairInit pairInit_ok pairPlain.1 pairPlain.2 pairPlain_runs 0 pairLoad
  (by decide +kernel) pairLoad_timely
-- the load waits for the Send: submitted at 4, answered at 10
example : pairLoad.submitTime + workload pairSys.edramLat [pairSend] + serviceTime pairSys.edramLat pairLoad = 10 := by
  decide
example := C65_bound pairSys pairInit pairInit_ok pairPlain.1 pairPlain.2 pairPlain_runs 0 4 (by decide +kernel)
  (.read pairLoad 10 [7, 7]) (by decide +kernel) pairLoad_timely
example := C65_alone pairSys soleInit soleInit_ok solePlain.1 solePlain.2 solePlain_runs 0 0 (by decide +kernel)
  (.read ⟨1, 0, 4, .read 2 1, 2⟩ 4 [7, 7]) (by decide +kernel)

/-! ## C66: cycles of a core that loads and stores -/

section
variable (cfg : SysCfg) (l : StageLat) (i : SysInit) (h0 : i.ok) (acts : List TAct) (s : TSys)
  (hrun : i.tstart.run cfg l acts = some s) (hc : s.sys.crashed = none) (t k : Nat) (ht : t < cfg.net.tiles)
  (hk : k < cfg.cores)

include h0 hrun hc ht hk

/-- An operation that accesses the DRAM takes longer than `minCycles` by the time its request had to wait. -/
theorem access_time (n : Nat) (hn : n < ((s.pipe t k).finishes 2).length) (op : CoreOp)
    (hop : (i.prog t k)[n]? = some op) (hl : op.isLocal = false) :
    ∃ a ∈ (s.sys.tile t).ctrl.answers, a.req.core = (k : Int) ∧
      ((((s.pipe t k).finishes 2).getD n 0 - ((s.pipe t k).starts 2).getD n 0 : Nat) : Int) =
        cfg.minCycles op + ((a.time : Int) - (a.req.submitTime + serviceTime cfg.edramLat a.req : Nat)) := by
  cases op with
  | load dest read w v =>
    obtain ⟨r, tm, data, g1, g2, g3, g4, g5, g6, g7, g8⟩ :=
      C62_load cfg l i h0 acts s hrun hc t k ht hk n hn dest read w v hop
    refine ⟨_, g1, g2, ?_⟩
    have hnb : r.numBatches = v := by simp only [Req.numBatches, g3]
    simp only [SysCfg.minCycles, Answer.req, Answer.time, serviceTime, hnb]
    omega
  | store dest read w v =>
    obtain ⟨r, tm, data, g1, g2, g3, g4, g5, g6, g7, g8⟩ :=
      C62_store cfg l i h0 acts s hrun hc t k ht hk n hn dest read w v hop
    refine ⟨_, g1, g2, ?_⟩
    have hnb : r.numBatches = v.toNat := by simp only [Req.numBatches, g3]
    simp only [SysCfg.minCycles, Answer.req, Answer.time, serviceTime, hnb]
    omega
  | _ => cases hl

/-- C66: if no other process of the tile uses its DRAM, every operation takes exactly the least time. -/
theorem C66_alone_op (hother : ∀ r ∈ (s.sys.tile t).ctrl.submitted, r.core = (k : Int)) (n : Nat)
    (hn : n < ((s.pipe t k).finishes 2).length) (op : CoreOp) (hop : (i.prog t k)[n]? = some op) :
    ((((s.pipe t k).finishes 2).getD n 0 - ((s.pipe t k).starts 2).getD n 0 : Nat) : Int) = cfg.minCycles op := by
  cases hl : op.isLocal with
  | true => exact ((min_le cfg l i h0 acts s hrun hc t k ht hk n hn op hop).2 hl).symm
  | false =>
    obtain ⟨a, ha, -, h2⟩ := access_time cfg l i h0 acts s hrun hc t k ht hk n hn op hop hl
    obtain ⟨-, as, hr⟩ := timed_reach h0 hrun
    have := C65_alone cfg i h0 as _ hr t k hother a ha
    rw [h2, this]
    omega

/-- C66: an operation of a core whose requests do not have to wait for data takes at most `cores * S` cycles more
than the least time, if no request needs the DRAM for more than `S` cycles. -/
theorem C66_contended_op (S : Nat) (hS : ∀ x ∈ (s.sys.tile t).ctrl.submitted, serviceTime cfg.edramLat x ≤ S)
    (htime : ∀ r ∈ (s.sys.tile t).ctrl.submitted, r.core = (k : Int) →
      timely (i.valid t) (s.sys.tile t).ctrl.answers r) (n : Nat)
    (hn : n < ((s.pipe t k).finishes 2).length) (op : CoreOp) (hop : (i.prog t k)[n]? = some op) :
    ((((s.pipe t k).finishes 2).getD n 0 - ((s.pipe t k).starts 2).getD n 0 : Nat) : Int) ≤
      cfg.minCycles op + (if op.isLocal then 0 else cfg.cores * S : Nat) := by
  cases hl : op.isLocal with
  | true =>
    have := (min_le cfg l i h0 acts s hrun hc t k ht hk n hn op hop).2 hl
    simp only [if_true]
    omega
  | false =>
    obtain ⟨a, ha, h1, h2⟩ := access_time cfg l i h0 acts s hrun hc t k ht hk n hn op hop hl
    obtain ⟨-, as, hr⟩ := timed_reach h0 hrun
    have hline := (ctrlUsed_run h0.good as _ hr t).all.inv.line
    have := C65_bound cfg i h0 as _ hr t S hS a ha (htime _ (answer_submitted hline ha) h1)
    rw [h2]
    simp only [Bool.false_eq_true, if_false]
    omega

/-- The cycles of a core from bounds on the times of its operations. -/
theorem cycles_le (f : CoreOp → Int) (pre post : List CoreOp) (hprog : i.prog t k = pre ++ .hlt :: post)
    (hpre : CoreOp.hlt ∉ pre) (hd : (s.pipe t k).st.done = true)
    (hf : ∀ n op, n < ((s.pipe t k).finishes 2).length → (i.prog t k)[n]? = some op →
      ((((s.pipe t k).finishes 2).getD n 0 - ((s.pipe t k).starts 2).getD n 0 : Nat) : Int) ≤ f op) :
    ∃ cycles : Nat, (s.pipe t k).doneAt = some cycles ∧
      (cycles : Int) ≤ l.fetch + l.decode + (pre.map fun op => max (f op) (max l.fetch l.decode)).sum + f .hlt := by
  obtain ⟨ps, hps⟩ := (C61_pipelines cfg l i h0 acts s hrun t k ht hk).1
  rw [hprog] at hps
  have hpre' : ∀ x ∈ pre, isHlt x = false := by
    intro x hx
    cases x <;> first | rfl | exact absurd hx hpre
  obtain ⟨cycles, h1, -, h3⟩ := C60_core_cycles isHlt l.fetch l.decode l.lat (fun _ => rfl) (fun _ => rfl) pre post
    .hlt rfl hpre' 0 ps _ hps hd
  have hlen := ((C59_done isHlt 3 (by omega) l.lat pre post .hlt rfl hpre' 0 ps _ hps hd).1 2 (by omega)).2.2.1
  have each : ∀ n op, (pre ++ [.hlt])[n]? = some op →
      ((((s.pipe t k).finishes 2).getD n 0 - ((s.pipe t k).starts 2).getD n 0 : Nat) : Int) ≤ f op := by
    intro n op hop
    have hlt := (List.getElem?_eq_some_iff.1 hop).1
    rw [List.length_append, List.length_singleton] at hlt
    refine hf n op (by omega) ?_
    rw [hprog, show pre ++ .hlt :: post = (pre ++ [.hlt]) ++ post by simp, List.getElem?_append_left (by simpa using hlt)]
    exact hop
  rw [Nat.zero_add] at h1
  refine ⟨cycles, h1, ?_⟩
  have e1 := total_le_sum (L := pre) (fun op => max (f op) (max (l.fetch : Int) l.decode))
    (fun k_1 => max (((s.pipe t k).finishes 2).getD k_1 0 - ((s.pipe t k).starts 2).getD k_1 0)
      (max l.fetch l.decode)) fun n op ho => by
    have h := each n op (by
      rw [List.getElem?_append_left (List.getElem?_eq_some_iff.1 ho).1]
      exact ho)
    rw [Nat.cast_max, Nat.cast_max]
    omega
  have e2 := each pre.length .hlt (by simp)
  have h3' : (cycles : Int) ≤ ((l.fetch + l.decode + Pipeline.total (fun k_1 =>
      max (((s.pipe t k).finishes 2).getD k_1 0 - ((s.pipe t k).starts 2).getD k_1 0) (max l.fetch l.decode))
      pre.length + (((s.pipe t k).finishes 2).getD pre.length 0 - ((s.pipe t k).starts 2).getD pre.length 0) : Nat) : Int) := by
    exact_mod_cast h3
  rw [Nat.cast_add, Nat.cast_add, Nat.cast_add] at h3'
  omega

/-- C66: a core is the only user of the DRAM of its tile if the other cores neither load nor store and the tile
neither sends nor receives. Its cycles are then determined by its program up to the fetch and decode latencies, which
can delay operations that are faster; and exactly if there are none. -/
theorem C66_alone_cycles (hcores : ∀ j < cfg.cores, j ≠ k → ∀ op ∈ i.prog t j, op.isLocal = true)
    (htile : ∀ op ∈ i.ops t, op = .halt) (pre post : List CoreOp) (hprog : i.prog t k = pre ++ .hlt :: post)
    (hpre : CoreOp.hlt ∉ pre) (hd : (s.pipe t k).st.done = true) :
    ∃ cycles : Nat, (s.pipe t k).doneAt = some cycles ∧
      (l.fetch + l.decode : Int) + ((pre ++ [CoreOp.hlt]).map cfg.minCycles).sum ≤ cycles ∧
      (cycles : Int) ≤ l.fetch + l.decode + (pre.map fun op => max (cfg.minCycles op) (max l.fetch l.decode)).sum +
        cfg.minCycles .hlt ∧
      ((∀ op ∈ pre, (l.fetch : Int) ≤ cfg.minCycles op ∧ (l.decode : Int) ≤ cfg.minCycles op) →
        (cycles : Int) = l.fetch + l.decode + ((pre ++ [CoreOp.hlt]).map cfg.minCycles).sum) := by
  obtain ⟨-, as, hr⟩ := timed_reach h0 hrun
  have hsole : ∀ r ∈ (s.sys.tile t).ctrl.submitted, r.core = (k : Int) := by
    intro r hr'
    rcases (tileCode_run as _ hr t).reqs r hr' with ⟨-, h1⟩ | ⟨j, hj, h1, h2⟩
    · rcases h1 with ⟨_, _, _, _, h1, -⟩ | ⟨_, _, _, _, _, h1, -⟩ <;> cases htile _ h1
    · by_cases hjk : j = k
      · rw [h1, hjk]
      · rcases h2 with ⟨_, _, _, _, h2, -⟩ | ⟨_, _, _, _, _, h2, -⟩ <;> cases hcores j hj hjk _ h2
  obtain ⟨c1, h1, h2⟩ := cycles_le cfg l i h0 acts s hrun hc t k ht hk cfg.minCycles pre post hprog hpre hd
    fun n op hn ho => (C66_alone_op cfg l i h0 acts s hrun hc t k ht hk hsole n hn op ho).le
  obtain ⟨c2, h3, h4, -⟩ := C62_cycles cfg l i h0 acts s hrun hc t k ht hk pre post hprog hpre hd
  rw [h1] at h3
  cases h3
  refine ⟨c1, h1, h4, h2, fun hfast => ?_⟩
  have : (pre.map fun op => max (cfg.minCycles op) (max (l.fetch : Int) l.decode)) = pre.map cfg.minCycles := by
    refine List.map_congr_left fun op ho => ?_
    have := hfast op ho
    omega
  rw [this] at h2
  rw [List.map_append, List.sum_append] at h4 ⊢
  simp only [List.map_cons, List.map_nil, List.sum_cons, List.sum_nil, add_zero] at h4 ⊢
  omega

/-- C66: worst case with contention. If no Load, Store, Send or Recv of the tile has more than `V` words and no
request of the core has to wait for data, each Load and Store takes at most `cores * edram_lat * V` cycles more than
the least time. -/
theorem C66_contended_cycles (V : Int) (hV : 0 ≤ V) (hlat : 0 ≤ cfg.edramLat)
    (hcores : ∀ j < cfg.cores, ∀ op ∈ i.prog t j, coreBatches op ≤ V) (htile : ∀ op ∈ i.ops t, tileBatches op ≤ V)
    (htime : ∀ r ∈ (s.sys.tile t).ctrl.submitted, r.core = (k : Int) →
      timely (i.valid t) (s.sys.tile t).ctrl.answers r)
    (pre post : List CoreOp) (hprog : i.prog t k = pre ++ .hlt :: post)
    (hpre : CoreOp.hlt ∉ pre) (hd : (s.pipe t k).st.done = true) :
    ∃ cycles : Nat, (s.pipe t k).doneAt = some cycles ∧
      (cycles : Int) ≤ l.fetch + l.decode + (pre.map fun op =>
        max (cfg.minCycles op + if op.isLocal then 0 else cfg.cores * (cfg.edramLat * V)) (max l.fetch l.decode)).sum +
        cfg.minCycles .hlt := by
  obtain ⟨-, as, hr⟩ := timed_reach h0 hrun
  have hS : ∀ x ∈ (s.sys.tile t).ctrl.submitted, serviceTime cfg.edramLat x ≤ (cfg.edramLat * V).toNat := by
    intro x hx
    have hb : x.numBatches ≤ V := by
      rcases (tileCode_run as _ hr t).reqs x hx with ⟨-, h1⟩ | ⟨j, hj, -, h2⟩
      · rcases h1 with ⟨_, _, _, _, h1, h2⟩ | ⟨_, _, _, _, _, h1, h2⟩ <;>
          (have h3 := htile _ h1
           simp only [tileBatches] at h3
           simp only [Req.numBatches, h2]
           omega)
      · rcases h2 with ⟨_, _, _, _, h1, h2⟩ | ⟨_, _, _, _, _, h1, h2⟩ <;>
          (have h3 := hcores j hj _ h1
           simp only [coreBatches] at h3
           simp only [Req.numBatches, h2]
           omega)
    have := mul_le_mul_of_nonneg_left hb hlat
    unfold serviceTime
    omega
  have hm : 0 ≤ cfg.edramLat * V := mul_nonneg hlat hV
  obtain ⟨c, h1, h2⟩ := cycles_le cfg l i h0 acts s hrun hc t k ht hk
    (fun op => cfg.minCycles op + if op.isLocal then 0 else cfg.cores * (cfg.edramLat * V)) pre post hprog hpre hd
    (by
      intro n op hn ho
      have := C66_contended_op cfg l i h0 acts s hrun hc t k ht hk _ hS htime n hn op ho
      cases hl : op.isLocal with
      | true =>
        simp only [hl, if_true] at this ⊢
        omega
      | false =>
        simp only [hl, Bool.false_eq_true, if_false] at this ⊢
        rw [Nat.cast_mul, Int.toNat_of_nonneg hm] at this
        exact this)
  refine ⟨c, h1, ?_⟩
  simpa [CoreOp.isLocal] using h2

end

def soleProg : List CoreOp := [.set 16 4 1, .set 20 7 2, .store 16 20 2 1, .load 24 16 2 1]

example := C66_alone_op pairSys demoStages soleInit soleInit_ok soleRun.1 soleRun.2 soleRun_runs (by decide +kernel) 0 0
  (by decide) (by decide) (by decide +kernel) 3 (by decide +kernel) (.load 24 16 2 1) rfl
example := C66_alone_cycles pairSys demoStages soleInit soleInit_ok soleRun.1 soleRun.2 soleRun_runs (by decide +kernel) 0 0
  (by decide) (by decide) (by decide) (by decide) soleProg [] rfl (by decide) (by decide +kernel)
example : (soleRun.2.pipe 0 0).doneAt = some 11 ∧ 2 + ((soleProg ++ [CoreOp.hlt]).map pairSys.minCycles).sum = 11 ∧
    ∀ op ∈ soleProg, (1 : Int) ≤ pairSys.minCycles op := by decide +kernel

theorem pairRun_answers : (pairRun.2.sys.tile 0).ctrl.submitted =
    [⟨0, -1, 4, .read 2 2, 0⟩, ⟨1, 0, 4, .write [7, 7] 1, 5⟩, ⟨2, 1, 6, .write [9, 9] 1, 5⟩, ⟨3, 0, 4, .read 2 1, 7⟩] := by
  decide +kernel

theorem pairRun_timely : ∀ r ∈ (pairRun.2.sys.tile 0).ctrl.submitted, r.core = ((0 : Nat) : Int) →
    timely (pairInit.valid 0) (pairRun.2.sys.tile 0).ctrl.answers r := by
  rw [pairRun_answers]
  intro r hr hcore
  simp only [List.mem_cons, List.not_mem_nil, or_false] at hr
  rcases hr with rfl | rfl | rfl | rfl
  · cases hcore
  · exact Or.inl rfl
  · cases hcore
  · refine Or.inr ⟨by decide, by decide, fun a ha => Or.inr ⟨⟨1, 0, 4, .write [7, 7] 1, 5⟩, 7, ?_, by decide, ha⟩⟩
    decide +kernel

example := C66_contended_op pairSys demoStages pairInit pairInit_ok pairRun.1 pairRun.2 pairRun_runs (by decide +kernel) 0 0
  (by decide) (by decide) 4 (by decide +kernel) pairRun_timely 3 (by decide +kernel) (.load 24 16 2 1) rfl
example := C66_contended_cycles pairSys demoStages pairInit pairInit_ok pairRun.1 pairRun.2 pairRun_runs (by decide +kernel)
  0 0 (by decide) (by decide) 2 (by decide) (by decide) (by decide) (by decide) pairRun_timely soleProg [] rfl (by decide)
  (by decide +kernel)
-- 13 cycles instead of 11: the load waited for the store of core 1
example : (pairRun.2.pipe 0 0).doneAt = some 13 := by decide +kernel

end Ramwich
