import Verif.Lemmas.ClockedTimes
import Verif.Props.ClockedNodeDemo
import Verif.Props.TimedNetwork
import Verif.Props.TimedSystem

/-! # A node with one clock: times of tile operations, `active_cycles`, latency of transfers (C73-C76)

All processes of a node with the clock of simpy (`Model/ClockedNode.lean`): time passes only when nothing can
happen at the current time. -/
namespace Ramwich

open Spec

theorem clocked_reach {cfg : SysCfg} {l : StageLat} {i : SysInit} (h0 : i.ok) {acts : List FAct} {f : FSys}
    (hrun : i.fstart.run cfg l acts = some f) : FInv cfg l i f := finv_run h0.good acts finv_start hrun

theorem clockedRun_runs : demoInit.fstart.run quickSys demoStages clockedRun.1 = some clockedRun.2 :=
  fauto_runs quickSys demoStages _ twoClocked 500 demoInit.fstart
theorem otherClockedRun_runs : demoInit.fstart.run slowSys ⟨3, 2⟩ otherClockedRun.1 = some otherClockedRun.2 :=
  fauto_runs slowSys ⟨3, 2⟩ _ _ 500 demoInit.fstart
theorem shortRun_runs : mismatchInit.fstart.run quickSys demoStages shortRun.1 = some shortRun.2 :=
  fauto_runs quickSys demoStages _ twoClocked 500 mismatchInit.fstart
theorem twiceRun_runs : twiceInit.fstart.run quickSys demoStages twiceRun.1 = some twiceRun.2 :=
  fauto_runs quickSys demoStages _ twoClocked 500 twiceInit.fstart

/-- What happens in the run, each run is evaluated once. Tile 0: the data are there at time 15 (they are waited for), the
rows are put into the queue at times 15 and 16; core 0 has ended at time 12, the Halt starts at time 17, the last
packet is delivered at time 23. Tile 1: the packets are read at times 19 and 23, the data are written at time 27; core 0
has ended at time 34. -/
theorem clockedRun_does :
    clockedRun.2.ts.sys.crashed = none ∧ clockedRun.1.length = 261 ∧ clockedRun.2.ts.now = 34 ∧
    clockedRun.2.starts 0 = [0, 17] ∧ clockedRun.2.ends 0 = [17, 23] ∧ clockedRun.2.active 0 = some 23 ∧
    clockedRun.2.starts 1 = [0, 27] ∧ clockedRun.2.ends 1 = [27, 34] ∧ clockedRun.2.active 1 = some 34 ∧
    clockedRun.2.clk.queued 0 = [15, 16] ∧ clockedRun.2.clk.done 0 = [19, 23] ∧
    clockedRun.2.clk.asked 1 0 = [0, 19] ∧ clockedRun.2.clk.read 1 0 = [19, 23] ∧
    clockedRun.2.clk.haltAt 0 = some 17 ∧ clockedRun.2.clk.haltAt 1 = some 34 ∧
    (clockedRun.2.ts.pipe 0 0).doneAt = some 12 ∧ (clockedRun.2.ts.pipe 1 0).doneAt = some 34 := by decide +kernel

theorem otherClockedRun_does :
    otherClockedRun.2.ts.sys.crashed = none ∧ otherClockedRun.1.length = 307 ∧
    otherClockedRun.2.starts 0 = [0, 34] ∧ otherClockedRun.2.ends 0 = [34, 36] ∧ otherClockedRun.2.active 0 = some 36 ∧
    otherClockedRun.2.starts 1 = [0, 46] ∧ otherClockedRun.2.ends 1 = [46, 57] ∧ otherClockedRun.2.active 1 = some 57 := by
  decide +kernel

/-- The first packet has two words instead of three. -/
theorem shortRun_does : shortRun.2.ts.sys.crashed = none ∧ shortRun.2.ends 1 = [19] := by decide +kernel

theorem twiceRun_does : twiceRun.2.ts.sys.crashed = none ∧ twiceRun.2.ends 0 = [17, 23, 23] := by decide +kernel

/-! ## C73: one clock -/

/-- C73: what the node with one clock does is a run of the node whose cores and controllers have a clock (so
C61-C66 hold for it). -/
theorem C73_cores (cfg : SysCfg) (l : StageLat) (i : SysInit) (h0 : i.ok) (acts : List FAct) (f : FSys)
    (hrun : i.fstart.run cfg l acts = some f) : ∃ bs, i.tstart.run cfg l bs = some f.ts :=
  (clocked_reach h0 hrun).run

/-- C73: and it is a run of the routers with a clock, which shows the same time (so C70-C72 hold for it). -/
theorem C73_routers (cfg : SysCfg) (l : StageLat) (i : SysInit) (h0 : i.ok) (acts : List FAct) (f : FSys)
    (hrun : i.fstart.run cfg l acts = some f) :
    ∃ as, TNet.run cfg.net cfg.dataMemLat {} as = some ⟨f.ts.sys.net, f.clk, f.ts.now⟩ :=
  (clocked_reach h0 hrun).net

example := C73_cores quickSys demoStages demoInit demoInit_ok clockedRun.1 clockedRun.2 clockedRun_runs
example := C73_routers quickSys demoStages demoInit demoInit_ok clockedRun.1 clockedRun.2 clockedRun_runs
example := C73_cores slowSys ⟨3, 2⟩ demoInit demoInit_ok otherClockedRun.1 otherClockedRun.2 otherClockedRun_runs

/-! ## C74: the operations of a tile process -/

section
variable (cfg : SysCfg) (l : StageLat) (i : SysInit) (h0 : i.ok) (acts : List FAct) (f : FSys)
variable (hrun : i.fstart.run cfg l acts = some f) (hc : f.ts.sys.crashed = none) (t : Nat) (ht : t < cfg.net.tiles)
include h0 hrun hc ht

/-- C74: the operations of a tile process are executed one at a time in the order of its program: the first one
starts at time 0, each of the others when the one before has ended; none ends before it has started. -/
theorem C74_in_turn :
    f.starts t <+: 0 :: f.ends t ∧ (f.ends t).length ≤ (f.starts t).length ∧
    (f.ts.sys.tile t).ops = (i.ops t).drop (f.starts t).length ∧ (f.starts t).length ≤ (i.ops t).length ∧
    ∀ m s e : Nat, (f.starts t)[m]? = some s → (f.ends t)[m]? = some e → s ≤ e ∧ e ≤ f.ts.now := by
  have h := clocked_reach h0 hrun
  have hT := h.tile hc t ht
  obtain ⟨h1, h2, h3⟩ := tile_starts_le h hc ht
  refine ⟨?_, h2, hT.ops, h1, fun m s e hs he => ⟨start_le_end h0.good h hc ht hs he, ?_⟩⟩
  · rw [List.prefix_iff_getElem?]
    intro m hm
    cases m with
    | zero =>
      rw [List.getElem?_cons_zero]
      exact congrArg some (hT.first _ (List.getElem?_eq_getElem hm)).symm
    | succ m =>
      rw [List.getElem?_cons_succ]
      exact hT.chain m _ (List.getElem?_eq_getElem hm)
  · exact h.ended hc t ht e (List.mem_of_getElem? he)

/-- C74: a Send of `vec` rows asks the DRAM for its data as soon as it starts. The answer comes at least `edram_lat *
vec` cycles later; then one row is put into the send queue every `dataMem_lat` cycles; the Send ends `dataMem_lat`
cycles after the last one. -/
theorem C74_send (m e : Nat) (addr target width vec : Int) (he : (f.ends t)[m]? = some e)
    (hop : (i.ops t)[m]? = some (.send addr target width vec)) :
    ∃ (s : Nat) (r : Req) (tm : Nat) (data : List I32), (f.starts t)[m]? = some s ∧
      .read r tm data ∈ (f.ts.sys.tile t).ctrl.answers ∧ r.core = -1 ∧ r.start = addr ∧ r.kind = .read width vec ∧
      r.submitTime = s ∧ (s : Int) + cfg.edramLat * vec ≤ tm ∧
      (∀ j, j < vec.toNat → (f.clk.queued t)[packetsOf ((i.ops t).take m) + j]? = some (tm + j * cfg.dataMemLat.toNat)) ∧
      e = tm + vec.toNat * cfg.dataMemLat.toNat := by
  have h := clocked_reach h0 hrun
  obtain ⟨s, op, h1, h2, h3⟩ := (h.tile hc t ht).took m e he
  rw [hop] at h2
  cases h2
  obtain ⟨r, tm, data, g1, g2, g3, g4, g5, g6, g7⟩ := h3
  have hb := (answer_late h0.good h _ g1).2
  have hnb : r.numBatches = vec := by simp only [Req.numBatches, g4]
  simp only [Answer.req, Answer.time, hnb, g5] at hb
  exact ⟨s, r, tm, data, h1, g1, g2, g3, g4, g5, hb, g6, g7⟩

/-- C74: a Recv of `vec` rows of `width` words reads one packet after the other: there are numbers `ns`, one for
each operation that has ended, such that a Recv calls `read_packet` `ns[m]` times in turn, the first time when it
starts, and gets the packets of its source that follow those that the operations before it have read. If all `vec`
packets have `width` words, it then submits their data to the DRAM and ends when this is answered, at least
`edram_lat * vec` cycles later. Otherwise it ends in the cycle in which it gets the first packet of another length. -/
theorem C74_receive :
    ∃ ns : List Nat, ns.length = (f.ends t).length ∧
    ∀ (m e : Nat) (addr source width vec : Int), (f.ends t)[m]? = some e →
      (i.ops t)[m]? = some (.receive addr source width vec) →
    ∃ (s n e' : Nat) (rows : List (List I32)), (f.starts t)[m]? = some s ∧ ns[m]? = some n ∧
      readsInTurn (f.clk.asked t source.toNat) (f.clk.read t source.toNat)
        (readsFrom source.toNat (i.ops t) (ns.take m)) n s e' ∧
      rows = ((f.ts.sys.net.readLog t source.toNat).drop (readsFrom source.toNat (i.ops t) (ns.take m))).take n ∧
      rows.length = n ∧
      ((n = vec.toNat ∧ (∀ row ∈ rows, (row.length : Int) = width) ∧
        ∃ r : Req, .wrote r e ∈ (f.ts.sys.tile t).ctrl.answers ∧ r.core = -1 ∧ r.start = addr ∧
          r.kind = .write rows.flatten vec.toNat ∧ r.submitTime = e' ∧ (e' : Int) + cfg.edramLat * vec.toNat ≤ e) ∨
       (n ≤ vec.toNat ∧ (∃ good bad, rows = good ++ [bad] ∧ (∀ row ∈ good, (row.length : Int) = width) ∧
          (bad.length : Int) ≠ width) ∧ e = e')) := by
  have h := clocked_reach h0 hrun
  obtain ⟨ns, cur, hR⟩ := h.rows hc t ht
  refine ⟨ns, hR.len, fun m e addr source width vec he hop => ?_⟩
  obtain ⟨s, n, h1, h2, e', rows, h3, h4, h5, h6⟩ := hR.past m e addr source width vec he hop
  refine ⟨s, n, e', rows, h1, h2, h3, h4, h5, ?_⟩
  rcases h6 with ⟨g1, g2, r, g3, g4, g5, g6, g7⟩ | h6
  · have hb := (answer_late h0.good h _ g3).2
    have hnb : r.numBatches = vec.toNat := by simp only [Req.numBatches, g6]
    simp only [Answer.req, Answer.time, hnb, g7] at hb
    exact .inl ⟨g1, g2, r, g3, g4, g5, g6, g7, hb⟩
  · exact .inr h6

/-- C74: the first Halt of a tile process tells the router to stop as soon as it has started and all cores of the
tile have ended; it ends when the router has stopped. -/
theorem C74_halt (m e : Nat) (he : (f.ends t)[m]? = some e) (hop : (i.ops t)[m]? = some .halt)
    (hfirst : ∀ j, j < m → (i.ops t)[j]? ≠ some .halt) :
    ∃ s h : Nat, (f.starts t)[m]? = some s ∧ f.clk.haltAt t = some h ∧ f.clk.stopAt t = some e ∧
      s ≤ h ∧ (∀ k, k < cfg.cores → ∃ d, (f.ts.pipe t k).doneAt = some d ∧ d ≤ h) ∧
      (h = s ∨ ∃ k, k < cfg.cores ∧ (f.ts.pipe t k).doneAt = some h) ∧
      (0 < cfg.net.lat → e = max h ((f.clk.done t).getLast?.getD 0)) := by
  have hI := clocked_reach h0 hrun
  obtain ⟨s, op, h1, h2, h3⟩ := (hI.tile hc t ht).took m e he
  rw [hop] at h2
  cases h2
  obtain ⟨h, q, g1, g2, g3, g4, g5, g6⟩ := h3
  obtain ⟨g7, g8⟩ := g6 hfirst
  have hq : e = q := by rw [g3]; exact max_eq_right (le_trans g7 g4)
  subst hq
  refine ⟨s, h, h1, g1, g2, g7, g5, g8, fun hl => ?_⟩
  obtain ⟨as, hnet⟩ := hI.net
  have hst : f.ts.sys.net.stopper t = .stopped := (hI.tile hc t ht).stopped.2 (by rw [g2]; simp)
  obtain ⟨h', q', k1, k2, k3, -⟩ := C72_stop_time cfg.net cfg.dataMemLat as f.tnet hnet t hst
  have k1 : f.clk.haltAt t = some h' := k1
  have k2 : f.clk.stopAt t = some q' := k2
  have g1 : f.clk.haltAt t = some h := g1
  have g2 : f.clk.stopAt t = some e := g2
  rw [g1] at k1
  rw [g2] at k2
  injection k1 with k1
  injection k2 with k2
  subst k1 k2
  exact k3 hl

/-- C74: every further Halt ends in the cycle in which it starts. -/
theorem C74_halt_again (m e : Nat) (he : (f.ends t)[m]? = some e) (hop : (i.ops t)[m]? = some .halt)
    (hsecond : ∃ j, j < m ∧ (i.ops t)[j]? = some .halt) : (f.starts t)[m]? = some e := by
  have hI := clocked_reach h0 hrun
  have hT := hI.tile hc t ht
  obtain ⟨s, op, h1, h2, h3⟩ := hT.took m e he
  rw [hop] at h2
  cases h2
  obtain ⟨h, q, g1, g2, g3, g4, g5, g6⟩ := h3
  obtain ⟨j, hj, hjop⟩ := hsecond
  have hlt : j < (f.ends t).length := lt_trans hj (List.getElem?_eq_some_iff.1 he).1
  obtain ⟨s', op, k1, k2, k3⟩ := hT.took j _ (List.getElem?_eq_getElem hlt)
  rw [hjop] at k2
  cases k2
  obtain ⟨h', q', n1, n2, n3, -⟩ := k3
  rw [g2] at n2
  injection n2 with n2
  subst n2
  have := end_le_start h0.good hI hc ht hj h1 (List.getElem?_eq_getElem hlt)
  have he' : e = s := by
    change (f.ends t)[j] = max s' q at n3
    omega
  rw [he']
  exact h1

end

example := C74_in_turn quickSys demoStages demoInit demoInit_ok clockedRun.1 clockedRun.2 clockedRun_runs clockedRun_does.1 1
  (by decide)
example := C74_in_turn slowSys ⟨3, 2⟩ demoInit demoInit_ok otherClockedRun.1 otherClockedRun.2 otherClockedRun_runs
  otherClockedRun_does.1 0 (by decide)
example := C74_send quickSys demoStages demoInit demoInit_ok clockedRun.1 clockedRun.2 clockedRun_runs clockedRun_does.1 0
  (by decide) 0 17 4 1 2 2 (by rw [clockedRun_does.2.2.2.2.1]; rfl) rfl
example := C74_receive quickSys demoStages demoInit demoInit_ok clockedRun.1 clockedRun.2 clockedRun_runs clockedRun_does.1 1
  (by decide)
example : (clockedRun.2.ends 1)[0]? = some 27 ∧ (demoInit.ops 1)[0]? = some (.receive 2 0 2 2) :=
  ⟨by rw [clockedRun_does.2.2.2.2.2.2.2.1]; rfl, rfl⟩
example := C74_receive quickSys demoStages mismatchInit demoInit_ok shortRun.1 shortRun.2 shortRun_runs shortRun_does.1 1
  (by decide)
example : (shortRun.2.ends 1)[0]? = some 19 ∧ (mismatchInit.ops 1)[0]? = some (.receive 2 0 3 2) :=
  ⟨by rw [shortRun_does.2]; rfl, rfl⟩
example := C74_halt quickSys demoStages demoInit demoInit_ok clockedRun.1 clockedRun.2 clockedRun_runs clockedRun_does.1 0
  (by decide) 1 23 (by rw [clockedRun_does.2.2.2.2.1]; rfl) rfl (by decide +kernel)
example := C74_halt quickSys demoStages demoInit demoInit_ok clockedRun.1 clockedRun.2 clockedRun_runs clockedRun_does.1 1
  (by decide) 1 34 (by rw [clockedRun_does.2.2.2.2.2.2.2.1]; rfl) rfl (by decide +kernel)
example := C74_halt_again quickSys demoStages twiceInit demoInit_ok twiceRun.1 twiceRun.2 twiceRun_runs twiceRun_does.1 0
  (by decide) 2 23 (by rw [twiceRun_does.2]; rfl) rfl ⟨1, by decide, rfl⟩

/-! ## C75: `active_cycles` of a tile -/

section
variable (cfg : SysCfg) (l : StageLat) (i : SysInit) (h0 : i.ok) (acts : List FAct) (f : FSys)
variable (hrun : i.fstart.run cfg l acts = some f) (hc : f.ts.sys.crashed = none) (t : Nat) (ht : t < cfg.net.tiles)
include h0 hrun hc ht

/-- C75: `active_cycles` is set when all operations have ended, to the time at which the last one has ended. -/
theorem C75_active (c : Nat) :
    f.active t = some c ↔ (f.ends t).length = (i.ops t).length ∧ c = (f.ends t).getLast?.getD 0 := by
  have h := clocked_reach h0 hrun
  have h1 : f.active t = _ := (h.tile hc t ht).active
  have h2 := tile_finished h hc ht
  rw [h1]
  by_cases hd : (f.ends t).length = (i.ops t).length
  · rw [if_pos (h2.2 hd)]
    constructor
    · intro e; injection e with e; exact ⟨hd, e.symm⟩
    · intro e; rw [e.2]; rfl
  · rw [if_neg (fun e => hd (h2.1 e))]
    constructor
    · intro e; cases e
    · intro e; exact absurd e.1 hd

/-- C75: `active_cycles` is the sum of the durations of the operations. -/
theorem C75_sum (c : Nat) (ha : f.active t = some c) :
    c = (List.zipWith (fun s e => e - s) (f.starts t) (f.ends t)).sum := by
  have h := clocked_reach h0 hrun
  have hT := h.tile hc t ht
  obtain ⟨h1, h2⟩ := (C75_active cfg l i h0 acts f hrun hc t ht c).1 ha
  obtain ⟨h3, h4, h5⟩ := tile_starts_le h hc ht
  subst h2
  refine sum_durations (by omega) (fun s hs => hT.first s hs) (fun m s hs => hT.chain m s hs)
    fun m s e hs he => start_le_end h0.good h hc ht hs he

/-- C75: if the program has a Halt, then `active_cycles` is not smaller than the times at which the cores have ended
and at which the last packet of the tile was delivered: the tile is active until everything is done. -/
theorem C75_covers (c : Nat) (ha : f.active t = some c) (hhalt : .halt ∈ i.ops t) :
    (∀ k, k < cfg.cores → ∃ d, (f.ts.pipe t k).doneAt = some d ∧ d ≤ c) ∧
    (f.clk.done t).getLast?.getD 0 ≤ c ∧ f.ts.sys.net.stopper t = .stopped := by
  have h := clocked_reach h0 hrun
  have hT := h.tile hc t ht
  obtain ⟨h1, h2⟩ := (C75_active cfg l i h0 acts f hrun hc t ht c).1 ha
  obtain ⟨m, hm, hop⟩ := List.getElem_of_mem hhalt
  have hm' : m < (f.ends t).length := by omega
  obtain ⟨s, op, k1, k2, k3⟩ := hT.took m _ (List.getElem?_eq_getElem hm')
  rw [List.getElem?_eq_getElem hm, hop] at k2
  cases k2
  obtain ⟨x, q, g1, g2, g3, g4, g5, g6⟩ := k3
  have hle : (f.ends t)[m] ≤ c := by
    rw [h2]
    obtain ⟨n, hn⟩ : ∃ n, (f.ends t).length = n + 1 := ⟨(f.ends t).length - 1, by omega⟩
    by_cases hmn : m = n
    · subst hmn
      have := last_index hn
      rw [List.getElem?_eq_getElem hm'] at this
      injection this with this
      exact le_of_eq this
    · obtain ⟨s', op', j1, -, -⟩ := hT.took n _ (List.getElem?_eq_getElem (by rw [show (f.tv t).ends = f.ends t from rfl]; omega))
      have e1 := end_le_start h0.good h hc ht (show m < n by omega) j1 (List.getElem?_eq_getElem hm')
      have e2 := start_le_end h0.good h hc ht j1 (List.getElem?_eq_getElem (by omega))
      have := last_index hn
      rw [List.getElem?_eq_getElem (by omega)] at this
      injection this with this
      omega
  have hst : f.ts.sys.net.stopper t = .stopped := hT.stopped.2 (by rw [g2]; simp)
  have g3 : (f.ends t)[m] = max s q := g3
  refine ⟨fun k hk => ?_, ?_, hst⟩
  · obtain ⟨d, e1, e2⟩ := g5 k hk
    exact ⟨d, e1, by omega⟩
  · obtain ⟨as, hnet⟩ := h.net
    obtain ⟨h', q', e1, e2, -, e3, -⟩ := C72_stop_time cfg.net cfg.dataMemLat as f.tnet hnet t hst
    have e2 : f.clk.stopAt t = some q' := e2
    have g2 : f.clk.stopAt t = some q := g2
    rw [g2] at e2
    injection e2 with e2
    have e3 : max h' ((f.clk.done t).getLast?.getD 0) ≤ q' := e3
    omega

end

example := (C75_active quickSys demoStages demoInit demoInit_ok clockedRun.1 clockedRun.2 clockedRun_runs clockedRun_does.1 1
  (by decide) 34).1 clockedRun_does.2.2.2.2.2.2.2.2.1
example := C75_sum quickSys demoStages demoInit demoInit_ok clockedRun.1 clockedRun.2 clockedRun_runs clockedRun_does.1 0
  (by decide) 23 clockedRun_does.2.2.2.2.2.1
example := C75_sum slowSys ⟨3, 2⟩ demoInit demoInit_ok otherClockedRun.1 otherClockedRun.2 otherClockedRun_runs
  otherClockedRun_does.1 0 (by decide) 36 otherClockedRun_does.2.2.2.2.1
example := C75_covers quickSys demoStages demoInit demoInit_ok clockedRun.1 clockedRun.2 clockedRun_runs clockedRun_does.1 1
  (by decide) 34 clockedRun_does.2.2.2.2.2.2.2.2.1 (by simp [demoInit])

/-- C75: without a Halt this is false: a tile process that has nothing to do has 0 active cycles, although a core of the
tile works for 12 cycles. -/
theorem C75_no_halt_witness :
    ∃ (cfg : SysCfg) (l : StageLat) (i : SysInit) (acts : List FAct) (f : FSys), i.ok ∧
      i.fstart.run cfg l acts = some f ∧ f.ts.sys.crashed = none ∧ f.active 0 = some 0 ∧
      (f.ts.pipe 0 0).doneAt = some 12 := by
  refine ⟨quickSys, demoStages, idleInit, idleRun.1, idleRun.2, fun _ => ⟨rfl, rfl⟩, fauto_runs _ _ _ _ _ _, ?_⟩
  decide +kernel

/-! ## C76: latency of transfers -/

/-- C76: no word arrives early. The `n`-th packet that tile `d` reads from tile `a` is read no earlier than
`noc_intra_lat` cycles after tile `a` has put it into its send queue. -/
theorem C76_latency (cfg : SysCfg) (l : StageLat) (i : SysInit) (h0 : i.ok) (acts : List FAct) (f : FSys)
    (hrun : i.fstart.run cfg l acts = some f) (a d n x : Nat) (hx : (f.clk.read d a)[n]? = some x) :
    ∃ q, (timesTo d (f.ts.sys.net.sent a) (f.clk.queued a))[n]? = some q ∧ q + cfg.net.lat ≤ x := by
  have h := (clocked_reach h0 hrun).times
  have hr := h.router a
  have hs := h.stream d a
  obtain ⟨p, h1, h2⟩ := put_le hs n x hx
  obtain ⟨y, h3, h4⟩ := arrived_le hs n p h1
  have hlen : (f.clk.arrived a).length ≤ (f.clk.queued a).length := by
    have e1 := hr.arrived.length_le
    have e2 := hr.taken.length_le
    simp only [List.length_map, List.length_zipWith, rvOf] at e1 e2
    omega
  obtain ⟨q, h5, h6⟩ := timesTo_le (d := d) (L := cfg.net.lat) (f.ts.sys.net.sent a) (f.clk.queued a) (f.clk.arrived a) hlen
    (fun m u w hu hw => by
      have e1 := prefix_getElem? hr.arrived hw
      simp only [rvOf, List.getElem?_map, Option.map_eq_some_iff] at e1
      obtain ⟨tk, e2, e3⟩ := e1
      have e4 := prefix_getElem? hr.taken e2
      simp only [rvOf, List.getElem?_zipWith, hu] at e4
      cases hd : (0 :: f.clk.done a)[m]? with
      | none => rw [hd] at e4; cases e4
      | some z =>
        rw [hd] at e4
        injection e4 with e4
        omega) n y h3
  exact ⟨q, h5, by omega⟩

example := C76_latency quickSys demoStages demoInit demoInit_ok clockedRun.1 clockedRun.2 clockedRun_runs 0 1 1 23
  (by rw [clockedRun_does.2.2.2.2.2.2.2.2.2.2.2.2.1]; rfl)

end Ramwich
