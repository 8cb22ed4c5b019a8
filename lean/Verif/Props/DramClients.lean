import Verif.Lemmas.DramBenchTests
import Verif.Props.DramController

/-! # `tests/test_dram_controller.py` for all data, addresses, latencies and orders of events (C109)

`acts` is any sequence of actions of the processes, steps of the controller and clock ticks that is possible from
the start. `env.run(until=T)` stops in a state whose time is `T`. -/
namespace Ramwich

open Spec

/-! ## Any processes -/

/-- C109: processes with sound scripts never make the simulation raise; when more time has passed than all their
delays and all service times of their requests, every process has ended, the controller is idle and has answered
every request. -/
theorem C109_finishes (lat : Int) (m0 : Memory) (v0 : List Bool) (t0 : Nat) (scripts : List (List ClientOp))
    (hS : Sound lat m0 v0 scripts) (acts : List BenchAct) (b : Bench)
    (hrun : (Bench.start m0 v0 t0 scripts).run lat acts = some b) :
    b.ctrl.crashed = none ∧
    (t0 + budget lat scripts < b.ctrl.now →
      (∀ cl ∈ b.clients, cl.todo = []) ∧ b.ctrl.idle ∧ (b.ctrl.answers.map Answer.req).Perm b.ctrl.submitted) := by
  have h := benchInv_run hS acts b hrun
  refine ⟨h.fine, fun hT => ?_⟩
  obtain ⟨h1, -, h3, -⟩ := h.over hT
  exact ⟨h1.1, h1.2.1, h3⟩

/-- C109: from every state that can be reached, any later time can be reached, and time cannot be delayed forever:
up to any time there is only a bounded number of actions. So `env.run(until=T)` returns. -/
theorem C109_returns (lat : Int) (m0 : Memory) (v0 : List Bool) (t0 : Nat) (scripts : List (List ClientOp))
    (hS : Sound lat m0 v0 scripts) :
    (∀ acts b, (Bench.start m0 v0 t0 scripts).run lat acts = some b → ∀ T, b.ctrl.now ≤ T →
      ∃ more b', b.run lat more = some b' ∧ b'.ctrl.now = T) ∧
    ∃ bound, ∀ acts b, (Bench.start m0 v0 t0 scripts).run lat acts = some b →
      acts.length ≤ bound + (b.ctrl.now - t0) := by
  constructor
  · intro acts b hrun T hT
    exact bench_reaches hS T _ b (benchInv_run hS acts b hrun) hT (Nat.le_refl _)
  · refine ⟨(Bench.start m0 v0 t0 scripts).work lat, ?_⟩
    intro acts b hrun
    have h1 := bench_work_run hS acts _ b (benchInv_start (t0 := t0) hS) hrun
    have h2 := (benchInv_run hS acts b hrun).inv.time.begun
    have h3 : (Bench.start m0 v0 t0 scripts).ctrl.now = t0 := rfl
    omega

/-- C109: at any time a process has executed a part of its script; it got the events it waited for, in the order of
its script, each not before the request of that event was answered, with the value of that answer, and no
later than all delays and service times allow. -/
theorem C109_events (lat : Int) (m0 : Memory) (v0 : List Bool) (t0 : Nat) (scripts : List (List ClientOp))
    (hS : Sound lat m0 v0 scripts) (acts : List BenchAct) (b : Bench)
    (hrun : (Bench.start m0 v0 t0 scripts).run lat acts = some b) :
    b.clients.map (fun cl => cl.done ++ cl.todo) = scripts ∧
    ∀ cl ∈ b.clients, cl.got.map (fun g => g.1) = awaited cl.done ∧
      ∀ i t v, (i, t, v) ∈ cl.got → t ≤ t0 + budget lat scripts ∧
        ∀ q, (requests cl.done)[i]? = some q → ∃ a ∈ b.ctrl.answers,
          a.req.core = q.core ∧ a.req.start = q.start ∧ a.req.kind = q.kind ∧ v = a.value ∧ a.time ≤ t := by
  have h := benchInv_run hS acts b hrun
  refine ⟨h.texts, fun cl hcl => ⟨(h.clients cl hcl).got, ?_⟩⟩
  intro i t v hg
  refine ⟨h.late cl hcl _ hg, fun q hq => ?_⟩
  obtain ⟨a, h1, h2, -, h4, h5, -⟩ := h.answer cl hcl _ hg q hq
  exact ⟨a, h1, by rw [← h2]; rfl, by rw [← h2]; rfl, by rw [← h2]; rfl, h4, h5⟩

/-- C109: a request is submitted when the delays before it in its script have passed, not earlier. -/
theorem C109_delays (lat : Int) (m0 : Memory) (v0 : List Bool) (t0 : Nat) (scripts : List (List ClientOp))
    (hS : Sound lat m0 v0 scripts) (acts : List BenchAct) (b : Bench)
    (hrun : (Bench.start m0 v0 t0 scripts).run lat acts = some b) (cl : Client) (hcl : cl ∈ b.clients)
    (pre post : List ClientOp) (core start : Int) (kind : ReqKind)
    (hdone : cl.done = pre ++ .submit core start kind :: post) :
    ∃ r ∈ b.ctrl.submitted, r.core = core ∧ r.start = start ∧ r.kind = kind ∧ t0 + delays pre ≤ r.submitTime := by
  have h := benchInv_run hS acts b hrun
  obtain ⟨id, r, -, h2, h3, h4⟩ := (h.clients cl hcl).early pre _ post _ hdone rfl
  exact ⟨r, List.mem_of_getElem? h2, congrArg Req.core h3, congrArg Req.start h3, congrArg Req.kind h3, h4⟩

/-! ## The tests -/

theorem one_client {b : Bench} {s : List ClientOp} (h : b.clients.map (fun cl => cl.done) = [s]) :
    ∃ cl, b.clients = [cl] ∧ cl.done = s := by
  match hb : b.clients with
  | [] => rw [hb] at h; simp at h
  | [cl] => rw [hb] at h; exact ⟨cl, rfl, by simpa using h⟩
  | _ :: _ :: _ => rw [hb] at h; simp at h

theorem one_got {cl : Client} {i : Nat} (h : cl.got.map (fun g => g.1) = [i]) : ∃ t v, cl.got = [(i, t, v)] := by
  match hb : cl.got with
  | [] => rw [hb] at h; simp at h
  | [(j, t, v)] => rw [hb] at h; simp at h; subst h; exact ⟨t, v, rfl⟩
  | _ :: _ :: _ => rw [hb] at h; simp at h

theorem map_bare_one {l : List Req} {q : Req} (h : l.map Req.bare = [q]) : ∃ r, l = [r] ∧ r.bare = q := by
  match l with
  | [] => simp at h
  | [r] => exact ⟨r, rfl, by simpa using h⟩
  | _ :: _ :: _ => simp at h

theorem oneWaits_of (v0 : List Bool) (l : List Req) (h : (l.filter fun r => !r.isWrite).length ≤ 1) :
    (l.filter fun r => !r.isWrite && !preloaded v0 r).length ≤ 1 := by
  refine Nat.le_trans ?_ h
  have : (fun r : Req => !r.isWrite && !preloaded v0 r) = fun r => !preloaded v0 r && !r.isWrite := by
    funext r; rw [Bool.and_comm]
  rw [this, ← List.filter_filter]
  exact List.length_filter_le _ _

theorem sound_writer (lat : Int) (m0 : Memory) (v0 : List Bool) (core start : Int) (data : List I32) (rows : Nat)
    (hm : m0.cells.length = m0.size) (hv : v0.length = m0.size) (hlat : 0 ≤ lat) (h0 : 0 ≤ start)
    (h1 : start + data.length ≤ m0.size) : Sound lat m0 v0 [testWriter core start data rows] := by
  refine ⟨hm, hv, hlat, ?_, ?_, ?_, ?_⟩
  · intro s hs r hr
    rw [List.mem_singleton.1 hs] at hr
    simp only [testWriter, requests, ClientOp.req, List.filterMap_cons, List.filterMap_nil,
      List.mem_singleton] at hr
    subst hr
    exact ⟨⟨h0, h1⟩, by simp [Req.numBatches], by simp [Req.isWrite]⟩
  · intro s hs
    rw [List.mem_singleton.1 hs]
    exact orderly_of _ rfl
  · intro s hs r hr hread
    rw [List.mem_singleton.1 hs] at hr
    simp only [testWriter, requests, ClientOp.req, List.filterMap_cons, List.filterMap_nil,
      List.mem_singleton] at hr
    subst hr
    simp [Req.isWrite] at hread
  · exact oneWaits_of v0 _ (show 0 ≤ 1 by omega)

/-- C109: `test_write_request`: when `edram_lat` times the number of batches has passed, the process has got its
event, exactly then; the DRAM holds the data in the words of the request and what it
held in the others; exactly these words have become valid. -/
theorem C109_write_request (lat : Int) (m0 : Memory) (v0 : List Bool) (t0 : Nat) (core start : Int)
    (data : List I32) (rows : Nat)
    (hm : m0.cells.length = m0.size) (hv : v0.length = m0.size) (hlat : 0 ≤ lat) (h0 : 0 ≤ start)
    (h1 : start + data.length ≤ m0.size) (acts : List BenchAct) (b : Bench)
    (hrun : (Bench.start m0 v0 t0 [testWriter core start data rows]).run lat acts = some b)
    (hT : t0 + (lat * rows).toNat < b.ctrl.now) :
    b.ctrl.crashed = none ∧
    (∃ cl, b.clients = [cl] ∧ cl.todo = [] ∧ cl.got = [(0, t0 + (lat * rows).toNat, none)]) ∧
    ∀ a : Nat, a < m0.size →
      b.ctrl.mem.cells[a]? = some (if start ≤ a ∧ (a : Int) < start + data.length then data.getD (a - start.toNat) 0
        else m0.cells.getD a 0) ∧
      b.ctrl.valid[a]? = some (decide (start ≤ a ∧ (a : Int) < start + data.length) || v0.getD a false) := by
  have hS := sound_writer lat m0 v0 core start data rows hm hv hlat h0 h1
  have h := benchInv_run hS acts b hrun
  have hb : budget lat [testWriter core start data rows] = (lat * rows).toNat := by
    simp [budget, cost, testWriter, ClientOp.cost, serviceTime, Req.numBatches]
  obtain ⟨s1, s2, s3, s4⟩ := h.over (by rw [hb]; exact hT)
  obtain ⟨cl, hcl, hdone⟩ := one_client s2
  have hmem : cl ∈ b.clients := by rw [hcl]; simp
  have hq : requests cl.done = [{ id := 0, core := core, start := start, kind := .write data rows, submitTime := 0 }] := by
    rw [hdone]; rfl
  refine ⟨h.fine, ⟨cl, hcl, s1.1 cl hmem, ?_⟩, ?_⟩
  · have hg := (h.clients cl hmem).got
    rw [hdone, show awaited (testWriter core start data rows) = [0] from rfl] at hg
    obtain ⟨t, v, hg⟩ := one_got hg
    obtain ⟨r, t', e1, e2, e3, e4, e5, -⟩ := h.writeAnswer cl hmem (0, t, v) (by rw [hg]; simp) _
      (by rw [hq]; rfl) rfl
    have hl := h.late cl hmem (0, t, v) (by rw [hg]; simp)
    rw [hb] at hl
    have hsub : r ∈ b.ctrl.submitted :=
      h.inv.line.perm.subset (List.mem_append_right _ (List.mem_map.2 ⟨_, e1, rfl⟩))
    have hp := (h.inv.time.past r hsub).1
    have hs : serviceTime lat r = (lat * rows).toNat := by
      unfold serviceTime Req.numBatches
      rw [(bare_kind e2).2]
    dsimp only at e3 e4 hl
    rw [hg, e3, show t = t0 + (lat * rows).toNat by omega]
  · have hsub := h.alone cl hcl
    rw [hq] at hsub
    obtain ⟨w, hw1, hw2⟩ := map_bare_one hsub
    obtain ⟨k1, k2⟩ := bare_kind hw2
    have hwr : writesOf b.ctrl.answers = [w] := by
      rw [s4, hw1]
      simp [Req.isWrite, k2]
    have hcov : ∀ a : Nat, covers w a ↔ start ≤ a ∧ (a : Int) < start + data.length := by
      intro a
      unfold covers Req.length
      rw [k1, k2]
    intro a ha
    have c1 := h.inv.mem.cells a ha
    have c2 := h.inv.mem.vals a ha
    rw [hwr] at c1 c2
    rw [List.getD_eq_getElem?_getD, List.getElem?_eq_getElem (by rw [h.inv.mem.len]; exact ha)] at c1
    rw [List.getD_eq_getElem?_getD, List.getElem?_eq_getElem (by rw [h.inv.mem.vlen]; exact ha)] at c2
    rw [List.getElem?_eq_getElem (by rw [h.inv.mem.len]; exact ha),
      List.getElem?_eq_getElem (by rw [h.inv.mem.vlen]; exact ha)]
    simp only [Option.getD_some] at c1 c2
    rw [c1, c2]
    simp only [wordAfter, wordValid, List.foldl_cons, List.foldl_nil, hcov]
    constructor
    · congr 1
      split
      · simp only [Req.value, k2, k1]
        rw [show ((a : Int) - start).toNat = a - start.toNat by omega]
      · rfl
    · congr 1
      by_cases hc : start ≤ a ∧ (a : Int) < start + data.length <;> simp [hc]

theorem sound_reader (lat : Int) (m0 : Memory) (v0 : List Bool) (core start bs n : Int)
    (hm : m0.cells.length = m0.size) (hv : v0.length = m0.size) (hlat : 0 ≤ lat) (hn : 0 ≤ n) (h0 : 0 ≤ start)
    (hpos : 0 < bs * n) (h1 : start + bs * n ≤ m0.size)
    (hval : ∀ a : Nat, start ≤ a → (a : Int) < start + bs * n → v0.getD a false = true) :
    Sound lat m0 v0 [testReader core start bs n] := by
  refine ⟨hm, hv, hlat, ?_, ?_, ?_, ?_⟩
  · intro s hs r hr
    rw [List.mem_singleton.1 hs] at hr
    simp only [testReader, requests, ClientOp.req, List.filterMap_cons, List.filterMap_nil,
      List.mem_singleton] at hr
    subst hr
    exact ⟨⟨h0, h1⟩, hn, fun _ => hpos⟩
  · intro s hs
    rw [List.mem_singleton.1 hs]
    exact orderly_of _ rfl
  · intro s hs r hr _ a ha
    rw [List.mem_singleton.1 hs] at hr
    simp only [testReader, requests, ClientOp.req, List.filterMap_cons, List.filterMap_nil,
      List.mem_singleton] at hr
    subst hr
    exact Or.inl (hval a ha.1 ha.2)
  · exact oneWaits_of v0 _ (show 1 ≤ 1 by omega)

/-- C109: `test_read_request_valid_data`: a read of valid words returns their contents after `edram_lat` times the
number of batches, exactly. -/
theorem C109_read_valid (lat : Int) (m0 : Memory) (v0 : List Bool) (t0 : Nat) (core start bs n : Int)
    (data : List I32) (hlen : bs * n = data.length)
    (hm : m0.cells.length = m0.size) (hv : v0.length = m0.size) (hlat : 0 ≤ lat) (hn : 0 ≤ n) (h0 : 0 ≤ start)
    (hpos : 0 < data.length) (h1 : start + data.length ≤ m0.size)
    (hdata : ∀ i, i < data.length → m0.cells.getD (start.toNat + i) 0 = data.getD i 0 ∧
      v0.getD (start.toNat + i) false = true)
    (acts : List BenchAct) (b : Bench)
    (hrun : (Bench.start m0 v0 t0 [testReader core start bs n]).run lat acts = some b)
    (hT : t0 + (lat * n).toNat < b.ctrl.now) :
    b.ctrl.crashed = none ∧
    ∃ cl, b.clients = [cl] ∧ cl.todo = [] ∧ cl.got = [(0, t0 + (lat * n).toNat, some data)] := by
  have hS := sound_reader lat m0 v0 core start bs n hm hv hlat hn h0 (by omega) (by omega) (by
    intro a ha1 ha2
    have := (hdata (a - start.toNat) (by omega)).2
    rw [show start.toNat + (a - start.toNat) = a by omega] at this
    exact this)
  have h := benchInv_run hS acts b hrun
  have hb : budget lat [testReader core start bs n] = (lat * n).toNat := by
    simp [budget, cost, testReader, ClientOp.cost, serviceTime, Req.numBatches]
  obtain ⟨s1, s2, s3, s4⟩ := h.over (by rw [hb]; exact hT)
  obtain ⟨cl, hcl, hdone⟩ := one_client s2
  have hmem : cl ∈ b.clients := by rw [hcl]; simp
  have hq : requests cl.done = [{ id := 0, core := core, start := start, kind := .read bs n, submitTime := 0 }] := by
    rw [hdone]; rfl
  refine ⟨h.fine, cl, hcl, s1.1 cl hmem, ?_⟩
  have hg := (h.clients cl hmem).got
  rw [hdone, show awaited (testReader core start bs n) = [0] from rfl] at hg
  obtain ⟨t, v, hg⟩ := one_got hg
  obtain ⟨l1, r, t', d, l2, e1, e2, e3, e4, e5, e6, -, e7⟩ := h.readAnswer cl hmem (0, t, v) (by rw [hg]; simp) _
    (by rw [hq]; rfl) rfl
  obtain ⟨k1, k2⟩ := bare_kind e2
  have hl := h.late cl hmem (0, t, v) (by rw [hg]; simp)
  rw [hb] at hl
  have hp := (h.inv.time.past r e3).1
  have hs : serviceTime lat r = (lat * n).toNat := by
    unfold serviceTime Req.numBatches
    rw [k2]
  have hsub := h.alone cl hcl
  rw [hq] at hsub
  obtain ⟨r1, hr1, hr2⟩ := map_bare_one hsub
  have hw : writesOf l1 = [] := by
    rw [e1, writesOf_append, hr1] at s4
    have : List.filter Req.isWrite [r1] = [] := by simp [Req.isWrite, (bare_kind hr2).2]
    rw [this] at s4
    exact (List.append_eq_nil_iff.1 s4).1
  have hd : d = data := by
    refine e7.words data (by unfold Req.length; rw [k2]; exact hlen) ?_
    intro i hi
    rw [hw, k1]
    exact (hdata i hi).1
  dsimp only at e4 e5 hl
  rw [hg, e4, hd, show t = t0 + (lat * n).toNat by omega]

theorem two_clients {b : Bench} {s1 s2 : List ClientOp} (h : b.clients.map (fun cl => cl.done) = [s1, s2]) :
    ∃ c1 c2, b.clients = [c1, c2] ∧ c1.done = s1 ∧ c2.done = s2 := by
  match hb : b.clients with
  | [] => rw [hb] at h; simp at h
  | [_] => rw [hb] at h; simp at h
  | [c1, c2] => rw [hb] at h; exact ⟨c1, c2, rfl, by simpa using h⟩
  | _ :: _ :: _ :: _ => rw [hb] at h; simp at h

theorem three_got {cl : Client} {i j k : Nat} (h : cl.got.map (fun g => g.1) = [i, j, k]) :
    ∃ t1 v1 t2 v2 t3 v3, cl.got = [(i, t1, v1), (j, t2, v2), (k, t3, v3)] := by
  match hb : cl.got with
  | [] => rw [hb] at h; simp at h
  | [_] => rw [hb] at h; simp at h
  | [_, _] => rw [hb] at h; simp at h
  | [(_, t1, v1), (_, t2, v2), (_, t3, v3)] =>
    rw [hb] at h
    simp only [List.map_cons, List.map_nil, List.cons.injEq, and_true] at h
    obtain ⟨rfl, rfl, rfl⟩ := h
    exact ⟨t1, v1, t2, v2, t3, v3, rfl⟩
  | _ :: _ :: _ :: _ :: _ => rw [hb] at h; simp at h

theorem map_bare_three {l : List Req} {q1 q2 q3 : Req} (h : l.map Req.bare = [q1, q2, q3]) :
    ∃ r1 r2 r3, l = [r1, r2, r3] ∧ r1.bare = q1 ∧ r2.bare = q2 ∧ r3.bare = q3 := by
  match l with
  | [] => simp at h
  | [_] => simp at h
  | [_, _] => simp at h
  | [r1, r2, r3] => exact ⟨r1, r2, r3, rfl, by simpa using h⟩
  | _ :: _ :: _ :: _ :: _ => simp at h

theorem covers_read {r : Req} {start bs n : Int} (h1 : r.start = start) (h2 : r.kind = .read bs n) (a : Nat) :
    covers r a ↔ start ≤ a ∧ (a : Int) < start + bs * n := by
  unfold covers Req.length
  rw [h1, h2]

theorem covers_write {r : Req} {start : Int} {data : List I32} {rows : Nat} (h1 : r.start = start)
    (h2 : r.kind = .write data rows) (a : Nat) :
    covers r a ↔ start ≤ a ∧ (a : Int) < start + data.length := by
  unfold covers Req.length
  rw [h1, h2]

theorem sound_wait (lat : Int) (m0 : Memory) (v0 : List Bool) (delay : Nat) (core1 core2 start bs n : Int)
    (data : List I32) (rows : Nat) (hlen : bs * n = data.length)
    (hm : m0.cells.length = m0.size) (hv : v0.length = m0.size) (hlat : 0 ≤ lat) (hn : 0 ≤ n) (h0 : 0 ≤ start)
    (hpos : 0 < data.length) (h1 : start + data.length ≤ m0.size) :
    Sound lat m0 v0 [testReader core1 start bs n, testDelayed delay core2 start data rows] := by
  have hreq : ∀ s ∈ [testReader core1 start bs n, testDelayed delay core2 start data rows], ∀ r ∈ requests s,
      r = { id := 0, core := core1, start := start, kind := .read bs n, submitTime := 0 } ∨
      r = { id := 0, core := core2, start := start, kind := .write data rows, submitTime := 0 } := by
    intro s hs r hr
    simp only [List.mem_cons, List.not_mem_nil, or_false] at hs
    rcases hs with rfl | rfl
    · left
      simpa [testReader, requests, ClientOp.req, List.filterMap_cons] using hr
    · right
      simpa [testDelayed, requests, ClientOp.req, List.filterMap_cons] using hr
  refine ⟨hm, hv, hlat, ?_, ?_, ?_, ?_⟩
  · intro s hs r hr
    rcases hreq s hs r hr with rfl | rfl
    · exact ⟨⟨h0, by show start + bs * n ≤ _; omega⟩, hn, fun _ => by show 0 < bs * n; omega⟩
    · exact ⟨⟨h0, h1⟩, by simp [Req.numBatches], by simp [Req.isWrite]⟩
  · intro s hs
    simp only [List.mem_cons, List.not_mem_nil, or_false] at hs
    rcases hs with rfl | rfl <;> exact orderly_of _ rfl
  · intro s hs r hr hread a ha
    rcases hreq s hs r hr with rfl | rfl
    · right
      refine ⟨testDelayed delay core2 start data rows, by simp,
        { id := 0, core := core2, start := start, kind := .write data rows, submitTime := 0 }, ?_, rfl, ⟨ha.1, ?_⟩⟩
      · simp [certain, testDelayed, awaitsRead, requests, ClientOp.req, Req.isWrite, List.takeWhile_cons,
          List.filterMap_cons]
      · have := ha.2
        simp only [Req.length] at this ⊢
        omega
    · simp [Req.isWrite] at hread
  · exact oneWaits_of v0 _ (show 1 ≤ 1 by omega)

/-- C109: `test_read_invalid_data_wait`: a read of words that are not all valid waits for the write of the other
process; whatever the order of the events, it returns the written data exactly when the delay, the service of the
write and the service of the read have passed. -/
theorem C109_read_waits (lat : Int) (m0 : Memory) (v0 : List Bool) (t0 delay : Nat) (core1 core2 start bs n : Int)
    (data : List I32) (rows : Nat) (hlen : bs * n = data.length)
    (hm : m0.cells.length = m0.size) (hv : v0.length = m0.size) (hlat : 0 ≤ lat) (hn : 0 ≤ n) (h0 : 0 ≤ start)
    (h1 : start + data.length ≤ m0.size)
    (hinv : ∃ i, i < data.length ∧ v0.getD (start.toNat + i) false = false)
    (acts : List BenchAct) (b : Bench)
    (hrun : (Bench.start m0 v0 t0 [testReader core1 start bs n, testDelayed delay core2 start data rows]).run lat acts
      = some b)
    (hT : t0 + delay + (lat * rows).toNat + (lat * n).toNat < b.ctrl.now) :
    b.ctrl.crashed = none ∧
    ∃ reader writer, b.clients = [reader, writer] ∧ reader.todo = [] ∧ writer.todo = [] ∧
      reader.got = [(0, t0 + delay + (lat * rows).toNat + (lat * n).toNat, some data)] := by
  obtain ⟨i0, hi0, hi0v⟩ := hinv
  have hS := sound_wait lat m0 v0 delay core1 core2 start bs n data rows hlen hm hv hlat hn h0 (by omega) h1
  have h := benchInv_run hS acts b hrun
  have hb : budget lat [testReader core1 start bs n, testDelayed delay core2 start data rows] =
      delay + (lat * rows).toNat + (lat * n).toNat := by
    simp [budget, cost, testReader, testDelayed, ClientOp.cost, serviceTime, Req.numBatches]
    omega
  obtain ⟨s1, s2, s3, s4⟩ := h.over (by rw [hb]; omega)
  obtain ⟨c1, c2, hcl, hd1, hd2⟩ := two_clients s2
  have hm1 : c1 ∈ b.clients := by rw [hcl]; simp
  have hm2 : c2 ∈ b.clients := by rw [hcl]; simp
  have hq1 : requests c1.done = [{ id := 0, core := core1, start := start, kind := .read bs n, submitTime := 0 }] := by
    rw [hd1]; rfl
  have hq2 : requests c2.done =
      [{ id := 0, core := core2, start := start, kind := .write data rows, submitTime := 0 }] := by
    rw [hd2]; rfl
  refine ⟨h.fine, c1, c2, hcl, s1.1 c1 hm1, s1.1 c2 hm2, ?_⟩
  have hg := (h.clients c1 hm1).got
  rw [hd1, show awaited (testReader core1 start bs n) = [0] from rfl] at hg
  obtain ⟨t, v, hg⟩ := one_got hg
  obtain ⟨l1, r, t', d, l2, e1, e2, e3, e4, e5, e6, -, e7⟩ := h.readAnswer c1 hm1 (0, t, v) (by rw [hg]; simp) _
    (by rw [hq1]; rfl) rfl
  obtain ⟨k1, k2⟩ := bare_kind e2
  have hl := h.late c1 hm1 (0, t, v) (by rw [hg]; simp)
  rw [hb] at hl
  have hs : serviceTime lat r = (lat * n).toNat := by
    unfold serviceTime Req.numBatches
    rw [k2]
  -- the only write
  have hsubs := h.subs
  rw [hcl] at hsubs
  simp only [List.flatMap_cons, List.flatMap_nil, hq1, hq2, List.append_nil, List.cons_append, List.nil_append] at hsubs
  have hwl : ((b.ctrl.submitted.filter Req.isWrite).map Req.bare).Perm
      [{ id := 0, core := core2, start := start, kind := .write data rows, submitTime := 0 }] := by
    have := hsubs.filter Req.isWrite
    rw [List.filter_map] at this
    exact this
  obtain ⟨w, hw1, hw2⟩ := map_bare_one (List.perm_singleton.1 hwl)
  obtain ⟨kw1, kw2⟩ := bare_kind hw2
  rw [hw1] at s4
  -- the read was answered after the write
  have hbefore : writesOf l1 = [w] := by
    rw [e1, writesOf_append] at s4
    cases hl1 : writesOf l1 with
    | nil =>
      exfalso
      have := e7.valid (start.toNat + i0) (by
        rw [covers_read k1 k2]; omega)
      rw [hl1] at this
      simp only [wordValid, List.foldl_nil] at this
      rw [hi0v] at this
      cases this
    | cons x xs =>
      rw [hl1] at s4
      simp only [List.cons_append, List.cons.injEq, List.append_eq_nil_iff] at s4
      rw [s4.1, s4.2.1]
  have hdat : d = data := by
    refine e7.words data (by unfold Req.length; rw [k2]; exact hlen) ?_
    intro i hi
    rw [hbefore, k1]
    simp only [wordAfter, List.foldl_cons, List.foldl_nil]
    rw [if_pos (by rw [covers_write kw1 kw2]; omega)]
    simp only [Req.value, kw2, kw1]
    congr 1
    omega
  -- times
  have hwmem : ∃ tw, .wrote w tw ∈ l1 := by
    have : w ∈ writesOf l1 := by rw [hbefore]; simp
    unfold writesOf at this
    obtain ⟨a, ha, ha'⟩ := List.mem_filterMap.1 this
    cases a with
    | wrote r t => simp only [Option.some.injEq] at ha'; subst ha'; exact ⟨t, ha⟩
    | read => simp at ha'
  obtain ⟨tw, htw⟩ := hwmem
  have hgap : (tw : Int) + service lat r ≤ t' := by
    have := h.inv.time.gap
    rw [e1, List.pairwise_append] at this
    exact this.2.2 _ htw (.read r t' d) (by simp)
  have hans := h.inv.time.answered (.wrote w tw) (by rw [e1]; simp [htw])
  obtain ⟨-, ha1, ha2⟩ := hans
  simp only [Answer.req] at ha1
  simp only [waited, Answer.time, Answer.req] at ha2
  have hsw : service lat w = lat * rows := by
    unfold service Req.numBatches; rw [kw2]
  have hsr : service lat r = lat * n := by
    unfold service Req.numBatches; rw [k2]
  obtain ⟨id, w', -, x2, x3, x4⟩ := (h.clients c2 hm2).early [.sleep delay]
    (.submit core2 start (.write data rows)) [.await 0] _ (by rw [hd2]; rfl) rfl
  have hww : w' = w := by
    have hmem : w' ∈ b.ctrl.submitted.filter Req.isWrite := by
      refine List.mem_filter.2 ⟨List.mem_of_getElem? x2, ?_⟩
      rw [← bare_isWrite, x3]; rfl
    rw [hw1] at hmem
    exact List.mem_singleton.1 hmem
  rw [hww] at x4
  simp only [delays] at x4
  have hnn := Int.mul_nonneg hlat hn
  dsimp only at e4 e5 hl
  rw [hg, e4, hdat, show t = t0 + delay + (lat * rows).toNat + (lat * n).toNat by omega]

theorem prefix_two {α : Type} {p q : List α} {x y : α} (h : p ++ q = [x, y]) : p = [] ∨ p = [x] ∨ p = [x, y] := by
  match p with
  | [] => exact Or.inl rfl
  | [a] =>
    simp only [List.cons_append, List.nil_append, List.cons.injEq] at h
    rw [h.1]; exact Or.inr (Or.inl rfl)
  | [a, b] =>
    simp only [List.cons_append, List.nil_append, List.cons.injEq] at h
    rw [h.1, h.2.1]; exact Or.inr (Or.inr rfl)
  | _ :: _ :: _ :: _ => exact absurd (congrArg List.length h) (by simp)

theorem sound_order (lat : Int) (m0 : Memory) (v0 : List Bool) (delay1 delay2 : Nat) (core start1 : Int)
    (data1 : List I32) (rows1 : Nat) (start2 : Int) (data2 : List I32) (rows2 : Nat) (bs n : Int)
    (hlen : bs * n = data1.length)
    (hm : m0.cells.length = m0.size) (hv : v0.length = m0.size) (hlat : 0 ≤ lat) (hn : 0 ≤ n)
    (h1 : 0 ≤ start1) (h1' : start1 + data1.length ≤ m0.size) (h2 : 0 ≤ start2) (h2' : start2 + data2.length ≤ m0.size)
    (hpos : 0 < data1.length) :
    Sound lat m0 v0 [testOrder delay1 delay2 core start1 data1 rows1 start2 data2 rows2 bs n] := by
  have hreq : ∀ s ∈ [testOrder delay1 delay2 core start1 data1 rows1 start2 data2 rows2 bs n], ∀ r ∈ requests s,
      r = { id := 0, core := core, start := start1, kind := .write data1 rows1, submitTime := 0 } ∨
      r = { id := 0, core := core, start := start2, kind := .write data2 rows2, submitTime := 0 } ∨
      r = { id := 0, core := core, start := start1, kind := .read bs n, submitTime := 0 } := by
    intro s hs r hr
    rw [List.mem_singleton.1 hs] at hr
    simpa [testOrder, requests, ClientOp.req, List.filterMap_cons] using hr
  refine ⟨hm, hv, hlat, ?_, ?_, ?_, ?_⟩
  · intro s hs r hr
    rcases hreq s hs r hr with rfl | rfl | rfl
    · exact ⟨⟨h1, h1'⟩, by simp [Req.numBatches], by simp [Req.isWrite]⟩
    · exact ⟨⟨h2, h2'⟩, by simp [Req.numBatches], by simp [Req.isWrite]⟩
    · exact ⟨⟨h1, by show start1 + bs * n ≤ _; omega⟩, hn, fun _ => by show 0 < bs * n; omega⟩
  · intro s hs
    rw [List.mem_singleton.1 hs]
    exact orderly_of _ rfl
  · intro s hs r hr hread a ha
    rcases hreq s hs r hr with rfl | rfl | rfl
    · simp [Req.isWrite] at hread
    · simp [Req.isWrite] at hread
    · right
      refine ⟨testOrder delay1 delay2 core start1 data1 rows1 start2 data2 rows2 bs n, by simp,
        { id := 0, core := core, start := start1, kind := .write data1 rows1, submitTime := 0 }, ?_, rfl, ⟨ha.1, ?_⟩⟩
      · simp [certain, testOrder, awaitsRead, requests, ClientOp.req, Req.isWrite, List.takeWhile_cons,
          List.filterMap_cons]
      · have := ha.2
        simp only [Req.length] at this ⊢
        omega
  · exact oneWaits_of v0 _ (show 1 ≤ 1 by omega)

/-- C109: `test_multiple_requests_order`: the process gets the events of the first write, of the second and of the
read, in this order; the read returns the words of the first write, where the second has not overwritten them. -/
theorem C109_order (lat : Int) (m0 : Memory) (v0 : List Bool) (t0 delay1 delay2 : Nat) (core start1 : Int)
    (data1 : List I32) (rows1 : Nat) (start2 : Int) (data2 : List I32) (rows2 : Nat) (bs n : Int)
    (hlen : bs * n = data1.length)
    (hm : m0.cells.length = m0.size) (hv : v0.length = m0.size) (hlat : 0 ≤ lat) (hn : 0 ≤ n)
    (h1 : 0 ≤ start1) (h1' : start1 + data1.length ≤ m0.size) (h2 : 0 ≤ start2) (h2' : start2 + data2.length ≤ m0.size)
    (hpos : 0 < data1.length) (acts : List BenchAct) (b : Bench)
    (hrun : (Bench.start m0 v0 t0 [testOrder delay1 delay2 core start1 data1 rows1 start2 data2 rows2 bs n]).run lat acts
      = some b)
    (hT : t0 + delay1 + delay2 + (lat * rows1).toNat + (lat * rows2).toNat + (lat * n).toNat < b.ctrl.now) :
    b.ctrl.crashed = none ∧
    ∃ cl t1 t2 t3, b.clients = [cl] ∧ cl.todo = [] ∧
      cl.got = [(0, t1, none), (1, t2, none), (2, t3, some ((List.range data1.length).map fun i : Nat =>
        if start2 ≤ start1 + i ∧ start1 + i < start2 + data2.length then data2.getD (start1 + i - start2).toNat 0
        else data1.getD i 0))] := by
  have hS := sound_order lat m0 v0 delay1 delay2 core start1 data1 rows1 start2 data2 rows2 bs n hlen hm hv hlat hn
    h1 h1' h2 h2' hpos
  have h := benchInv_run hS acts b hrun
  have hb : budget lat [testOrder delay1 delay2 core start1 data1 rows1 start2 data2 rows2 bs n] =
      delay1 + delay2 + (lat * rows1).toNat + (lat * rows2).toNat + (lat * n).toNat := by
    simp [budget, cost, testOrder, ClientOp.cost, serviceTime, Req.numBatches]
    omega
  obtain ⟨s1, s2, s3, s4⟩ := h.over (by rw [hb]; omega)
  obtain ⟨cl, hcl, hdone⟩ := one_client s2
  have hmem : cl ∈ b.clients := by rw [hcl]; simp
  have hq : requests cl.done = [
      { id := 0, core := core, start := start1, kind := .write data1 rows1, submitTime := 0 },
      { id := 0, core := core, start := start2, kind := .write data2 rows2, submitTime := 0 },
      { id := 0, core := core, start := start1, kind := .read bs n, submitTime := 0 }] := by
    rw [hdone]; rfl
  have hg := (h.clients cl hmem).got
  rw [hdone, show awaited (testOrder delay1 delay2 core start1 data1 rows1 start2 data2 rows2 bs n) = [0, 1, 2]
    from rfl] at hg
  obtain ⟨t1, v1, t2, v2, t3, v3, hg⟩ := three_got hg
  obtain ⟨-, -, -, -, f1, -⟩ := h.writeAnswer cl hmem (0, t1, v1) (by rw [hg]; simp) _ (by rw [hq]; rfl) rfl
  obtain ⟨-, -, -, -, f2, -⟩ := h.writeAnswer cl hmem (1, t2, v2) (by rw [hg]; simp) _ (by rw [hq]; rfl) rfl
  obtain ⟨l1, r, t', d, l2, e1, e2, e3, e4, e5, e6, -, e7⟩ := h.readAnswer cl hmem (2, t3, v3) (by rw [hg]; simp) _
    (by rw [hq]; rfl) rfl
  obtain ⟨k1, k2⟩ := bare_kind e2
  have hsub := h.alone cl hcl
  rw [hq] at hsub
  obtain ⟨w1, w2, r', hw, x1, x2, x3⟩ := map_bare_three hsub
  obtain ⟨a1, b1⟩ := bare_kind x1
  obtain ⟨a2, b2⟩ := bare_kind x2
  have hid1 := h.inv.line.ids 0 w1 (by rw [hw]; rfl)
  have hid2 := h.inv.line.ids 1 w2 (by rw [hw]; rfl)
  have hid3 := h.inv.line.ids 2 r' (by rw [hw]; rfl)
  have hr : r = r' := by
    rw [hw] at e3
    simp only [List.mem_cons, List.not_mem_nil, or_false] at e3
    rcases e3 with rfl | rfl | rfl
    · rw [b1] at k2; cases k2
    · rw [b2] at k2; cases k2
    · rfl
  subst hr
  have hwrites : writesOf b.ctrl.answers = [w1, w2] := by
    rw [s4, hw]; simp [Req.isWrite, b1, b2, k2]
  have hseen := e7.seen w2 (by rw [hw]; simp) (by simp [Req.isWrite, b2]) (by omega)
  have hbefore : writesOf l1 = [w1, w2] := by
    rw [e1, writesOf_append] at hwrites
    rcases prefix_two hwrites with hp | hp | hp
    · rw [hp] at hseen; simp at hseen
    · rw [hp] at hseen
      rw [List.mem_singleton.1 hseen] at hid2
      omega
    · exact hp
  refine ⟨h.fine, cl, t1, t2, t3, hcl, s1.1 cl hmem, ?_⟩
  rw [hg]
  dsimp only at f1 f2 e4
  rw [f1, f2, e4]
  congr 6
  refine e7.words _ (by unfold Req.length; rw [k2]; simp [hlen]) ?_
  intro i hi
  rw [List.length_map, List.length_range] at hi
  rw [hbefore, k1, List.getD_eq_getElem?_getD (l := List.map _ _), List.getElem?_map, List.getElem?_range hi]
  simp only [wordAfter, List.foldl_cons, List.foldl_nil, Option.map_some, Option.getD_some, covers_write a1 b1,
    covers_write a2 b2, Req.value, b1, b2, a1, a2]
  by_cases hc : start2 ≤ start1 + i ∧ start1 + i < start2 + data2.length
  · rw [if_pos (by omega), if_pos hc]
    congr 1
    omega
  · rw [if_neg (by omega), if_neg hc, if_pos (by omega)]
    congr 1
    omega

theorem sound_partialWrite (lat : Int) (m0 : Memory) (v0 : List Bool) (core start : Int)
    (data1 : List I32) (rows1 : Nat) (data2 : List I32) (rows2 : Nat) (bs n : Int)
    (hlen : bs * n = (data1.length + data2.length : Nat))
    (hm : m0.cells.length = m0.size) (hv : v0.length = m0.size) (hlat : 0 ≤ lat) (hn : 0 ≤ n)
    (h0 : 0 ≤ start) (h1 : start + (data1.length + data2.length : Nat) ≤ m0.size)
    (hpos : 0 < data1.length + data2.length) :
    Sound lat m0 v0 [testPartial core start data1 rows1 data2 rows2 bs n] := by
  have hreq : ∀ s ∈ [testPartial core start data1 rows1 data2 rows2 bs n], ∀ r ∈ requests s,
      r = { id := 0, core := core, start := start, kind := .write data1 rows1, submitTime := 0 } ∨
      r = { id := 0, core := core, start := start, kind := .read bs n, submitTime := 0 } ∨
      r = { id := 0, core := core, start := start + data1.length, kind := .write data2 rows2, submitTime := 0 } := by
    intro s hs r hr
    rw [List.mem_singleton.1 hs] at hr
    simpa [testPartial, requests, ClientOp.req, List.filterMap_cons] using hr
  push_cast at h1 hlen
  refine ⟨hm, hv, hlat, ?_, ?_, ?_, ?_⟩
  · intro s hs r hr
    rcases hreq s hs r hr with rfl | rfl | rfl
    · exact ⟨⟨h0, by show start + (data1.length : Int) ≤ _; omega⟩, by simp [Req.numBatches], by simp [Req.isWrite]⟩
    · exact ⟨⟨h0, by show start + bs * n ≤ _; omega⟩, hn, fun _ => by show 0 < bs * n; omega⟩
    · exact ⟨⟨by show 0 ≤ start + (data1.length : Int); omega,
        by show start + (data1.length : Int) + (data2.length : Int) ≤ _; omega⟩, by simp [Req.numBatches],
        by simp [Req.isWrite]⟩
  · intro s hs
    rw [List.mem_singleton.1 hs]
    exact orderly_of _ rfl
  · intro s hs r hr hread a ha
    rcases hreq s hs r hr with rfl | rfl | rfl
    · simp [Req.isWrite] at hread
    · right
      obtain ⟨ha1, ha2⟩ := ha
      simp only [Req.length] at ha1 ha2
      by_cases hc : (a : Int) < start + data1.length
      · refine ⟨testPartial core start data1 rows1 data2 rows2 bs n, by simp,
          { id := 0, core := core, start := start, kind := .write data1 rows1, submitTime := 0 }, ?_, rfl, ⟨ha1, hc⟩⟩
        simp [certain, testPartial, awaitsRead, requests, ClientOp.req, Req.isWrite, List.takeWhile_cons,
          List.filterMap_cons]
      · refine ⟨testPartial core start data1 rows1 data2 rows2 bs n, by simp,
          { id := 0, core := core, start := start + data1.length, kind := .write data2 rows2, submitTime := 0 }, ?_,
          rfl, ⟨by show start + (data1.length : Int) ≤ _; omega,
            by show _ < start + (data1.length : Int) + (data2.length : Int); omega⟩⟩
        simp [certain, testPartial, awaitsRead, requests, ClientOp.req, Req.isWrite, List.takeWhile_cons,
          List.filterMap_cons]
    · simp [Req.isWrite] at hread
  · exact oneWaits_of v0 _ (show 1 ≤ 1 by omega)

/-- C109: `test_read_after_partial_write`: the process ends, all words of the read are valid and hold the data of the
two writes; if some word of the second write was not valid at the start, the read returns both parts. -/
theorem C109_partial_write (lat : Int) (m0 : Memory) (v0 : List Bool) (t0 : Nat) (core start : Int)
    (data1 : List I32) (rows1 : Nat) (data2 : List I32) (rows2 : Nat) (bs n : Int)
    (hlen : bs * n = (data1.length + data2.length : Nat))
    (hm : m0.cells.length = m0.size) (hv : v0.length = m0.size) (hlat : 0 ≤ lat) (hn : 0 ≤ n)
    (h0 : 0 ≤ start) (h1 : start + (data1.length + data2.length : Nat) ≤ m0.size)
    (hpos : 0 < data1.length + data2.length) (acts : List BenchAct) (b : Bench)
    (hrun : (Bench.start m0 v0 t0 [testPartial core start data1 rows1 data2 rows2 bs n]).run lat acts = some b)
    (hT : t0 + (lat * rows1).toNat + (lat * rows2).toNat + (lat * n).toNat < b.ctrl.now) :
    b.ctrl.crashed = none ∧
    (∃ cl t1 t2 t3 data, b.clients = [cl] ∧ cl.todo = [] ∧
      cl.got = [(0, t1, none), (2, t2, none), (1, t3, some data)] ∧
      ((∃ i, i < data2.length ∧ v0.getD (start.toNat + data1.length + i) false = false) → data = data1 ++ data2)) ∧
    ∀ i, i < data1.length + data2.length →
      b.ctrl.valid[start.toNat + i]? = some true ∧
      b.ctrl.mem.cells[start.toNat + i]? = some ((data1 ++ data2).getD i 0) := by
  have hS := sound_partialWrite lat m0 v0 core start data1 rows1 data2 rows2 bs n hlen hm hv hlat hn h0 h1 hpos
  have h := benchInv_run hS acts b hrun
  have hb : budget lat [testPartial core start data1 rows1 data2 rows2 bs n] =
      (lat * rows1).toNat + (lat * rows2).toNat + (lat * n).toNat := by
    simp [budget, cost, testPartial, ClientOp.cost, serviceTime, Req.numBatches]
    omega
  push_cast at h1 hlen
  obtain ⟨s1, s2, s3, s4⟩ := h.over (by rw [hb]; omega)
  obtain ⟨cl, hcl, hdone⟩ := one_client s2
  have hmem : cl ∈ b.clients := by rw [hcl]; simp
  have hq : requests cl.done = [
      { id := 0, core := core, start := start, kind := .write data1 rows1, submitTime := 0 },
      { id := 0, core := core, start := start, kind := .read bs n, submitTime := 0 },
      { id := 0, core := core, start := start + data1.length, kind := .write data2 rows2, submitTime := 0 }] := by
    rw [hdone]; rfl
  have hg := (h.clients cl hmem).got
  rw [hdone, show awaited (testPartial core start data1 rows1 data2 rows2 bs n) = [0, 2, 1] from rfl] at hg
  obtain ⟨t1, v1, t2, v2, t3, v3, hg⟩ := three_got hg
  obtain ⟨-, -, -, -, f1, -⟩ := h.writeAnswer cl hmem (0, t1, v1) (by rw [hg]; simp) _ (by rw [hq]; rfl) rfl
  obtain ⟨-, -, -, -, f2, -⟩ := h.writeAnswer cl hmem (2, t2, v2) (by rw [hg]; simp) _ (by rw [hq]; rfl) rfl
  obtain ⟨l1, r, t', d, l2, e1, e2, e3, e4, e5, e6, -, e7⟩ := h.readAnswer cl hmem (1, t3, v3) (by rw [hg]; simp) _
    (by rw [hq]; rfl) rfl
  obtain ⟨k1, k2⟩ := bare_kind e2
  have hsub := h.alone cl hcl
  rw [hq] at hsub
  obtain ⟨w1, r', w2, hw, x1, x2, x3⟩ := map_bare_three hsub
  obtain ⟨a1, b1⟩ := bare_kind x1
  obtain ⟨a2, b2⟩ := bare_kind x3
  have hr : r = r' := by
    rw [hw] at e3
    simp only [List.mem_cons, List.not_mem_nil, or_false] at e3
    rcases e3 with rfl | rfl | rfl
    · rw [b1] at k2; cases k2
    · rfl
    · rw [b2] at k2; cases k2
  subst hr
  have hwrites : writesOf b.ctrl.answers = [w1, w2] := by
    rw [s4, hw]; simp [Req.isWrite, b1, b2, k2]
  have hafter : ∀ i, i < data1.length + data2.length →
      wordAfter (m0.cells.getD (start.toNat + i) 0) [w1, w2] (start.toNat + i) = (data1 ++ data2).getD i 0 := by
    intro i hi
    simp only [wordAfter, List.foldl_cons, List.foldl_nil, covers_write a1 b1, covers_write a2 b2, Req.value, b1, b2,
      a1, a2]
    by_cases hc : data1.length ≤ i
    · rw [if_pos (by omega), List.getD_eq_getElem?_getD (l := data1 ++ data2), List.getElem?_append_right hc,
        List.getD_eq_getElem?_getD]
      congr 2
      omega
    · rw [if_neg (by omega), if_pos (by omega), List.getD_eq_getElem?_getD (l := data1 ++ data2),
        List.getElem?_append_left (by omega), List.getD_eq_getElem?_getD]
      congr 2
      omega
  refine ⟨h.fine, ⟨cl, t1, t2, t3, d, hcl, s1.1 cl hmem, ?_, ?_⟩, ?_⟩
  · dsimp only at f1 f2 e4
    rw [hg, f1, f2, e4]
  · rintro ⟨i0, hi0, hi0v⟩
    have hvalid := e7.valid (start.toNat + data1.length + i0) (by rw [covers_read k1 k2]; omega)
    have hbefore : writesOf l1 = [w1, w2] := by
      rw [e1, writesOf_append] at hwrites
      rcases prefix_two hwrites with hp | hp | hp
      · rw [hp, hi0v] at hvalid
        simp [wordValid] at hvalid
      · rw [hp, hi0v] at hvalid
        simp only [wordValid, List.foldl_cons, List.foldl_nil, covers_write a1 b1] at hvalid
        rw [if_neg (by omega)] at hvalid
        cases hvalid
      · exact hp
    refine e7.words _ (by unfold Req.length; rw [k2]; simp [hlen]) ?_
    intro i hi
    rw [List.length_append] at hi
    rw [hbefore, k1]
    exact hafter i hi
  · intro i hi
    have ha : start.toNat + i < m0.size := by omega
    have c1 := h.inv.mem.cells _ ha
    have c2 := h.inv.mem.vals _ ha
    rw [hwrites] at c1 c2
    rw [hafter i hi] at c1
    rw [List.getD_eq_getElem?_getD, List.getElem?_eq_getElem (by rw [h.inv.mem.len]; exact ha)] at c1
    rw [List.getD_eq_getElem?_getD, List.getElem?_eq_getElem (by rw [h.inv.mem.vlen]; exact ha)] at c2
    rw [List.getElem?_eq_getElem (by rw [h.inv.mem.vlen]; exact ha),
      List.getElem?_eq_getElem (by rw [h.inv.mem.len]; exact ha)]
    simp only [Option.getD_some] at c1 c2
    rw [c1, c2]
    refine ⟨?_, rfl⟩
    congr 1
    apply wordValid_of
    right
    by_cases hc : data1.length ≤ i
    · exact ⟨w2, by simp, by rw [covers_write a2 b2]; omega⟩
    · exact ⟨w1, by simp, by rw [covers_write a1 b1]; omega⟩

/-! ## Examples -/

/-- Actions up to time `T`, chosen in the order of the list `order`. -/
def schedule (lat : Int) (T : Nat) (order : List BenchAct) : Nat → Bench → List BenchAct
  | 0, _ => []
  | fuel + 1, b =>
    if T ≤ b.ctrl.now then []
    else match order.find? fun a => (b.act lat a).isSome with
      | none => []
      | some a => a :: schedule lat T order fuel ((b.act lat a).getD b)

/-- The DRAM of the examples: 12 words, none valid. -/
def benchDram : Memory := Memory.new 12
def benchValid : List Bool := List.replicate 12 false

def clientsFirst : List BenchAct := [.client 0, .client 1, .pick, .dispatch, .grant, .complete, .tick]
def clientsLast : List BenchAct := [.complete, .grant, .dispatch, .pick, .client 1, .client 0, .tick]

/-- The end of a schedule. -/
def benchEnd (lat : Int) (T : Nat) (order : List BenchAct) (scripts : List (List ClientOp)) : Bench :=
  ((Bench.start benchDram benchValid 0 scripts).run lat
    (schedule lat T order 200 (Bench.start benchDram benchValid 0 scripts))).getD ⟨Ctrl.started benchDram [] 0, []⟩

/-- `test_read_invalid_data_wait` with the numbers of the test, in two orders of events: the read returns at
5 + 3 + 1. -/
def waitScripts : List (List ClientOp) := [testReader 0 0 3 1, testDelayed 5 1 0 [100, 200, 300] 3]

theorem waitTest_run (order : List BenchAct) (h : order = clientsFirst ∨ order = clientsLast) :
    (Bench.start benchDram benchValid 0 waitScripts).run 1
      (schedule 1 20 order 200 (Bench.start benchDram benchValid 0 waitScripts)) =
      some (benchEnd 1 20 order waitScripts) ∧
    (benchEnd 1 20 order waitScripts).ctrl.now = 20 := by
  rcases h with rfl | rfl <;> decide +kernel

example (order : List BenchAct) (h : order = clientsFirst ∨ order = clientsLast) :=
  C109_read_waits 1 benchDram benchValid 0 5 0 1 0 3 1 [100, 200, 300] 3 rfl rfl rfl (by decide) (by decide)
    (by decide) (by decide) ⟨0, by decide, rfl⟩ _ _ (waitTest_run order h).1 (by rw [(waitTest_run order h).2]; decide)

example : (benchEnd 1 20 clientsLast waitScripts).clients.map (fun cl => cl.got) =
    [[(0, 9, some [100, 200, 300])], [(0, 8, none)]] := by decide +kernel

/-- The general theorems apply to these processes. -/
theorem waitTest_sound : Sound 1 benchDram benchValid waitScripts :=
  sound_wait 1 benchDram benchValid 5 0 1 0 3 1 [100, 200, 300] 3 rfl rfl rfl (by decide) (by decide) (by decide)
    (by decide) (by decide)

example := C109_finishes 1 benchDram benchValid 0 waitScripts waitTest_sound _ _ (waitTest_run clientsFirst (Or.inl rfl)).1
example := C109_returns 1 benchDram benchValid 0 waitScripts waitTest_sound
example := C109_events 1 benchDram benchValid 0 waitScripts waitTest_sound _ _ (waitTest_run clientsFirst (Or.inl rfl)).1
example := C109_delays 1 benchDram benchValid 0 waitScripts waitTest_sound _ _ (waitTest_run clientsFirst (Or.inl rfl)).1
  ((benchEnd 1 20 clientsFirst waitScripts).clients.getD 1 { todo := [] }) (by decide +kernel) [.sleep 5] [.await 0]
  1 0 (.write [100, 200, 300] 3) (by decide +kernel)

theorem benchTest_run (T : Nat) (scripts : List (List ClientOp))
    (h : (Bench.start benchDram benchValid 0 scripts).run 1
      (schedule 1 T clientsFirst 200 (Bench.start benchDram benchValid 0 scripts)) =
      some (benchEnd 1 T clientsFirst scripts) ∧ (benchEnd 1 T clientsFirst scripts).ctrl.now = T) :
    ∃ acts b, (Bench.start benchDram benchValid 0 scripts).run 1 acts = some b ∧ b.ctrl.now = T :=
  ⟨_, _, h⟩

/-- The other tests with their numbers. -/
example : ∃ acts b, (Bench.start benchDram benchValid 0 [testWriter 0 0 [1, 2, 3, 4, 5] 5]).run 1 acts = some b ∧
    b.ctrl.now = 10 := benchTest_run 10 _ (by decide +kernel)
example (acts b) (h : (Bench.start benchDram benchValid 0 [testWriter 0 0 [1, 2, 3, 4, 5] 5]).run 1 acts = some b)
    (ht : b.ctrl.now = 10) :=
  C109_write_request 1 benchDram benchValid 0 0 0 [1, 2, 3, 4, 5] 5 rfl rfl (by decide) (by decide) (by decide) acts b
    h (by rw [ht]; decide)

example : ∃ acts b, (Bench.start demoDram demoValid 0 [testReader 0 0 2 1]).run 1 acts = some b ∧
    b.ctrl.now = 10 :=
  ⟨schedule 1 10 clientsFirst 200 (Bench.start demoDram demoValid 0 [testReader 0 0 2 1]),
    ((Bench.start demoDram demoValid 0 [testReader 0 0 2 1]).run 1
      (schedule 1 10 clientsFirst 200 (Bench.start demoDram demoValid 0 [testReader 0 0 2 1]))).getD
      ⟨Ctrl.started benchDram [] 0, []⟩, by decide +kernel⟩
example (acts b) (h : (Bench.start demoDram demoValid 0 [testReader 0 0 2 1]).run 1 acts = some b)
    (ht : b.ctrl.now = 10) :=
  C109_read_valid 1 demoDram demoValid 0 0 0 2 1 [5, 6] rfl rfl rfl (by decide) (by decide) (by decide) (by decide)
    (by decide) (by decide) acts b h (by rw [ht]; decide)

example : ∃ acts b, (Bench.start benchDram benchValid 0 [testOrder 1 1 0 0 [1, 2, 3] 3 9 [4, 5, 6] 3 3 1]).run 1 acts
    = some b ∧ b.ctrl.now = 30 := benchTest_run 30 _ (by decide +kernel)
example (acts b) (h : (Bench.start benchDram benchValid 0 [testOrder 1 1 0 0 [1, 2, 3] 3 9 [4, 5, 6] 3 3 1]).run 1 acts
    = some b) (ht : b.ctrl.now = 30) :=
  C109_order 1 benchDram benchValid 0 1 1 0 0 [1, 2, 3] 3 9 [4, 5, 6] 3 3 1 rfl rfl rfl (by decide) (by decide)
    (by decide) (by decide) (by decide) (by decide) (by decide) acts b h (by rw [ht]; decide)

example : ∃ acts b, (Bench.start benchDram benchValid 0 [testPartial 0 0 [1, 2, 3, 4, 5] 5 [6, 7, 8, 9, 10] 5 10 1]).run
    1 acts = some b ∧ b.ctrl.now = 30 := benchTest_run 30 _ (by decide +kernel)
example (acts b) (h : (Bench.start benchDram benchValid 0
      [testPartial 0 0 [1, 2, 3, 4, 5] 5 [6, 7, 8, 9, 10] 5 10 1]).run 1 acts = some b) (ht : b.ctrl.now = 30) :=
  C109_partial_write 1 benchDram benchValid 0 0 0 [1, 2, 3, 4, 5] 5 [6, 7, 8, 9, 10] 5 10 1 rfl rfl rfl (by decide)
    (by decide) (by decide) (by decide) (by decide) acts b h (by rw [ht]; decide)

/-- C109: with two reads that wait the claim fails: two processes wait for the same word, a third writes it, and one
of the reads is never answered (C32). -/
theorem C109_two_readers_witness :
    let scripts := [testReader 0 2 1 1, testReader 1 2 1 1, testDelayed 5 2 2 [7] 1]
    ∃ acts b, (Bench.start benchDram benchValid 0 scripts).run 1 acts = some b ∧ b.ctrl.now = 50 ∧
      budget 1 scripts = 8 ∧ b.clients.map (fun cl => cl.todo) = [[], [.await 0], []] := by
  refine ⟨schedule 1 50 [.client 0, .client 1, .client 2, .pick, .dispatch, .grant, .complete, .tick] 300
      (Bench.start benchDram benchValid 0 [testReader 0 2 1 1, testReader 1 2 1 1, testDelayed 5 2 2 [7] 1]),
    ((Bench.start benchDram benchValid 0 [testReader 0 2 1 1, testReader 1 2 1 1, testDelayed 5 2 2 [7] 1]).run 1
      (schedule 1 50 [.client 0, .client 1, .client 2, .pick, .dispatch, .grant, .complete, .tick] 300
      (Bench.start benchDram benchValid 0 [testReader 0 2 1 1, testReader 1 2 1 1, testDelayed 5 2 2 [7] 1]))).getD
      ⟨Ctrl.started benchDram [] 0, []⟩, ?_⟩
  decide +kernel

end Ramwich
