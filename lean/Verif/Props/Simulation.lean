import Verif.Lemmas.Simulation
import Verif.Props.Apart
import Verif.Props.Mnist

/-! # C97: `RAMwich.run` from the files to the report -/
namespace Ramwich

open Spec

section
variable {c0 c : Config} (hsim : Simulable c0) (hb : c0.build = .ok c) (hp : 0 < c.mvmuConfig.xbarSize * c.numMvmusPerCore)
  (hrr : c.mvmuConfig.haveRramXbar = true) (hss : c.mvmuConfig.haveSramXbar = false)
  {l : Libs} {fl : FloatActs} {js : List Json} {w : NpzFile}
  (hh : ∀ n ∈ (programmed l c js w).nodes, ∀ x ∈ n.tiles, .halt ∈ x.operations)
include hsim hb hp hrr hss hh

/-- C97: calls of `run` that return are runs to the end in the sense of C90: what C50, C83–C95 say about complete runs of a
node holds for all nodes of a simulator, in simulated time, in one environment. -/
theorem C97_complete (hist : List Completed) (s : Sim) (h : batch l fl (programmed l c js w) hist s) :
    session l (programmed l c js w) (hist.map fun e => (e.1, fun a => c.sysCfg fl (e.2.1 a),
      fun a => (e.2.2.node a).ts.plain (startOf (simulator l c js w e.1) a))) s ∧
    ∃ s', s.reset = (.ok (), s') :=
  let ⟨h1, s', h2, _⟩ := batch_session hsim hb hp hrr hss hh h
  ⟨h1, s', h2⟩

section
variable (hist : List Completed) (s : Sim) (hbef : before l fl (programmed l c js w) hist s) (act : Activation)
  (noise : Noises) (x : Whole) (s' : Sim) (hr : returns l s act fl noise x s')
include hbef hr

/-- The times in the objects, from those of the processes. -/
theorem times_eq (a : Nat) (ha : a < c.numNodes) :
    (∀ t < c.numTilesPerNode, ∃ k ≤ x.now, (x.node a).active t = some k ∧
      ∀ j < c.numCoresPerTile, ∃ d ≤ k, ((x.node a).ts.pipe t j).doneAt = some d) ∧ (x.left a).isSome = true := by
  have hbt := before_between hsim hb hp hrr hss hh hbef
  obtain ⟨es, hes⟩ := hr.runs
  have hev := running_events hbt hes
  have hover := hr.over
  have hfine := hr.fine
  rw [between_length hbt] at hover hfine
  have hl : (x.left a).isSome = true := by
    unfold Whole.over at hover
    rw [List.all_eq_true] at hover
    exact hover a (List.mem_range.2 ha)
  refine ⟨fun t ht => ?_, hl⟩
  obtain ⟨k, hk, h1⟩ := (C96_end_time _ _ _ _ sim_ok es x hev hover).1 a ha t ht
  refine ⟨k, hk, h1, fun j hj => ?_⟩
  obtain ⟨as, f, h2, -, h3, -⟩ := C96_alone _ _ _ _ sim_ok es x hev a ha
  have hts : (x.node a).ts = f.ts := by rw [h3]
  have hact : (x.node a).active = f.active := by rw [h3]
  obtain ⟨n, hn, hready, he⟩ := sim_node (l := l) (js := js) (w := w) (act := act) ha
  rw [he] at h2
  have hall := halt_fed hh l.oob act
  have hhalt : .halt ∈ (nodeInit c n).ops t := by
    have hlt : t < n.tiles.length := by rw [(hready fl).count]; exact ht
    show .halt ∈ (n.tiles.getD t _).operations
    rw [List.getD_eq_getElem?_getD, List.getElem?_eq_getElem hlt, Option.getD_some]
    exact hall n (List.mem_of_getElem? hn) _ (List.getElem_mem hlt)
  obtain ⟨d, h4, h5⟩ := (C75_covers _ _ _ (ready_ok (hready fl)) as f h2 (by rw [← hts]; exact alive_of hfine ha) t ht k
    (by rw [← hact]; exact h1) hhalt).1 j hj
  exact ⟨d, h5, by rw [hts]; exact h4⟩

omit hsim hb hp hrr hss hh hbef hr in
theorem afterRun_times {n : NodeObj} {tiles cores : Nat} (h1 : n.tiles.length = tiles) (h2 : ∀ x ∈ n.tiles, x.cores.length = cores) (y : Sys)
    {u v : RunTimes} (ht : ∀ t < tiles, u.tile t = v.tile t) (hc : ∀ t < tiles, ∀ k < cores, u.core t k = v.core t k)
    (hq : u.busy = v.busy) (hk : u.tracking = v.tracking) : n.afterRun y u = n.afterRun y v := by
  unfold NodeObj.afterRun
  rw [hq, hk]
  congr 1
  apply List.ext_getElem?
  intro t
  rw [List.getElem?_mapIdx, List.getElem?_mapIdx]
  cases hx : n.tiles[t]? with
  | none => rfl
  | some x =>
    have hlt : t < tiles := by rw [← h1]; exact (List.getElem?_eq_some_iff.1 hx).1
    simp only [Option.map_some, Option.some.injEq]
    rw [ht t hlt]
    congr 1
    apply List.ext_getElem?
    intro k
    rw [List.getElem?_mapIdx, List.getElem?_mapIdx]
    cases ho : x.cores[k]? with
    | none => rfl
    | some o =>
      have hlk : k < cores := by rw [← h2 x (List.mem_of_getElem? hx)]; exact (List.getElem?_eq_some_iff.1 ho).1
      simp only [Option.map_some]
      rw [hc t hlt k hlk]

/-- C97: the objects after a call of `run` that has returned: those of a new simulator with the same files and the same
activation, as the processes have left them; the times are those of the clock (`active_cycles` of tiles and cores), except
for `queue_busy_cycles`, which is the sum over all calls so far. -/
theorem C97_objects :
    s'.nodes = (simulator l c js w act).nodes.mapIdx fun a n => n.afterRun (x.node a).ts.sys (timesAfter hist x a) := by
  have hbt := before_between hsim hb hp hrr hss hh hbef
  have hc := between_config hbt
  rw [hr.after]
  unfold Sim.afterWhole
  dsimp only
  apply List.ext_getElem?
  intro a
  rw [List.getElem?_mapIdx, List.getElem?_mapIdx]
  have h1 := canon_node (fed_same hbt act).2 a
  cases hx : (fed l s act).nodes[a]? with
  | none =>
    rw [hx] at h1
    cases hy : (simulator l c js w act).nodes[a]? with
    | none => rfl
    | some n => rw [hy] at h1; cases h1
  | some m =>
    rw [hx] at h1
    cases hy : (simulator l c js w act).nodes[a]? with
    | none => rw [hy] at h1; cases h1
    | some n =>
      rw [hy] at h1
      have h2 : canonNode m = canonNode n := by injection h1
      have hlen : (simulator l c js w act).nodes.length = c.numNodes := (C50_loaded c someActs l _).2.1
      have ha : a < c.numNodes := by rw [← hlen]; exact (List.getElem?_eq_some_iff.1 hy).1
      have hready : readyNode c fl n := (C50_loaded c fl l _).2.2 n (List.mem_of_getElem? hy)
      obtain ⟨ht, hl⟩ := times_eq hsim hb hp hrr hss hh hist s hbef act noise x s' hr a ha
      have hbusy : m.queueBusyCycles = busySum hist a := by
        have e := (fed_netSide (l := l) s act).trans (before_netSide hbef)
        have e1 := congrArg (fun x => x[a]?) e
        simp only [netSide, List.getElem?_map, hx, List.getElem?_range ha, Option.map_some, Option.some.injEq,
          Prod.mk.injEq] at e1
        exact e1.1
      simp only [Option.map_some, Option.some.injEq]
      rw [← afterRun_canon m, h2, afterRun_canon]
      refine afterRun_times hready.count hready.cores _ (fun t htt => ?_) (fun t htt k hk => ?_) ?_ ?_
      · obtain ⟨j, -, e, -⟩ := ht t htt
        simp only [NodeObj.timesOf, timesAfter, e, Option.getD_some]
      · obtain ⟨j, -, -, e⟩ := ht t htt
        obtain ⟨d, -, e⟩ := e k hk
        simp only [NodeObj.timesOf, timesAfter, e, Option.getD_some]
      · simp only [NodeObj.timesOf, timesAfter, hbusy]
        rfl
      · simp only [NodeObj.timesOf, timesAfter, hl, Bool.not_true]

/-- C97: the report that `run` prints at its end (ramwich.py:203): all counters are sums over the texts of the programs
(C95), the cycles are the times of the processes. -/
theorem C97_report (hfit : ∀ n ∈ (simulator l c js w act).nodes, transfersFit c.numTilesPerNode (nodeInit c n).ops) (p : Power) :
    s'.getStats p = Sim.getStats p { simulator l c js w act with
      nodes := (simulator l c js w act).nodes.mapIdx fun a n => ledgerNode c n (timesAfter hist x a) } := by
  have hbt := before_between hsim hb hp hrr hss hh hbef
  unfold Sim.getStats
  rw [C97_objects hsim hb hp hrr hss hh hist s hbef act noise x s' hr]
  congr 1
  apply List.ext_getElem?
  intro a
  simp only [List.getElem?_map, List.getElem?_mapIdx]
  cases hn : (simulator l c js w act).nodes[a]? with
  | none => rfl
  | some n =>
    have hready : readyNode c fl n := (C50_loaded c fl l _).2.2 n (List.mem_of_getElem? hn)
    have hend := (between_run hbt (returns_once hbt hh hr)).2.1 a n hn
    simp only [Option.map_some, Option.some.injEq]
    rw [← afterRun_plain n (x.node a) (startOf (simulator l c js w act) a)]
    exact C95_report c0 c hsim hb fl n hready (by rw [hready.count]; exact hfit n (List.mem_of_getElem? hn)) _ _ hend p _

/-- C97: `active_cycles` of a core is at most that of its tile, that of a tile at most the time that `run` reports
(ramwich.py:205), and this time is that of a tile. -/
theorem C97_cycles :
    (∀ n ∈ s'.nodes, ∀ y ∈ n.tiles, 0 ≤ y.activeCycles ∧ y.activeCycles ≤ x.now ∧
      ∀ o ∈ y.cores, 0 ≤ o.activeCycles ∧ o.activeCycles ≤ y.activeCycles) ∧
    (x.now = 0 ∨ ∃ n ∈ s'.nodes, ∃ y ∈ n.tiles, y.activeCycles = x.now) := by
  have hbt := before_between hsim hb hp hrr hss hh hbef
  have hobj := C97_objects hsim hb hp hrr hss hh hist s hbef act noise x s' hr
  have hlen : (simulator l c js w act).nodes.length = c.numNodes := (C50_loaded c someActs l _).2.1
  refine ⟨fun n' hn' => ?_, ?_⟩
  · rw [hobj] at hn'
    obtain ⟨a, ha⟩ := List.mem_iff_getElem?.1 hn'
    rw [List.getElem?_mapIdx] at ha
    cases hn : (simulator l c js w act).nodes[a]? with
    | none => rw [hn] at ha; cases ha
    | some n =>
      rw [hn] at ha
      injection ha with ha
      subst ha
      have hlt : a < c.numNodes := by rw [← hlen]; exact (List.getElem?_eq_some_iff.1 hn).1
      have hready : readyNode c fl n := (C50_loaded c fl l _).2.2 n (List.mem_of_getElem? hn)
      obtain ⟨ht, -⟩ := times_eq hsim hb hp hrr hss hh hist s hbef act noise x s' hr a hlt
      intro y hy
      obtain ⟨t, hy⟩ := List.mem_iff_getElem?.1 hy
      simp only [NodeObj.afterRun, List.getElem?_mapIdx] at hy
      cases hz : n.tiles[t]? with
      | none => rw [hz] at hy; cases hy
      | some z =>
        rw [hz] at hy
        injection hy with hy
        subst hy
        have htt : t < c.numTilesPerNode := by rw [← hready.count]; exact (List.getElem?_eq_some_iff.1 hz).1
        obtain ⟨k, hk, e, hd⟩ := ht t htt
        have e' : (timesAfter hist x a).tile t = k := by simp only [timesAfter, e, Option.getD_some]
        refine ⟨by show 0 ≤ (timesAfter hist x a).tile t; rw [e']; omega,
          by show (timesAfter hist x a).tile t ≤ x.now; rw [e']; omega, fun o ho => ?_⟩
        obtain ⟨j, ho⟩ := List.mem_iff_getElem?.1 ho
        rw [List.getElem?_mapIdx] at ho
        cases hq : z.cores[j]? with
        | none => rw [hq] at ho; cases ho
        | some q =>
          rw [hq] at ho
          injection ho with ho
          subst ho
          have hj : j < c.numCoresPerTile := by
            rw [← hready.cores z (List.mem_of_getElem? hz)]; exact (List.getElem?_eq_some_iff.1 hq).1
          obtain ⟨d, hdk, e2⟩ := hd j hj
          have e3 : (timesAfter hist x a).core t j = d := by simp only [timesAfter, e2, Option.getD_some]
          refine ⟨by show 0 ≤ (timesAfter hist x a).core t j; rw [e3]; omega, ?_⟩
          show (timesAfter hist x a).core t j ≤ (timesAfter hist x a).tile t
          rw [e3, e']
          omega
  · obtain ⟨es, hes⟩ := hr.runs
    have hev := running_events hbt hes
    have hover := hr.over
    rw [between_length hbt] at hover
    refine (C96_end_time _ _ _ _ sim_ok es x hev hover).2.imp_right fun ⟨a, ha, t, ht, e⟩ => ?_
    obtain ⟨n, hn, hready, -⟩ := sim_node (l := l) (js := js) (w := w) (act := act) ha
    refine ⟨n.afterRun (x.node a).ts.sys (timesAfter hist x a), ?_, ?_⟩
    · rw [hobj]
      exact List.mem_of_getElem? (i := a) (by rw [List.getElem?_mapIdx, hn]; rfl)
    · have hlt : t < n.tiles.length := by rw [(hready fl).count]; exact ht
      refine ⟨_, List.mem_of_getElem? (i := t) (by
        simp only [NodeObj.afterRun, List.getElem?_mapIdx, List.getElem?_eq_getElem hlt]; rfl), ?_⟩
      show (timesAfter hist x a).tile t = x.now
      simp only [timesAfter, e, Option.getD_some]

end
end

/-! ## From the files -/

/-- A solution only depends on the DRAMs of the tiles that exist. -/
theorem solution_mem {p : CoreParams} {tiles cores : Nat} {prog : Nat → Nat → List CoreOp} {ops : Nat → List TileOp}
    {start : Nat → Nat → CoreState} {errors : Nat → Nat → Nat → MvmErrors} {there : Nat → Nat → Prop}
    {given mem mem' : Nat → Nat → Int} {final : Nat → Nat → CoreState} (hm : ∀ t < tiles, mem' t = mem t)
    (h : solution p tiles cores prog ops start errors there given mem final) :
    solution p tiles cores prog ops start errors there given mem' final where
  core t ht k hk := by rw [hm t ht]; exact h.core t ht k hk
  transfer src hs dst hd := by rw [hm src hs, hm dst hd]; exact h.transfer src hs dst hd
  input t ht := by rw [hm t ht]; exact h.input t ht

section
variable {c c' : Config} {js : List Json} {ps : List Placed} {act : Activation} {xs : List ℚ} {moves : Nat → List DryMove}
  (hn : 0 < c'.numNodes) (hrun : ∀ a < c'.numNodes, runnable c c' a js ps act xs (moves a))
  (hrr : c'.mvmuConfig.haveRramXbar = true) (hss : c'.mvmuConfig.haveSramXbar = false)
  (hh : ∀ a < c'.numNodes, ∀ t < c'.numTilesPerNode, .halt ∈ tileProgram ps a t)
  (l : Libs) (w : NpzFile) (fl : FloatActs)
include hn hrun hh

theorem files_halt : AllHalt (programmed l c' js w) := by
  intro n hn' x hx
  have hlen : (programmed l c' js w).nodes.length = c'.numNodes := (C50_loaded c' someActs l _).2.1
  obtain ⟨a, ha⟩ := List.mem_iff_getElem?.1 hn'
  obtain ⟨t, ht⟩ := List.mem_iff_getElem?.1 hx
  have hlt : a < c'.numNodes := by rw [← hlen]; exact (List.getElem?_eq_some_iff.1 ha).1
  have htt : t < c'.numTilesPerNode := by
    rw [← ((C50_loaded c' someActs l _).2.2 n hn').count]; exact (List.getElem?_eq_some_iff.1 ht).1
  have h1 := (face_operations l c' (hrun a hlt).entries (hrun a hlt).targets a t hlt htt).2
  rw [← face_weights l _ w] at h1
  have h2 : (tileAt (programmed l c' js w) a t).map face = _ := h1
  have h3 : tileAt (programmed l c' js w) a t = some x := by
    unfold tileAt nodeAt
    rw [ha]
    exact ht
  rw [h3] at h2
  injection h2 with h2
  have h4 : x.operations = tileProgram ps a t := congrArg (·.1) h2
  rw [h4]
  exact hh a hlt t htt

/-- The condition of the report (C95, C97) from the files. -/
theorem files_fit (hp : ∀ a < c'.numNodes, paired c' ps a)
    (hs : ∀ a < c'.numNodes, ∀ t < c'.numTilesPerNode, ∀ b i w v : Int, .receive b i w v ∈ tileProgram ps a t →
      0 ≤ i ∧ i < c'.numTilesPerNode) :
    ∀ n ∈ (simulator l c' js w act).nodes, transfersFit c'.numTilesPerNode (nodeInit c' n).ops := by
  intro n hn'
  obtain ⟨a, ha⟩ := List.mem_iff_getElem?.1 hn'
  have hlen : (simulator l c' js w act).nodes.length = c'.numNodes := (C50_loaded c' someActs l _).2.1
  have hlt : a < c'.numNodes := by rw [← hlen]; exact (List.getElem?_eq_some_iff.1 ha).1
  obtain ⟨m, h1, -, -, -, hprog⟩ := runnable_checked (hrun a hlt) l w someActs fun _ _ _ _ _ => ⟨fun _ _ _ => 0, fun _ _ _ => 0⟩
  cases h1.symm.trans ha
  refine ⟨fun t ht b i w v h => hs a hlt t ht b i w v ?_, fun src h1 dst h2 => ?_⟩
  · rw [← (hprog t ht).1]; exact h
  · rw [(hprog src h1).1, (hprog dst h2).1]; exact (hp a hlt).matched src h1 dst h2

include hrr hss

section
variable (hist : List Completed) (s : Sim) (hbef : before l fl (programmed l c' js w) hist s) (noise : Noises)
include hbef

theorem files_between : between l c' js w s :=
  before_between (hrun 0 hn).simulable (hrun 0 hn).build (hrun 0 hn).unit hrr hss (files_halt hn hrun hh l w) hbef

/-- C97: `run` can be called: the activation is loaded, and the processes of all nodes start. -/
theorem C97_starts : running l s act fl noise [] (Whole.start (startOf (fed l s act))) := by
  refine ⟨?_, before_tracks hbef, rfl⟩
  rw [(fed_same (files_between hn hrun hrr hss hh l w fl hist s hbef) act).1]
  exact (C86_loads (hrun 0 hn) l w).2.1

theorem files_node (a : Nat) (ha : a < c'.numNodes) :
    (∀ as f, (startOf (simulator l c' js w act) a).fstart.run (c'.sysCfg fl (noise a)) c'.stageLat as = some f →
      f.ts.sys.crashed = none) ∧
    programCycles (c'.sysCfg fl (noise a)) c'.stageLat (startOf (simulator l c' js w act) a) = fileCycles c' ps a ∧
    (apart (coreParamsOf c' id id) c'.numTilesPerNode c'.numCoresPerTile (coreProgram ps a) (tileProgram ps a) →
      ∀ as f, (startOf (simulator l c' js w act) a).fstart.run (c'.sysCfg fl (noise a)) c'.stageLat as = some f →
        fileCycles c' ps a < f.ts.now → allReturned (c'.sysCfg fl (noise a)) f) := by
  obtain ⟨n, h1, -, hch, hl, hprog⟩ := runnable_checked (hrun a ha) l w fl (noise a)
  obtain ⟨n', h2, -, he⟩ := sim_node (l := l) (js := js) (w := w) (act := act) ha
  cases h1.symm.trans h2
  rw [he]
  have hcyc := fileCycles_eq c' fl (noise a) (nodeInit c' n) ps a hprog
  refine ⟨fun as f hf => (C85_simulation _ _ _ hch hl as f hf).1, hcyc.symm, fun hd as f hf hlate => ?_⟩
  exact (C94_done_in_time _ _ _ hch hl ((apart_congr hprog).2 hd) as f hf (by rw [← hcyc]; exact hlate)).2

/-- C97: no simulation of files that pass the check of C85 raises, and as long as it is not over it goes on. -/
theorem C97_never_raises (es : List WAct) (x : Whole) (hx : running l s act fl noise es x) :
    x.raised s.nodes.length = false ∧
    (x.over s.nodes.length = true ∨ ∃ e y, running l s act fl noise (es ++ [e]) y) := by
  have hbt := files_between hn hrun hrr hss hh l w fl hist s hbef
  have hev := running_events hbt hx
  have hr : x.raised c'.numNodes = false := by
    refine Bool.eq_false_iff.2 fun hr => ?_
    obtain ⟨a, ha, as, f, h1, -, h3⟩ := C96_raised _ _ _ _ sim_ok es x hev hr
    rw [(files_node hn hrun hrr hss hh l w fl hist s hbef noise a ha).1 as f h1] at h3
    cases h3
  rw [between_length hbt]
  refine ⟨hr, ?_⟩
  by_cases ho : x.over c'.numNodes = true
  · exact .inl ho
  · obtain ⟨e, y, h1⟩ := C96_always_events _ _ _ _ sim_ok es x hev hr (Bool.eq_false_iff.2 ho)
    refine .inr ⟨e, y, hx.loads, hx.tracks, wrun_append_some hx.events ?_⟩
    rw [between_length hbt, between_config hbt]
    simp [Whole.run, h1]

/-- C97: if `run` returns, it returns by the time that the operations of one of the nodes need if everything happens one after
the other; if it has not returned by then, it never will. -/
theorem C97_in_time (T : Nat) (hT : ∀ a < c'.numNodes, fileCycles c' ps a ≤ T) (es : List WAct) (x : Whole)
    (hx : running l s act fl noise es x) :
    (x.over s.nodes.length = true → x.now ≤ T) ∧
    (x.over s.nodes.length = false → T < x.now →
      ∀ es' y, running l s act fl noise (es ++ es') y → y.over s.nodes.length = false) := by
  have hbt := files_between hn hrun hrr hss hh l w fl hist s hbef
  have hev := running_events hbt hx
  have hcyc := fun a ha => (files_node hn hrun hrr hss hh l w fl hist s hbef noise a ha).2.1
  rw [between_length hbt]
  refine ⟨fun ho => ?_, fun ho hlate es' y hy => ?_⟩
  · rcases (C96_end_time _ _ _ _ sim_ok es x hev ho).2 with h | ⟨a, ha, t, ht, h⟩
    · omega
    · obtain ⟨as, f, h1, -, h3, -⟩ := C96_alone _ _ _ _ sim_ok es x hev a ha
      have hact : (x.node a).active = f.active := by rw [h3]
      rw [hact] at h
      have := C82_active_cycles _ _ _ (sim_ok a ha) as f h1 t _ h
      rw [hcyc a ha] at this
      exact this.trans (hT a ha)
  · have h2 := running_events hbt hy
    rw [wrun_append, hev] at h2
    exact C96_watchdog _ _ _ _ sim_ok es x hev (fun a ha => by rw [hcyc a ha]; exact (hT a ha).trans_lt hlate) ho es' y h2

/-- C97: if, on every node, no write of a tile has words for two of its processes (C94), then every call of `run` returns: no
process raises, the clock never passes `T`, there is a bound for the number of events, and from every state that the simulation
comes to it goes on to a state in which `run` returns. -/
theorem C97_returns
    (hd : ∀ a < c'.numNodes, apart (coreParamsOf c' id id) c'.numTilesPerNode c'.numCoresPerTile (coreProgram ps a) (tileProgram ps a))
    (T : Nat) (hT : ∀ a < c'.numNodes, fileCycles c' ps a ≤ T) :
    ∃ bound, ∀ es x, running l s act fl noise es x →
      x.raised s.nodes.length = false ∧ x.now ≤ T ∧ es.length ≤ bound ∧
      ∃ es' y s', running l s act fl noise (es ++ es') y ∧ returns l s act fl noise y s' := by
  have hbt := files_between hn hrun hrr hss hh l w fl hist s hbef
  have hnode := files_node hn hrun hrr hss hh l w fl hist s hbef noise
  refine ⟨(∑ a ∈ Finset.range c'.numNodes, (c'.numTilesPerNode + 2) *
    (clockedWork (c'.sysCfg fl (noise a)) (startOf (simulator l c' js w act) a) + 2 + T)) + c'.numNodes + T, fun es x hx => ?_⟩
  have hev := running_events hbt hx
  obtain ⟨h1, h2, h3, es', y, h4, h5, h6⟩ := C96_returns _ _ _ _ sim_ok (fun a ha => (hnode a ha).1)
    (fun a ha as f hf hlate => (hnode a ha).2.2 (hd a ha) as f hf (by rw [← (hnode a ha).2.1]; exact hlate)) T
    (fun a ha => by rw [(hnode a ha).2.1]; exact hT a ha) es x hev
  have hy : running l s act fl noise (es ++ es') y := by
    refine ⟨hx.loads, hx.tracks, wrun_append_some hx.events ?_⟩
    rw [between_length hbt, between_config hbt]
    exact h4
  rw [between_length hbt]
  exact ⟨h1, h2, h3, es', y, _, hy, ⟨_, hy⟩, by rw [between_length hbt]; exact h6, by rw [between_length hbt]; exact h5, rfl⟩

/-- C97: what `run` has computed when it returns: on every node, the words in the DRAMs and registers of the objects solve the
equations (C87, C88) of the operations, weights and activation in the files. -/
theorem C97_result (x : Whole) (s' : Sim) (hr : returns l s act fl noise x s') (hw : shortIds l.uni w)
    (hx : ∀ x ∈ xs, inRange c'.dataConfig.activationFracBits x) (a : Nat) (ha : a < c'.numNodes) (hp : paired c' ps a) :
    ∃ n' final, s'.nodes[a]? = some n' ∧
      solution (coreParamsWith c' fl) c'.numTilesPerNode c'.numCoresPerTile (coreProgram ps a) (tileProgram ps a)
        (fun t k => CoreState.loadAll {} (coreMatrices l.uni c' w a t k)) (fun t k i => errorsOf (noise a t k i))
        (fun t i => a = 0 ∧ t = 0 ∧ i < xs.length) (fun _ i => fixedPoint c'.dataConfig.activationFracBits (xs.getD i 0))
        (fun t => wordsOf (n'.tiles.getD t (TileObj.new c' t)).ctrl.mem) final ∧
      ∀ t < c'.numTilesPerNode, ∀ k < c'.numCoresPerTile, ∀ (start : Int) (len : Nat), 0 < len →
        (((n'.tiles.getD t (TileObj.new c' t)).cores.getD k (CoreObj.new c')).core.readFromRegister start len).1.map
          (fun v => v.map BitVec.toInt) = (coreParamsWith c' fl).read (final t k) start len := by
  have hbt := files_between hn hrun hrr hss hh l w fl hist s hbef
  have hall := files_halt hn hrun hh l w
  obtain ⟨n, h1, h2⟩ := C88_equations (hrun a ha) hp l w hw hx fl (noise a)
  obtain ⟨-, -, ⟨as, e1⟩, e2, -⟩ := (between_run hbt (returns_once hbt hall hr)).2.1 a n h1
  obtain ⟨final, h3, h4⟩ := h2 _ as _ ⟨rfl, rfl, rfl, rfl⟩ e1 e2
  have hobj := C97_objects (hrun 0 hn).simulable (hrun 0 hn).build (hrun 0 hn).unit hrr hss hall hist s hbef act noise x s' hr
  have hready : readyNode c' fl n := (C50_loaded c' fl l _).2.2 n (List.mem_of_getElem? h1)
  have htile : ∀ t < c'.numTilesPerNode, ∃ z, n.tiles[t]? = some z ∧ z.cores.length = c'.numCoresPerTile ∧
      (n.afterRun (x.node a).ts.sys (timesAfter hist x a)).tiles[t]? = some { z with
        ctrl := ((x.node a).ts.sys.tile t).ctrl
        router :=
          { running := decide ((x.node a).ts.sys.net.stopper t ≠ .stopped)
            senderAlive := (x.node a).ts.sys.net.crashed.isNone && decide ((x.node a).ts.sys.net.stopper t ≠ .stopped)
            stats := (x.node a).ts.sys.net.stats t }
        cores := z.cores.mapIdx fun k o =>
          { o with core := (((x.node a).ts.sys.tile t).core k).core, activeCycles := (timesAfter hist x a).core t k }
        activeCycles := (timesAfter hist x a).tile t } := by
    intro t ht
    have hlt : t < n.tiles.length := by rw [hready.count]; exact ht
    refine ⟨n.tiles[t], List.getElem?_eq_getElem hlt, hready.cores _ (List.getElem_mem hlt), ?_⟩
    simp only [NodeObj.afterRun, List.getElem?_mapIdx, List.getElem?_eq_getElem hlt, Option.map_some]
  refine ⟨n.afterRun (x.node a).ts.sys (timesAfter hist x a), final, by rw [hobj, List.getElem?_mapIdx, h1]; rfl,
    solution_mem (fun t ht => ?_) h3, fun t ht k hk start len hlen => ?_⟩
  · obtain ⟨z, -, -, e⟩ := htile t ht
    rw [List.getD_eq_getElem?_getD, e, Option.getD_some]
    rfl
  · obtain ⟨z, -, hz, e⟩ := htile t ht
    rw [List.getD_eq_getElem?_getD (i := t), e, Option.getD_some, List.getD_eq_getElem?_getD]
    dsimp only
    rw [List.getElem?_mapIdx, List.getElem?_eq_getElem (by rw [hz]; exact hk), Option.map_some, Option.getD_some]
    exact h4 t ht k hk start len hlen

end

end

/-! ## An example: two nodes

The configuration of the MNIST example with two nodes. Node 0 runs the programs of C94, with the activation; on node 1, a core of
tile 0 stores two words, the tile sends them to tile 1, and a core there copies them. -/

def twoNodes : Config := { mnistConfig with numNodes := 2 }
def twoBuilt : Config := { mnistBuilt with numNodes := 2 }

def handOps (t : Nat) : List TileOp :=
  if t = 0 then [.send 0 1 2 1, .halt] else if t = 1 then [.receive 3 0 2 1, .halt] else [.halt]

def handProg (t k : Nat) : List CoreOp :=
  if k = 0 ∧ t = 0 then [.set 1540 7 2, .set 1537 0 1, .store 1537 1540 2 1, .hlt]
  else if k = 0 ∧ t = 1 then copyFrom 3 5 else [.hlt]

def twoFile : List Placed :=
  ringFile ++ (List.range 5).flatMap fun t =>
    (handOps t).map (.tile 1 t) ++ (List.range 8).flatMap fun k => (handProg t k).map (.core 1 t k)

def handMoves : List DryMove :=
  [.core 0 0, .core 0 0, .tile 0, .tile 1, .core 1 0, .core 1 0, .core 1 0] ++
  ((List.range 5).flatMap fun t => ((List.range 8).filter fun k => t ≥ 2 || k ≥ 1).map fun k => .core t k) ++
  (List.range 5).map .tile

theorem two_simulable : Simulable twoNodes := by
  refine ⟨rfl, rfl, by decide, by decide, fun _ => by decide, fun _ => by decide, ?_, ?_, ?_⟩ <;>
    norm_num [twoNodes, mnistConfig]

set_option maxRecDepth 10000 in
theorem two_runnable {js : List Json} (hj : writes js twoFile) (x y : ℚ) (a : Nat) (ha : a < twoBuilt.numNodes) :
    runnable twoNodes twoBuilt a js twoFile (.array [x, y]) [x, y] (if a = 0 then ringMoves else handMoves) where
  simulable := two_simulable
  build := by decide +kernel
  node := ha
  tiles := by decide +kernel
  unit := by decide +kernel
  alu := by decide +kernel
  dac := by decide +kernel
  adc := by decide +kernel
  entries := hj
  targets := by decide +kernel
  lengths := by decide +kernel
  input := .inl rfl
  fits := by show 2 ≤ _; decide +kernel
  check := by
    have ha : a < 2 := ha
    interval_cases a
    · show accepted _ _ _ _ (inputWords 2 0) _ _ _
      decide +kernel
    · show accepted _ _ _ _ (inputWords 2 1) _ _ _
      decide +kernel

theorem two_apart : ∀ a < twoBuilt.numNodes, apart (coreParamsOf twoBuilt id id) twoBuilt.numTilesPerNode
    twoBuilt.numCoresPerTile (coreProgram twoFile a) (tileProgram twoFile a) := by decide +kernel

theorem two_paired (a : Nat) (ha : a < twoBuilt.numNodes) : paired twoBuilt twoFile a := by
  have ha : a < 2 := ha
  interval_cases a
  · exact ⟨by decide +kernel, by decide +kernel⟩
  · exact ⟨by decide +kernel, by decide +kernel⟩

theorem two_halts : ∀ a < twoBuilt.numNodes, ∀ t < twoBuilt.numTilesPerNode, .halt ∈ tileProgram twoFile a t := by
  decide +kernel

theorem two_cycles : ∀ a < twoBuilt.numNodes, fileCycles twoBuilt twoFile a ≤ 3000 := by decide +kernel

def calm : Noises := fun _ _ _ _ _ _ => ⟨fun _ _ _ => 0, fun _ _ _ => 0⟩

def twoSim : Sim := programmed someLibs twoBuilt (twoFile.map fun p => .obj (fieldsOf true p)) .missing

theorem two_sources : ∀ a < twoBuilt.numNodes, ∀ t < twoBuilt.numTilesPerNode, ∀ op ∈ tileProgram twoFile a t,
    (match op with
      | .receive _ i _ _ => decide (0 ≤ i ∧ i < twoBuilt.numTilesPerNode)
      | _ => true) = true := by decide +kernel

theorem two_returns (hist : List Completed) (s : Sim) (hbef : before someLibs someActs twoSim hist s) (x y : ℚ) :
    ∃ z s', returns someLibs s (.array [x, y]) someActs calm z s' := by
  have hr := two_runnable (writes_fields true twoFile) x y
  have h0 := C97_starts (by decide) hr (by decide +kernel) (by decide +kernel) two_halts someLibs .missing someActs hist s hbef calm
  obtain ⟨_, h⟩ := C97_returns (by decide) hr (by decide +kernel) (by decide +kernel) two_halts someLibs .missing someActs hist s
    hbef calm two_apart 3000 two_cycles
  obtain ⟨-, -, -, es, z, s', -, h2⟩ := h _ _ h0
  exact ⟨z, s', h2⟩

/-- Two calls with a `reset` between them. -/
theorem two_calls : ∃ z z' s₁ s', before someLibs someActs twoSim [((.array [1 / 2, -3] : Activation), calm, z)] s₁ ∧
    returns someLibs s₁ (.array [5, 1 / 4]) someActs calm z' s' ∧
    batch someLibs someActs twoSim ([((.array [1 / 2, -3] : Activation), calm, z)] ++ [((.array [5, 1 / 4] : Activation), calm, z')]) s' := by
  have hr := two_runnable (writes_fields true twoFile)
  obtain ⟨z, s1, h1⟩ := two_returns [] _ .new (1 / 2) (-3)
  have hb : batch someLibs someActs twoSim _ s1 := .first h1
  obtain ⟨-, s2, h2⟩ := C97_complete two_simulable (hr 0 0 0 (by decide)).build (hr 0 0 0 (by decide)).unit (by decide +kernel)
    (by decide +kernel) (files_halt (by decide) (hr 0 0) two_halts someLibs .missing) _ _ hb
  obtain ⟨z', s3, h3⟩ := two_returns _ _ (.reset hb h2) 5 (1 / 4)
  exact ⟨z, z', s2, s3, .reset hb h2, h3, .next hb h2 h3⟩

/-- What the theorems say about the second call. -/
example (p : Power) : ∃ z z' s', batch someLibs someActs twoSim
      ([((.array [1 / 2, -3] : Activation), calm, z)] ++ [((.array [5, 1 / 4] : Activation), calm, z')]) s' ∧
    z'.now ≤ 3000 ∧
    s'.getStats p = Sim.getStats p { simulator someLibs twoBuilt (twoFile.map fun p => .obj (fieldsOf true p)) .missing
        (.array [5, 1 / 4]) with
      nodes := (simulator someLibs twoBuilt (twoFile.map fun p => .obj (fieldsOf true p)) .missing
        (.array [5, 1 / 4])).nodes.mapIdx fun a n => ledgerNode twoBuilt n
          (timesAfter [((.array [1 / 2, -3] : Activation), calm, z)] z' a) } := by
  obtain ⟨z, z', s1, s', h1, h2, h3⟩ := two_calls
  have hr := two_runnable (writes_fields true twoFile) 5 (1 / 4)
  refine ⟨z, z', s', h3, ?_, ?_⟩
  · obtain ⟨es, h4⟩ := h2.runs
    exact (C97_in_time (by decide) hr (by decide +kernel) (by decide +kernel) two_halts someLibs .missing someActs _ _ h1 calm
      3000 two_cycles es z' h4).1 h2.over
  · refine C97_report two_simulable (hr 0 (by decide)).build (hr 0 (by decide)).unit (by decide +kernel) (by decide +kernel)
      (files_halt (by decide) hr two_halts someLibs .missing) _ _ h1 _ _ _ _ h2
      (files_fit (by decide) hr two_halts someLibs .missing two_paired fun a ha t ht b i w v h => ?_) p
    have := two_sources a ha t ht _ h
    simpa using this

example := C97_result (by decide) (two_runnable (writes_fields true twoFile) (1 / 2) (-3)) (by decide +kernel) (by decide +kernel)
  two_halts someLibs .missing someActs [] twoSim .new calm

/-! ## The MNIST example -/

theorem mnist_halts : ∀ a < mnistBuilt.numNodes, ∀ t < mnistBuilt.numTilesPerNode, .halt ∈ tileProgram mnistFile a t := by
  decide +kernel

/-- C97: the MNIST example, with any weights and after any number of calls: no call of `run` raises, one that returns does so by
cycle 256504, and then the words 0-9 of tile 1 are the perceptron of the pixels. (That it returns is not said: C92.) -/
theorem C97_mnist (js : List Json) (hj : writes js mnistFile) (act : Activation) (xs : List ℚ)
    (ha : act = .array xs ∨ act = .file 1 xs) (hx : xs.length = 784) (hr : ∀ x ∈ xs, inRange 8 x) (l : Libs) (w : NpzFile)
    (hw : shortIds l.uni w) (fl : FloatActs) (hist : List Completed) (s : Sim)
    (hbef : before l fl (programmed l mnistBuilt js w) hist s) (noise : Noises) :
    (∀ es y, running l s act fl noise es y → y.raised 1 = false ∧ (y.over 1 = true → y.now ≤ 256504)) ∧
    ∀ y s', returns l s act fl noise y s' → ∃ x, tileAt s' 0 1 = some x ∧
      wordsAt (wordsOf x.ctrl.mem) 0 10 =
        (coreParamsWith mnistBuilt fl).perceptron (mnistMul (coreParamsWith mnistBuilt fl)
          (weightsIn l.uni mnistBuilt w 0) fun t k i => errorsOf (noise 0 t k i)) (xs.map (fixedPoint 8)) := by
  have h1 : mnistBuilt.numNodes = 1 := by decide +kernel
  have h0 : 0 < mnistBuilt.numNodes := by rw [h1]; exact Nat.one_pos
  have hrun : ∀ a < mnistBuilt.numNodes, runnable mnistConfig mnistBuilt a js mnistFile act xs mnistMoves := by
    intro a h
    rw [h1] at h
    obtain rfl : a = 0 := by omega
    exact mnist_runnable hj ha hx
  have hrr : mnistBuilt.mvmuConfig.haveRramXbar = true := by decide +kernel
  have hss : mnistBuilt.mvmuConfig.haveSramXbar = false := by decide +kernel
  have hlen : s.nodes.length = 1 := by
    rw [between_length (files_between h0 hrun hrr hss mnist_halts l w fl hist s hbef), h1]
  refine ⟨fun es y hy => ?_, fun y s' hy => ?_⟩
  · have h2 := C97_never_raises h0 hrun hrr hss mnist_halts l w fl hist s hbef noise es y hy
    have h3 := C97_in_time h0 hrun hrr hss mnist_halts l w fl hist s hbef noise 256504 (fun a h => by
      rw [h1] at h
      obtain rfl : a = 0 := by omega
      exact mnist_cycles.le) es y hy
    rw [hlen] at h2 h3
    exact ⟨h2.1, h3.1⟩
  · have hb : batch l fl (programmed l mnistBuilt js w) (hist ++ [(act, noise, y)]) s' := by
      cases hbef with
      | new => exact .first hy
      | reset h hr => exact .next h hr hy
    have h2 := (C97_complete mnist_simulable mnist_build (hrun 0 h0).unit hrr hss (files_halt h0 hrun mnist_halts l w) _ _ hb).1
    rw [List.map_append] at h2
    exact C90_mnist js hj l w hw _ act _ _ _ h2 xs ha hx hr fl (noise 0) ⟨rfl, rfl, rfl, rfl⟩

example := C97_starts (moves := fun _ => mnistMoves) (by decide) (fun a h => by
  obtain rfl : a = 0 := by
    have h1 : mnistBuilt.numNodes = 1 := by decide +kernel
    omega
  exact mnist_runnable (writes_fields true mnistFile) (.inl rfl : Activation.array (List.replicate 784 0) = _ ∨ _) List.length_replicate)
  (by decide +kernel) (by decide +kernel) mnist_halts someLibs .missing someActs [] _ .new calm

end Ramwich
