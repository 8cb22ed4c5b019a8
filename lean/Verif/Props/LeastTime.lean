import Verif.Lemmas.LeastTime
import Verif.Props.ClockedTime
import Verif.Props.Simulation

/-! # What a simulation takes at least (C98)

C82 and C97 bound the time of a simulation from above by what the programs take if everything happens one after the other.
Here the bounds from below: what one unit does alone happens one after the other. -/
namespace Ramwich

open Spec

section
variable (cfg : SysCfg) (l : StageLat) (i : SysInit) (h0 : i.ok) (acts : List FAct) (f : FSys)
variable (hrun : i.fstart.run cfg l acts = some f)
include h0 hrun

/-- C98: a core that is done has taken at least the fetch and decode times of one operation and the times of all operations
up to its first `hlt`. -/
theorem C98_core (hc : f.ts.sys.crashed = none) (t : Nat) (ht : t < cfg.net.tiles) (k : Nat) (hk : k < cfg.cores) (d : Nat)
    (hd : (f.ts.pipe t k).doneAt = some d) : coreLeast cfg l (i.prog t k) ≤ d :=
  core_least h0 (clocked_reach h0 hrun) hc ht hk hd

/-- C98: `active_cycles` of a tile is at least what its own operations take one after the other, and what the network needs
for its packets, from any of the Sends on. -/
theorem C98_tile (hfin : f.ts.finished cfg i) (hfit : transfersFit cfg.net.tiles i.ops) (t : Nat) (ht : t < cfg.net.tiles)
    (hhalt : .halt ∈ i.ops t) (c : Nat) (ha : f.active t = some c) : tileLeast cfg (i.ops t) ≤ c := by
  have := rest_least h0 hrun hfin hfit ht hhalt ha (i.ops t).length 0 0 (Nat.zero_add _) rfl
  rwa [Nat.zero_add, List.drop_zero] at this

/-- C98: the time at which everything is done is at least what the DRAM of any tile needs for all its requests. -/
theorem C98_dram (c0 c : Config) (hc0 : Simulable c0) (hb : c0.build = .ok c) (hnew : newCores cfg c i)
    (hfin : f.ts.finished cfg i) (hfit : transfersFit cfg.net.tiles i.ops) (t : Nat) (ht : t < cfg.net.tiles) :
    dramLeast cfg ((List.range cfg.cores).map (i.prog t)) (i.ops t) ≤ f.ts.now := by
  have h := clocked_reach h0 hrun
  obtain ⟨as, hp⟩ := plain_run h0.good h
  have h1 := (C95_dram c0 c hc0 hb cfg i h0 hnew hfit as _ hp (finished_plain hfin) t ht).2.2.2.2
  have h2 := (ctrlInv_of (h0.good t) ((h.both h0.good).2.tile t).ctrl).time.util
  have h3 : (f.ts.sys.tile t).ctrl.now = f.ts.now := (h.tile hfin.1 t ht).cnow
  unfold dramLeast
  rw [← h1]
  have h4 : ((f.ts.plain i).tile t).ctrl.now = (f.ts.sys.tile t).ctrl.now := rfl
  rw [h4, h3] at h2
  omega

end

/-! The two tiles of C78: the bounds for the cores are 12 and 10, those for the tiles 12 and 4, those for the DRAMs 8. In the run
of C78 the first core is done at cycle 12. -/

theorem demo_finished : clockedRun.2.ts.finished quickSys demoInit := by
  refine ⟨by decide +kernel, ?_⟩
  have h : ∀ t < 2, (clockedRun.2.ts.sys.tile t).phase = .ready ∧ (clockedRun.2.ts.sys.tile t).ops = [] ∧
      ∀ k < 1, ((clockedRun.2.ts.sys.tile t).core k).phase = .halted := by decide +kernel
  exact fun t ht => ⟨(h t ht).1, (h t ht).2.1, fun k hk => .inl ((h t ht).2.2 k hk)⟩

theorem demo_fit : transfersFit 2 demoInit.ops := transfersFit_check 2 demoInit.ops (by decide +kernel) (by decide +kernel)

example : coreLeast quickSys demoStages (demoInit.prog 0 0) = 12 ∧ (clockedRun.2.ts.pipe 0 0).doneAt = some 12 ∧
    tileLeast quickSys (demoInit.ops 0) = 12 ∧ clockedRun.2.active 0 = some 23 ∧
    dramLeast quickSys ((List.range 1).map (demoInit.prog 0)) (demoInit.ops 0) = 8 := by decide +kernel
example := C98_core quickSys demoStages demoInit demoInit_ok clockedRun.1 clockedRun.2 clockedRun_runs (by decide +kernel) 0
  (by decide) 0 (by decide) 12 (by decide +kernel)
example := C98_tile quickSys demoStages demoInit demoInit_ok clockedRun.1 clockedRun.2 clockedRun_runs demo_finished demo_fit 0
  (by decide) (by decide +kernel) 23 (by decide +kernel)
example := C98_dram quickSys demoStages demoInit demoInit_ok clockedRun.1 clockedRun.2 clockedRun_runs demoCore demoCoreBuilt
  demo_composed.simulable demo_composed.build (fun _ _ _ _ => ⟨someActs, [], by simp, rfl⟩) demo_finished demo_fit 0 (by decide)

/-! ## From the files -/

theorem largest_le {xs : List Int} {b : Int} (h0 : 0 ≤ b) (h : ∀ x ∈ xs, x ≤ b) : largest xs ≤ b := by
  unfold largest
  have key : ∀ (xs : List Int) (z : Int), z ≤ b → (∀ x ∈ xs, x ≤ b) → xs.foldl max z ≤ b := by
    intro xs
    induction xs with
    | nil => intro z hz _; exact hz
    | cons x xs ih =>
      intro z hz hx
      exact ih _ (max_le hz (hx x (by simp))) fun y hy => hx y (by simp [hy])
  exact key xs 0 h0 h

theorem tileLeast_eq (c : Config) (fl : FloatActs) (nz) (ops : List TileOp) :
    tileLeast (c.sysCfg fl nz) ops = tileLeast (latenciesOf c) ops := by
  induction ops with
  | nil => rfl
  | cons op ops ih =>
    cases op <;> simp only [tileLeast, ih] <;> rfl

section
variable {c c' : Config} {js : List Json} {ps : List Placed} {act : Activation} {xs : List ℚ} {moves : Nat → List DryMove}
  (hn : 0 < c'.numNodes) (hrun : ∀ a < c'.numNodes, runnable c c' a js ps act xs (moves a))
  (hrr : c'.mvmuConfig.haveRramXbar = true) (hss : c'.mvmuConfig.haveSramXbar = false)
  (hh : ∀ a < c'.numNodes, ∀ t < c'.numTilesPerNode, .halt ∈ tileProgram ps a t)
  (hp : ∀ a < c'.numNodes, paired c' ps a)
  (hs : ∀ a < c'.numNodes, ∀ t < c'.numTilesPerNode, ∀ b i w v : Int, .receive b i w v ∈ tileProgram ps a t →
    0 ≤ i ∧ i < c'.numTilesPerNode)
  (l : Libs) (w : NpzFile) (fl : FloatActs) (hist : List Completed) (s : Sim)
  (hbef : before l fl (programmed l c' js w) hist s) (noise : Noises) (x : Whole) (s' : Sim)
  (hr : returns l s act fl noise x s')
include hn hrun hrr hss hh hp hs hbef hr

/-- The times of a call of `run` that has returned, as the processes have them. -/
theorem least_times (a : Nat) (ha : a < c'.numNodes) :
    (∀ t < c'.numTilesPerNode,
      fileTileLeast c' ps a t ≤ (timesAfter hist x a).tile t ∧
      dramLeast (latenciesOf c') ((List.range c'.numCoresPerTile).map (coreProgram ps a t)) (tileProgram ps a t) ≤ x.now ∧
      ∀ k < c'.numCoresPerTile, fileCoreLeast c' ps a t k ≤ (timesAfter hist x a).core t k) := by
  have hall := files_halt hn hrun hh l w
  have hbt := files_between hn hrun hrr hss hh l w fl hist s hbef
  obtain ⟨es, hes⟩ := hr.runs
  have hev := running_events hbt hes
  have hfine := hr.fine
  rw [between_length hbt] at hfine
  obtain ⟨htimes, -⟩ := times_eq (hrun 0 hn).simulable (hrun 0 hn).build (hrun 0 hn).unit hrr hss hall hist s hbef act noise x s' hr a ha
  obtain ⟨as, f, h2, h2n, h3, -⟩ := C96_alone _ _ _ _ sim_ok es x hev a ha
  have hts : (x.node a).ts = f.ts := by rw [h3]
  have hact : (x.node a).active = f.active := by rw [h3]
  obtain ⟨n, h1, -, -, -, hprog⟩ := runnable_checked (hrun a ha) l w fl (noise a)
  obtain ⟨n', hn', hready, he⟩ := sim_node (l := l) (js := js) (w := w) (act := act) ha
  cases h1.symm.trans hn'
  have hfit := files_fit hn hrun hh l w hp hs n (List.mem_of_getElem? h1)
  rw [he] at h2
  have h0 : (nodeInit c' n).ok := ready_ok (hready fl)
  have hc : f.ts.sys.crashed = none := by rw [← hts]; exact alive_of hfine ha
  obtain ⟨-, -, -, e2, -⟩ := (between_run hbt (returns_once hbt hall hr)).2.1 a n h1
  have hfin : f.ts.finished (c'.sysCfg fl (noise a)) (nodeInit c' n) := by
    have h5 := ((clocked_reach h0 h2).both h0.good).1
    refine finished_of_plain h5 ?_
    rw [← hts, ← he]
    exact e2
  intro t ht
  obtain ⟨k, hk, hact', hd⟩ := htimes t ht
  have hhalt : .halt ∈ (nodeInit c' n).ops t := by rw [(hprog t ht).1]; exact hh a ha t ht
  have b1 := C98_tile _ _ _ h0 as f h2 hfin hfit t ht hhalt k (by rw [← hact]; exact hact')
  rw [(hprog t ht).1] at b1
  have b1' : tileLeast (latenciesOf c') (tileProgram ps a t) ≤ k := by rw [tileLeast_eq] at b1; exact b1
  have b2 : ∀ j < c'.numCoresPerTile, fileCoreLeast c' ps a t j ≤ (timesAfter hist x a).core t j ∧
      (timesAfter hist x a).core t j ≤ k := by
    intro j hj
    obtain ⟨d, hd1, hd2⟩ := hd j hj
    have := C98_core _ _ _ h0 as f h2 hc t ht j hj d (by rw [← hts]; exact hd2)
    rw [(hprog t ht).2 j hj] at this
    have e : (timesAfter hist x a).core t j = d := by simp only [timesAfter, hd2, Option.getD_some]
    rw [e]
    exact ⟨this, by exact_mod_cast hd1⟩
  refine ⟨?_, ?_, fun j hj => (b2 j hj).1⟩
  · have e : (timesAfter hist x a).tile t = k := by simp only [timesAfter, hact', Option.getD_some]
    rw [e]
    refine largest_le (by omega) fun z hz => ?_
    rcases List.mem_cons.1 hz with rfl | hz
    · exact_mod_cast b1'
    · obtain ⟨j, hj, rfl⟩ := List.mem_map.1 hz
      obtain ⟨e1, e2⟩ := b2 j (List.mem_range.1 hj)
      exact e1.trans e2
  · have := C98_dram _ _ _ h0 as f h2 c c' (hrun 0 hn).simulable (hrun 0 hn).build (ready_newCores (hready fl) _) hfin hfit t ht
    rw [h2n] at this
    refine le_trans (le_of_eq ?_) this
    have e1 : (List.range c'.numCoresPerTile).map (coreProgram ps a t) = (List.range c'.numCoresPerTile).map ((nodeInit c' n).prog t) :=
      List.map_congr_left fun j hj => ((hprog t ht).2 j (List.mem_range.1 hj)).symm
    rw [e1, ← (hprog t ht).1]
    rfl

/-- C98: a call of `run` that has returned: the time that it reports (`env.now`, ramwich.py:205) is at least what any node
needs at least. -/
theorem C98_run (a : Nat) (ha : a < c'.numNodes) : fileLeast c' ps a ≤ x.now := by
  have h := least_times hn hrun hrr hss hh hp hs l w fl hist s hbef noise x s' hr a ha
  have hall := files_halt hn hrun hh l w
  obtain ⟨htimes, -⟩ := times_eq (hrun 0 hn).simulable (hrun 0 hn).build (hrun 0 hn).unit hrr hss hall hist s hbef act noise x s' hr a ha
  refine largest_le (by omega) fun z hz => ?_
  obtain ⟨t, ht, rfl⟩ := List.mem_map.1 hz
  obtain ⟨h1, h2, -⟩ := h t (List.mem_range.1 ht)
  obtain ⟨k, hk, e, -⟩ := htimes t (List.mem_range.1 ht)
  have : (timesAfter hist x a).tile t = k := by simp only [timesAfter, e, Option.getD_some]
  exact max_le (by omega) h2

/-- C98: so do the tiles and the cores: `active_cycles` in the objects is at least what the programs need. -/
theorem C98_cycles (a t : Nat) (n : NodeObj) (y : TileObj) (hna : s'.nodes[a]? = some n) (hy : n.tiles[t]? = some y) :
    fileTileLeast c' ps a t ≤ y.activeCycles ∧
    ∀ (k : Nat) (o : CoreObj), y.cores[k]? = some o → fileCoreLeast c' ps a t k ≤ o.activeCycles := by
  have hall := files_halt hn hrun hh l w
  have hobj := C97_objects (hrun 0 hn).simulable (hrun 0 hn).build (hrun 0 hn).unit hrr hss hall hist s hbef act noise x s' hr
  have hlen : (simulator l c' js w act).nodes.length = c'.numNodes := (C50_loaded c' someActs l _).2.1
  rw [hobj, List.getElem?_mapIdx] at hna
  cases hm : (simulator l c' js w act).nodes[a]? with
  | none => rw [hm] at hna; cases hna
  | some m =>
    rw [hm] at hna
    injection hna with hna
    subst hna
    have ha : a < c'.numNodes := by rw [← hlen]; exact (List.getElem?_eq_some_iff.1 hm).1
    have hready : readyNode c' fl m := (C50_loaded c' fl l _).2.2 m (List.mem_of_getElem? hm)
    simp only [NodeObj.afterRun, List.getElem?_mapIdx] at hy
    cases hz : m.tiles[t]? with
    | none => rw [hz] at hy; cases hy
    | some z =>
      rw [hz] at hy
      injection hy with hy
      subst hy
      have ht : t < c'.numTilesPerNode := by rw [← hready.count]; exact (List.getElem?_eq_some_iff.1 hz).1
      obtain ⟨h1, -, h2⟩ := least_times hn hrun hrr hss hh hp hs l w fl hist s hbef noise x s' hr a ha t ht
      refine ⟨h1, fun k o ho => ?_⟩
      rw [List.getElem?_mapIdx] at ho
      cases hq : z.cores[k]? with
      | none => rw [hq] at ho; cases ho
      | some q =>
        rw [hq] at ho
        injection ho with ho
        subst ho
        refine h2 k ?_
        rw [← hready.cores z (List.mem_of_getElem? hz)]
        exact (List.getElem?_eq_some_iff.1 hq).1

end

/-! ## Examples -/

/-- The two nodes of C97, second call. -/
example : ∃ hist s', ∃ z : Int, batch someLibs someActs twoSim hist s' ∧ hist.length = 2 ∧ 300 ≤ z ∧ z ≤ 3000 ∧
    ∃ (a : Nat) (n : NodeObj) (t : Nat) (y : TileObj), s'.nodes[a]? = some n ∧ n.tiles[t]? = some y ∧ y.activeCycles = z := by
  obtain ⟨z, z', s1, s', h1, h2, h3⟩ := two_calls
  have hr := two_runnable (writes_fields true twoFile) 5 (1 / 4)
  have hsrc : ∀ a < twoBuilt.numNodes, ∀ t < twoBuilt.numTilesPerNode, ∀ b i w v : Int,
      .receive b i w v ∈ tileProgram twoFile a t → 0 ≤ i ∧ i < twoBuilt.numTilesPerNode := by
    intro a ha t ht b i w v h
    simpa using two_sources a ha t ht _ h
  have hlow := C98_run (by decide) hr (by decide +kernel) (by decide +kernel) two_halts two_paired hsrc someLibs .missing
    someActs _ _ h1 calm z' s' h2 0 (by decide)
  have e : fileLeast twoBuilt twoFile 0 = 300 := by decide +kernel
  rw [e] at hlow
  obtain ⟨es, h4⟩ := h2.runs
  have hup := (C97_in_time (by decide) hr (by decide +kernel) (by decide +kernel) two_halts someLibs .missing someActs _ _ h1 calm
      3000 two_cycles es z' h4).1 h2.over
  obtain ⟨-, h5⟩ := C97_cycles two_simulable (hr 0 (by decide)).build (hr 0 (by decide)).unit (by decide +kernel) (by decide +kernel)
    (files_halt (by decide) hr two_halts someLibs .missing) _ _ h1 _ _ _ _ h2
  rcases h5 with h5 | ⟨n, hn, y, hy, hz⟩
  · omega
  · obtain ⟨a, ha⟩ := List.mem_iff_getElem?.1 hn
    obtain ⟨t, ht⟩ := List.mem_iff_getElem?.1 hy
    exact ⟨_, s', z'.now, h3, rfl, by omega, by omega, a, n, t, y, ha, ht, hz⟩

theorem mnist_least : fileLeast mnistBuilt mnistFile 0 = 36850 := by decide +kernel

theorem mnist_sources : ∀ t < mnistBuilt.numTilesPerNode, ∀ op ∈ tileProgram mnistFile 0 t,
    (match op with
      | .receive _ i _ _ => decide (0 ≤ i ∧ i < mnistBuilt.numTilesPerNode)
      | _ => true) = true := by decide +kernel

/-- C98: the MNIST example: a call of `run` that returns reports a time from 36850 to 256504, with any weights, any noise and
after any number of calls. (The DRAM of tile 3 alone needs 36850 cycles.) -/
theorem C98_mnist (js : List Json) (hj : writes js mnistFile) (act : Activation) (xs : List ℚ)
    (ha : act = .array xs ∨ act = .file 1 xs) (hx : xs.length = 784) (l : Libs) (w : NpzFile) (fl : FloatActs)
    (hist : List Completed) (s : Sim) (hbef : before l fl (programmed l mnistBuilt js w) hist s) (noise : Noises)
    (y : Whole) (s' : Sim) (hr : returns l s act fl noise y s') : 36850 ≤ y.now ∧ y.now ≤ 256504 := by
  have h1 : mnistBuilt.numNodes = 1 := by decide +kernel
  have h0 : 0 < mnistBuilt.numNodes := by rw [h1]; exact Nat.one_pos
  have only : ∀ a < mnistBuilt.numNodes, a = 0 := by intro a h; omega
  have hrun : ∀ a < mnistBuilt.numNodes, runnable mnistConfig mnistBuilt a js mnistFile act xs mnistMoves := by
    intro a h
    rw [only a h]
    exact mnist_runnable hj ha hx
  have hrr : mnistBuilt.mvmuConfig.haveRramXbar = true := by decide +kernel
  have hss : mnistBuilt.mvmuConfig.haveSramXbar = false := by decide +kernel
  constructor
  · have := C98_run (moves := fun _ => mnistMoves) h0 hrun hrr hss mnist_halts (fun a h => by rw [only a h]; exact mnist_paired)
      (fun a h t ht b i w v hm => by
        rw [only a h] at hm
        simpa using mnist_sources t ht _ hm) l w fl hist s hbef noise y s' hr 0 h0
    rw [mnist_least] at this
    exact_mod_cast this
  · obtain ⟨es, h4⟩ := hr.runs
    exact (C97_in_time (moves := fun _ => mnistMoves) h0 hrun hrr hss mnist_halts l w fl hist s hbef noise 256504 (fun a h => by
      rw [only a h]
      exact mnist_cycles.le) es y h4).1 hr.over

end Ramwich
