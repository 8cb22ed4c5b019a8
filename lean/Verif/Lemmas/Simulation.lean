import Verif.Spec.Simulation
import Verif.Props.WholeRun
import Verif.Props.Session
import Verif.Props.Numbering
import Verif.Props.Ledger

/-! # `RAMwich.run` as a whole: lemmas -/
namespace Ramwich

open Spec

/-- A tile that has returned from a program with a Halt has executed the Halt. -/
theorem returned_ends {c : Config} {fl : FloatActs} {n : NodeObj} (hn : readyNode c fl n)
    (hh : ∀ t < c.numTilesPerNode, .halt ∈ (nodeInit c n).ops t) {cfg : SysCfg} (ht : cfg.net.tiles = c.numTilesPerNode)
    (hc : cfg.cores = c.numCoresPerTile) {l : StageLat} {as : List FAct} {f : FSys}
    (hr : (nodeInit c n).fstart.run cfg l as = some f) (hcr : f.ts.sys.crashed = none) (ha : allReturned cfg f) :
    endsIn c cfg n (f.ts.plain (nodeInit c n)) := by
  have h0 := ready_ok hn
  have hI := clocked_reach h0 hr
  obtain ⟨cs, hcs⟩ := plain_run h0.good hI
  have hinv := sysInv_run h0.good cs _ hcs
  have hrun : (n.start c).run cfg cs = some (f.ts.plain (nodeInit c n)) := by
    rw [start_eq hn]; exact hcs
  have hdone : ∀ t < cfg.net.tiles, (f.ts.sys.tile t).phase = .ready ∧ (f.ts.sys.tile t).ops = [] := by
    intro t hlt
    obtain ⟨x, hx⟩ := Option.ne_none_iff_exists'.1 (ha t hlt)
    have h1 := ((C75_active cfg l _ h0 as f hr hcr t hlt x).1 hx).1
    have h2 := (tile_finished hI hcr hlt).2 h1
    rw [Bool.and_eq_true, List.isEmpty_iff] at h2
    refine ⟨?_, h2.2⟩
    have h3 := h2.1
    change (f.ts.sys.tile t).phase.isReady = true at h3
    cases hp : (f.ts.sys.tile t).phase <;> rw [hp] at h3 <;> first | rfl | cases h3
  have hlog : ∀ t < cfg.net.tiles, .halted ∈ ((f.ts.plain (nodeInit c n)).tile t).log := by
    intro t hlt
    have hcl := (hinv.tile t).tile
    have hp : ((f.ts.plain (nodeInit c n)).tile t).phase = .ready := (hdone t hlt).1
    have hq : ((f.ts.plain (nodeInit c n)).tile t).ops = [] := (hdone t hlt).2
    rw [hp, hq] at hcl
    obtain ⟨rest, got, h1, h2, h3⟩ := hcl.ran
    exact halted_mem _ _ _ got (by rw [h1, h2]) (hh t (by rw [← ht]; exact hlt))
  refine ⟨by rw [ht, hn.count], hc, ⟨cs, hrun⟩, ⟨hcr, fun t hlt => ⟨(hdone t hlt).1, (hdone t hlt).2, fun k hk => .inl ?_⟩⟩, hlog⟩
  exact ((C45_halted cfg _ h0 cs _ hcs t (hlog t hlt)).1 k hk).1

theorem nodeInit_canon (c : Config) (n : NodeObj) : nodeInit c (canonNode n) = nodeInit c n := by
  have hcore : ∀ t k, ((canon (n.tiles.getD t (TileObj.new c t))).cores.getD k (CoreObj.new c)).core
        = ((n.tiles.getD t (TileObj.new c t)).cores.getD k (CoreObj.new c)).core ∧
      ((canon (n.tiles.getD t (TileObj.new c t))).cores.getD k (CoreObj.new c)).operations
        = ((n.tiles.getD t (TileObj.new c t)).cores.getD k (CoreObj.new c)).operations := by
    intro t k
    show (((n.tiles.getD t (TileObj.new c t)).cores.map canonCore).getD k _).core = _ ∧
      (((n.tiles.getD t (TileObj.new c t)).cores.map canonCore).getD k _).operations = _
    generalize (n.tiles.getD t (TileObj.new c t)).cores = l
    rw [List.getD_eq_getElem?_getD, List.getD_eq_getElem?_getD, List.getElem?_map]
    cases l[k]? <;> exact ⟨rfl, rfl⟩
  unfold nodeInit
  simp only [getD_canon, fun t k => (hcore t k).1, fun t k => (hcore t k).2]
  rfl

theorem afterRun_plain (n : NodeObj) (f : FSys) (i : SysInit) (times : RunTimes) :
    n.afterRun (f.ts.plain i) times = n.afterRun f.ts.sys times := rfl

/-- The prepared simulator between two resets, compared with a new one. -/
theorem fed_same {l : Libs} {c : Config} {js : List Json} {w : NpzFile} {s : Sim} (h : between l c js w s) (act : Activation) :
    (s.prepare l.oob (some act)).1 = ((programmed l c js w).prepare l.oob (some act)).1 ∧
    canonSim (fed l s act) = canonSim (simulator l c js w act) := by
  have h1 := prepare_canon l.oob s act
  have h2 := prepare_canon l.oob (programmed l c js w) act
  rw [h.same] at h1
  have h3 := h1.symm.trans h2
  injection h3 with h4 h5
  exact ⟨h4, h5⟩

theorem fed_config {l : Libs} (s : Sim) (act : Activation) : (fed l s act).config = s.config := by
  unfold fed
  rcases prepare_cases l.oob s act with e | ⟨x, m, v, hx, e⟩ <;> rw [e] <;> rfl

theorem fed_length {l : Libs} (s : Sim) (act : Activation) : (fed l s act).nodes.length = s.nodes.length := by
  unfold fed
  rcases prepare_cases l.oob s act with e | ⟨x, m, v, hx, e⟩ <;> rw [e]
  unfold setTile
  exact List.length_modify ..

theorem between_length {l : Libs} {c : Config} {js : List Json} {w : NpzFile} {s : Sim} (h : between l c js w s) :
    s.nodes.length = c.numNodes := by
  have h1 : (s.nodes.map canonNode).length = ((programmed l c js w).nodes.map canonNode).length :=
    congrArg (fun s => s.nodes.length) h.same
  rw [List.length_map, List.length_map] at h1
  rw [h1]
  exact (C50_loaded c someActs l _).2.1

theorem startOf_same {l : Libs} {c : Config} {js : List Json} {w : NpzFile} {s : Sim} (h : between l c js w s) (act : Activation) :
    startOf (fed l s act) = startOf (simulator l c js w act) := by
  funext a
  have hc := between_config h
  unfold startOf
  rw [fed_config, hc, show (simulator l c js w act).config = c from (C50_loaded c someActs l _).1]
  have h1 := canon_node (fed_same h act).2 a
  rw [List.getD_eq_getElem?_getD, List.getD_eq_getElem?_getD]
  cases hx : (fed l s act).nodes[a]? with
  | none =>
    rw [hx] at h1
    cases hy : (simulator l c js w act).nodes[a]? with
    | none => rfl
    | some n => rw [hy] at h1; cases h1
  | some m =>
    rw [hx] at h1
    cases hy : (simulator l c js w act).nodes[a]? with
    | none => rw [hy] at h1; cases h1
    | some n =>
      rw [hy] at h1
      have h2 : canonNode m = canonNode n := by injection h1
      rw [Option.getD_some, Option.getD_some, ← nodeInit_canon c m, h2, nodeInit_canon]

/-- The simulator that runs is a new one, loaded with the files. -/
theorem sim_node {l : Libs} {c : Config} {js : List Json} {w : NpzFile} {act : Activation} {a : Nat} (ha : a < c.numNodes) :
    ∃ n, (simulator l c js w act).nodes[a]? = some n ∧ (∀ fl, readyNode c fl n) ∧
      startOf (simulator l c js w act) a = nodeInit c n := by
  have hlen : (simulator l c js w act).nodes.length = c.numNodes := (C50_loaded c someActs l _).2.1
  refine ⟨_, List.getElem?_eq_getElem (by rw [hlen]; exact ha), fun fl => (C50_loaded c fl l _).2.2 _ (List.getElem_mem _), ?_⟩
  unfold startOf
  rw [show (simulator l c js w act).config = c from (C50_loaded c someActs l _).1, List.getD_eq_getElem?_getD,
    List.getElem?_eq_getElem (by rw [hlen]; exact ha), Option.getD_some]

theorem sim_ok {l : Libs} {c : Config} {js : List Json} {w : NpzFile} {act : Activation} :
    ∀ a < c.numNodes, (startOf (simulator l c js w act) a).ok := by
  intro a ha
  obtain ⟨n, -, h1, h2⟩ := sim_node (l := l) (js := js) (w := w) (act := act) ha
  rw [h2]
  exact ready_ok (h1 someActs)

/-- The events of a call of `run` between two resets, in terms of a new simulator. -/
theorem running_events {l : Libs} {c : Config} {js : List Json} {w : NpzFile} {s : Sim} (h : between l c js w s)
    {act : Activation} {fl : FloatActs} {noise : Noises} {es : List WAct} {x : Whole} (hr : running l s act fl noise es x) :
    (Whole.start (startOf (simulator l c js w act))).run c.numNodes (fun a => c.sysCfg fl (noise a)) c.stageLat es = some x := by
  have := hr.events
  rw [startOf_same h, between_length h, between_config h] at this
  exact this

/-- The programs of all tiles have a Halt. -/
def AllHalt (s : Sim) : Prop := ∀ n ∈ s.nodes, ∀ x ∈ n.tiles, .halt ∈ x.operations

theorem halt_fed {s : Sim} (h : AllHalt s) (oob : ℚ → I32) (act : Activation) : AllHalt (s.prepare oob (some act)).2 := by
  rcases prepare_cases oob s act with e | ⟨x, m, v, hx, e⟩
  · rw [e]; exact h
  · rw [e]
    intro n hn y hy
    unfold setTile at hn
    dsimp only at hn
    obtain ⟨a, ha, rfl⟩ := List.getElem_of_mem hn
    rw [List.getElem_modify] at hy
    have hlt : a < s.nodes.length := by rw [List.length_modify] at ha; exact ha
    by_cases h0 : 0 = a
    · subst h0
      rw [if_pos rfl] at hy
      dsimp only at hy
      obtain ⟨t, ht, rfl⟩ := List.getElem_of_mem hy
      unfold tileAt nodeAt at hx
      rw [List.getElem?_eq_getElem hlt] at hx
      simp only [Option.bind_some] at hx
      rw [List.getElem_set]
      split
      · exact h _ (List.getElem_mem hlt) x (List.mem_of_getElem? hx)
      · exact h _ (List.getElem_mem hlt) _ (List.getElem_mem _)
    · rw [if_neg h0] at hy
      exact h _ (List.getElem_mem hlt) y hy

/-- A call of `run` that returns is a run as in C90. -/
theorem returns_once {l : Libs} {c : Config} {js : List Json} {w : NpzFile} {s s' : Sim} (h : between l c js w s)
    (hh : AllHalt (programmed l c js w))
    {act : Activation} {fl : FloatActs} {noise : Noises} {x : Whole} (hr : returns l s act fl noise x s') :
    runOnce l s act (fun a => c.sysCfg fl (noise a))
      (fun a => (x.node a).ts.plain (startOf (simulator l c js w act) a)) s' := by
  obtain ⟨es, hes⟩ := hr.runs
  have hev := running_events h hes
  have hfine := hr.fine
  have hover := hr.over
  rw [between_length h] at hfine hover
  have hends : ∀ i n, (simulator l c js w act).nodes[i]? = some n →
      endsIn c (c.sysCfg fl (noise i)) n ((x.node i).ts.plain (startOf (simulator l c js w act) i)) := by
    intro i n hn
    have hlen : (simulator l c js w act).nodes.length = c.numNodes := (C50_loaded c someActs l _).2.1
    have hi : i < c.numNodes := by rw [← hlen]; exact (List.getElem?_eq_some_iff.1 hn).1
    obtain ⟨n', hn', hready, he⟩ := sim_node (l := l) (js := js) (w := w) (act := act) hi
    cases hn'.symm.trans hn
    obtain ⟨as, f, h1, -, h3, -⟩ := C96_alone _ _ _ _ sim_ok es x hev i hi
    obtain ⟨T, hT⟩ : ∃ T, x.left i = some T := by
      unfold Whole.over at hover
      rw [List.all_eq_true] at hover
      exact Option.isSome_iff_exists.1 (hover i (List.mem_range.2 hi))
    obtain ⟨-, h4, -⟩ := C96_left _ _ _ _ sim_ok es x hev i hi T hT
    have hts : (x.node i).ts = f.ts := by rw [h3]
    have hact : (x.node i).active = f.active := by rw [h3]
    rw [hts]
    rw [he] at h1 ⊢
    have hall := halt_fed hh l.oob act
    refine returned_ends (hready fl) (fun t ht => ?_) rfl rfl h1 (by rw [← hts]; exact alive_of hfine hi) fun t ht e => ?_
    · have hlt : t < n.tiles.length := by rw [(hready fl).count]; exact ht
      show .halt ∈ (n.tiles.getD t _).operations
      rw [List.getD_eq_getElem?_getD, List.getElem?_eq_getElem hlt, Option.getD_some]
      exact hall n (List.mem_of_getElem? hn) _ (List.getElem_mem hlt)
    · obtain ⟨k, -, hk⟩ := h4 t ht
      rw [hact, e] at hk
      cases hk
  have := runOnce_of h (act := act) (cfg := fun a => c.sysCfg fl (noise a))
    (y := fun a => (x.node a).ts.plain (startOf (simulator l c js w act) a))
    ((fed_same h act).1.symm.trans hes.loads) hends
    (fun a => ((fed l s act).nodes.getD a (NodeObj.new c a)).timesOf (x.node a) (x.left a).isSome)
  have he : s' = { (s.prepare l.oob (some act)).2 with
      nodes := (s.prepare l.oob (some act)).2.nodes.mapIdx fun i n =>
        n.afterRun ((x.node i).ts.plain (startOf (simulator l c js w act) i))
          (((fed l s act).nodes.getD i (NodeObj.new c i)).timesOf (x.node i) (x.left i).isSome) } := by
    rw [hr.after]
    unfold Sim.afterWhole fed
    congr 1
    apply List.ext_getElem?
    intro a
    rw [List.getElem?_mapIdx, List.getElem?_mapIdx]
    cases hn : (s.prepare l.oob (some act)).2.nodes[a]? with
    | none => rfl
    | some n =>
      simp only [Option.map_some]
      rw [List.getD_eq_getElem?_getD, hn, Option.getD_some]
      rfl
  rw [he]
  exact this

/-! ## The networks -/

/-- What the networks of the nodes keep. -/
def netSide (s : Sim) : List (Int × Bool) := s.nodes.map fun n => (n.queueBusyCycles, n.isTracking)

theorem updTile_netSide {s s' : Sim} {n t : Int} {f : TileObj → Except PyErr TileObj}
    (h : s.updTile n t f = .ok s') : netSide s' = netSide s := by
  unfold Sim.updTile at h
  split at h
  · cases h
  · rename_i ns hns
    cases h
    refine pyUpdate_map (fun n : NodeObj => (n.queueBusyCycles, n.isTracking)) ?_ hns
    intro x y hxy
    split at hxy
    · cases hxy
    · cases hxy; rfl

theorem place_netSide {s s' : Sim} {p : Placed} (h : s.place p = .ok s') : netSide s' = netSide s := by
  cases p with
  | tile n t op => exact updTile_netSide h
  | core n t k op => exact updTile_netSide h

theorem placeAll_netSide (lax : Lax) (pick : List (String × Json) → Nat) (js : List Json) :
    ∀ s : Sim, netSide (s.placeAll lax pick js).2 = netSide s := by
  induction js with
  | nil => exact fun s => rfl
  | cons j js ih =>
    intro s
    unfold Sim.placeAll
    split
    · exact ih s
    · split
      · rename_i s' hp
        exact (ih s').trans (place_netSide hp)
      · exact ih s
      · rfl

theorem loadAll_netSide (uni : Char → Option Nat) (ws : List (String × NpzArray)) :
    ∀ s : Sim, netSide (s.loadAll uni ws).2 = netSide s := by
  induction ws with
  | nil => exact fun s => rfl
  | cons e ws ih =>
    intro s
    unfold Sim.loadAll
    split
    · exact ih s
    · split
      · rfl
      · refine (ih _).trans ?_
        unfold Sim.loadUnit
        split
        · rename_i h
          exact updTile_netSide h
        · rfl

theorem programmed_netSide (l : Libs) (c : Config) (js : List Json) (w : NpzFile) :
    netSide (programmed l c js w) = List.replicate c.numNodes (0, false) := by
  have h0 : netSide (Sim.new c) = List.replicate c.numNodes (0, false) := by
    unfold netSide Sim.new NodeObj.new
    simp only [List.map_map]
    exact List.eq_replicate_iff.2 ⟨by simp, fun b hb => by
      obtain ⟨i, -, rfl⟩ := List.mem_map.1 hb
      rfl⟩
  have h1 : netSide (loaded1 l (Sim.new c) (.operations (.value (.arr js)))) = netSide (Sim.new c) := by
    unfold loaded1
    simp only [Sim.loadOperations]
    exact placeAll_netSide _ _ _ _
  have h2 : ∀ s, netSide (loaded1 l s (.weights w)) = netSide s := by
    intro s
    unfold loaded1
    cases w with
    | arrays ws => exact loadAll_netSide _ ws s
    | _ => rfl
  unfold programmed loaded
  rw [List.foldl_cons, List.foldl_cons, List.foldl_nil, h2, h1, h0]

theorem fed_netSide {l : Libs} (s : Sim) (act : Activation) : netSide (fed l s act) = netSide s := by
  unfold fed
  rcases prepare_cases l.oob s act with e | ⟨x, m, v, hx, e⟩
  · rw [e]
  · rw [e]
    unfold netSide setTile
    apply List.ext_getElem?
    intro i
    simp only [List.getElem?_map, List.getElem?_modify]
    by_cases h : 0 = i
    · subst h
      cases s.nodes[0]? <;> simp
    · cases s.nodes[i]? <;> simp [h]

theorem reset_netSide (s : Sim) : netSide s.reset.2 = netSide s := forEach_map _ _ _ fun _ => rfl

theorem after_netSide {s : Sim} {w : Whole} (h : w.over s.nodes.length = true) :
    netSide (s.afterWhole w) = s.nodes.mapIdx fun a n => (n.queueBusyCycles + ((w.node a).clk.busy : Int), false) := by
  unfold netSide Sim.afterWhole
  apply List.ext_getElem?
  intro a
  simp only [List.getElem?_map, List.getElem?_mapIdx]
  cases hn : s.nodes[a]? with
  | none => rfl
  | some n =>
    have ha : a < s.nodes.length := (List.getElem?_eq_some_iff.1 hn).1
    unfold Whole.over at h
    rw [List.all_eq_true] at h
    have := h a (List.mem_range.2 ha)
    simp only [Option.map_some, NodeObj.afterRun, NodeObj.timesOf, this, Bool.not_true]

/-- The busy cycles of node `a` in all runs so far. -/
def busySum (hist : List Completed) (a : Nat) : Int := (hist.map fun e => ((e.2.2.node a).clk.busy : Int)).sum

theorem returns_netSide {l : Libs} {s s' : Sim} {act : Activation} {fl : FloatActs} {noise : Noises} {w : Whole}
    (hr : returns l s act fl noise w s') {f : Nat → Int}
    (h : netSide s = (List.range s.nodes.length).map fun a => (f a, false)) :
    netSide s' = (List.range s.nodes.length).map fun a => (f a + (w.node a).clk.busy, false) := by
  rw [hr.after, after_netSide (by rw [fed_length]; exact hr.over)]
  have h1 : netSide (fed l s act) = _ := (fed_netSide s act).trans h
  apply List.ext_getElem?
  intro a
  have h2 := congrArg (fun x => x[a]?) h1
  simp only [netSide, List.getElem?_map] at h2
  rw [List.getElem?_mapIdx, List.getElem?_map]
  cases hn : (fed l s act).nodes[a]? with
  | none =>
    rw [hn] at h2
    cases hm : (List.range s.nodes.length)[a]? with
    | none => rfl
    | some b => rw [hm] at h2; cases h2
  | some n =>
    rw [hn] at h2
    cases hm : (List.range s.nodes.length)[a]? with
    | none => rw [hm] at h2; cases h2
    | some b =>
      rw [hm] at h2
      obtain ⟨rfl, -⟩ := range_some hm
      simp only [Option.map_some, Option.some.injEq, Prod.mk.injEq] at h2 ⊢
      rw [h2.1]
      exact ⟨rfl, trivial⟩

section
variable {c0 c : Config} (hsim : Simulable c0) (hb : c0.build = .ok c) (hp : 0 < c.mvmuConfig.xbarSize * c.numMvmusPerCore)
  (hrr : c.mvmuConfig.haveRramXbar = true) (hss : c.mvmuConfig.haveSramXbar = false)
  {l : Libs} {fl : FloatActs} {js : List Json} {w : NpzFile} (hh : AllHalt (programmed l c js w))
include hsim hb hp hrr hss hh

/-- The runs of a batch as runs of C90. -/
def asSession (l : Libs) (c : Config) (fl : FloatActs) (js : List Json) (w : NpzFile) (e : Completed) : SessionRun :=
  (e.1, fun a => c.sysCfg fl (e.2.1 a), fun a => (e.2.2.node a).ts.plain (startOf (simulator l c js w e.1) a))

theorem batch_session {hist : List Completed} {s : Sim} (h : batch l fl (programmed l c js w) hist s) :
    session l (programmed l c js w) (hist.map (asSession l c fl js w)) s ∧
    ∃ s₁, s.reset = (.ok (), s₁) ∧ between l c js w s₁ := by
  have h0 := between_new l c js w
  induction h with
  | first h =>
    have h1 := session.first (returns_once h0 hh h)
    exact ⟨h1, (session_runs hsim hb hp hrr hss h1).1⟩
  | next h hr h' ih =>
    obtain ⟨h1, s₁, h2, h3⟩ := ih
    cases h2.symm.trans hr
    have h4 := session.next h1 hr (returns_once h3 hh h')
    rw [List.map_append]
    exact ⟨h4, (session_runs hsim hb hp hrr hss h4).1⟩

theorem before_between {hist : List Completed} {s : Sim} (h : before l fl (programmed l c js w) hist s) :
    between l c js w s := by
  cases h with
  | new => exact between_new l c js w
  | reset h hr =>
    obtain ⟨s₁, h2, h3⟩ := (batch_session hsim hb hp hrr hss hh h).2
    cases h2.symm.trans hr
    exact h3

omit hsim hb hp hrr hss hh in
theorem returns_length {s s' : Sim} {act : Activation} {noise : Noises} {x : Whole} (hr : returns l s act fl noise x s') :
    s'.nodes.length = s.nodes.length := by
  rw [hr.after]
  unfold Sim.afterWhole
  rw [List.length_mapIdx, fed_length]

omit hsim hb hp hrr hss hh in
theorem netSide_length (s : Sim) : (netSide s).length = s.nodes.length := List.length_map ..

omit hsim hb hp hrr hss hh in
theorem batch_netSide {hist : List Completed} {s : Sim} (h : batch l fl (programmed l c js w) hist s) :
    netSide s = (List.range c.numNodes).map fun a => (busySum hist a, false) := by
  have hlen : (programmed l c js w).nodes.length = c.numNodes := (C50_loaded c someActs l _).2.1
  have key : ∀ {s s' : Sim} {act noise x} {f : Nat → Int}, returns l s act fl noise x s' →
      netSide s = (List.range c.numNodes).map (fun a => (f a, false)) →
      netSide s' = (List.range c.numNodes).map fun a => (f a + (x.node a).clk.busy, false) := by
    intro s s' act noise x f hr h
    have h1 : s.nodes.length = c.numNodes := by rw [← netSide_length, h]; simp
    have := returns_netSide hr (f := f) (by rw [h1]; exact h)
    rw [h1] at this
    exact this
  induction h with
  | first h =>
    rw [key (f := fun _ => 0) h (by
      rw [programmed_netSide]
      exact (List.eq_replicate_iff.2 ⟨by simp, fun b hb => by
        obtain ⟨i, -, rfl⟩ := List.mem_map.1 hb
        rfl⟩).symm)]
    simp [busySum]
  | next h hr h' ih =>
    have h1 := reset_netSide _ |>.trans ih
    rw [hr] at h1
    rw [key h' h1]
    simp [busySum]

omit hsim hb hp hrr hss hh in
theorem before_netSide {hist : List Completed} {s : Sim} (h : before l fl (programmed l c js w) hist s) :
    netSide s = (List.range c.numNodes).map fun a => (busySum hist a, false) := by
  cases h with
  | new =>
    rw [programmed_netSide]
    exact (List.eq_replicate_iff.2 ⟨by simp, fun b hb => by
      obtain ⟨i, -, rfl⟩ := List.mem_map.1 hb
      rfl⟩).symm
  | reset h hr =>
    have h1 := (reset_netSide _).trans (batch_netSide h)
    rw [hr] at h1
    exact h1

omit hsim hb hp hrr hss hh in
theorem before_tracks {hist : List Completed} {s : Sim} (h : before l fl (programmed l c js w) hist s) :
    ∀ n ∈ s.nodes, n.isTracking = false := by
  intro n hn
  have h1 : (n.queueBusyCycles, n.isTracking) ∈ netSide s := List.mem_map.2 ⟨n, hn, rfl⟩
  rw [before_netSide h] at h1
  obtain ⟨a, -, e⟩ := List.mem_map.1 h1
  injection e with _ e
  exact e.symm

end

end Ramwich
