import Verif.Spec.Session
import Verif.Lemmas.FileNode

/-! # A simulator between two runs -/
namespace Ramwich

open Spec

/-- A core without its cycle counter. -/
def canonCore (o : CoreObj) : CoreObj := { core := o.core, operations := o.operations }

/-- What matters of a tile for the next run. -/
def canon (x : TileObj) : TileObj :=
  { id := x.id, ctrl := { mem := x.ctrl.mem, valid := x.ctrl.valid }, cores := x.cores.map canonCore,
    operations := x.operations }

def canonNode (n : NodeObj) : NodeObj := { id := n.id, tiles := n.tiles.map canon }

def canonSim (s : Sim) : Sim := { s with nodes := s.nodes.map canonNode }

/-- The tile with a new DRAM. -/
def blank (c : Config) (x : TileObj) : TileObj :=
  { id := x.id, ctrl := Ctrl.new c.tileConfig.edramSize, cores := x.cores.map canonCore, operations := x.operations }

def blankSim (c : Config) (s : Sim) : Sim :=
  { s with nodes := s.nodes.map fun n => { id := n.id, tiles := n.tiles.map (blank c) } }

/-- The tile is ready for a run. -/
structure idle (x : TileObj) : Prop where
  running : x.ctrl.running = false
  pending : x.ctrl.pending = []
  stats : x.ctrl.stats = {}
  router : x.router.stats = {}

theorem idle_begin {x : TileObj} (h : idle x) : (canon x).ctrl.begin 0 = x.ctrl.begin 0 := by
  unfold Ctrl.begin canon
  dsimp only
  rw [h.running, if_neg (by simp), if_neg (by simp), h.pending, h.stats]

theorem getD_canon (c : Config) (n : NodeObj) (t : Nat) :
    (canonNode n).tiles.getD t (TileObj.new c t) = canon (n.tiles.getD t (TileObj.new c t)) := by
  show (n.tiles.map canon).getD t _ = _
  rw [List.getD_eq_getElem?_getD, List.getD_eq_getElem?_getD, List.getElem?_map]
  cases n.tiles[t]? with
  | none =>
    simp only [Option.map_none, Option.getD_none, canon, TileObj.new, List.map_map]
    congr 1
  | some x => rfl

theorem start_canon (c : Config) (n : NodeObj) (h : ∀ x ∈ n.tiles, idle x) :
    (canonNode n).start c = n.start c := by
  have hi : ∀ t, idle (n.tiles.getD t (TileObj.new c t)) := by
    intro t
    rw [List.getD_eq_getElem?_getD]
    cases ht : n.tiles[t]? with
    | none => exact ⟨rfl, rfl, rfl, rfl⟩
    | some x => exact h x (List.mem_of_getElem? ht)
  have hcore : ∀ t k, ((canon (n.tiles.getD t (TileObj.new c t))).cores.getD k (CoreObj.new c)).core
        = ((n.tiles.getD t (TileObj.new c t)).cores.getD k (CoreObj.new c)).core ∧
      ((canon (n.tiles.getD t (TileObj.new c t))).cores.getD k (CoreObj.new c)).operations
        = ((n.tiles.getD t (TileObj.new c t)).cores.getD k (CoreObj.new c)).operations := by
    intro t k
    show (((n.tiles.getD t (TileObj.new c t)).cores.map canonCore).getD k _).core = _ ∧
      (((n.tiles.getD t (TileObj.new c t)).cores.map canonCore).getD k _).operations = _
    generalize (n.tiles.getD t (TileObj.new c t)).cores = l
    rw [List.getD_eq_getElem?_getD, List.getD_eq_getElem?_getD, List.getElem?_map]
    cases l[k]? <;> exact ⟨rfl, rfl⟩
  unfold NodeObj.start
  simp only [getD_canon, fun t => idle_begin (hi t), fun t k => (hcore t k).1, fun t k => (hcore t k).2]
  congr 1
  simp only [fun t => (hi t).router]
  rfl

theorem afterRun_canon (n : NodeObj) (y : Sys) (times : RunTimes) : (canonNode n).afterRun y times = n.afterRun y times := by
  unfold NodeObj.afterRun canonNode
  dsimp only
  congr 1
  apply List.ext_getElem?
  intro t
  simp only [List.getElem?_mapIdx, List.getElem?_map]
  cases n.tiles[t]? with
  | none => rfl
  | some x =>
    simp only [Option.map_some, canon]
    congr 2
    apply List.ext_getElem?
    intro k
    simp only [List.getElem?_mapIdx, List.getElem?_map]
    cases x.cores[k]? <;> rfl

theorem tileAt_canon (s : Sim) (a b : Nat) : tileAt (canonSim s) a b = (tileAt s a b).map canon := by
  unfold tileAt nodeAt canonSim
  simp only [List.getElem?_map]
  cases s.nodes[a]? with
  | none => rfl
  | some n => simp [canonNode]

theorem setTile_canon (s : Sim) (a b : Nat) (y : TileObj) : canonSim (setTile s a b y) = setTile (canonSim s) a b (canon y) := by
  unfold setTile canonSim
  dsimp only
  congr 1
  apply List.ext_getElem?
  intro i
  simp only [List.getElem?_map, List.getElem?_modify]
  by_cases h : a = i
  · subst h
    cases s.nodes[a]? with
    | none => rfl
    | some n => simp [canonNode]
  · cases s.nodes[i]? <;> simp [h]

theorem loadActivation_canon (x : TileObj) (v : List I32) :
    (canon x).loadActivation v = (x.loadActivation v).map canon := by
  unfold TileObj.loadActivation canon
  dsimp only
  cases assignPrefix x.ctrl.mem.cells v with
  | error e => rfl
  | ok cells =>
    dsimp only
    cases assignPrefix x.ctrl.valid (List.replicate v.length true) <;> rfl

theorem loadArray_canon (oob : ℚ → I32) (s : Sim) (xs : List ℚ) :
    (canonSim s).loadArray oob xs = ((s.loadArray oob xs).1, canonSim (s.loadArray oob xs).2) := by
  unfold Sim.loadArray
  show (if s.config.tileConfig.edramSize < xs.length then _ else _) = _
  split
  · rfl
  · have hu := updTile_nat s 0 0
    have hu' := updTile_nat (canonSim s) 0 0
    simp only [Nat.cast_zero] at hu hu'
    rw [hu, hu', tileAt_canon]
    cases tileAt s 0 0 with
    | none => rfl
    | some x =>
      rw [show (canonSim s).config = s.config from rfl]
      simp only [Option.map_some, loadActivation_canon]
      cases x.loadActivation (xs.map fun x => castI32 oob (x * 2 ^ s.config.dataConfig.activationFracBits)) with
      | error e => rfl
      | ok y =>
        show (Except.ok (), setTile (canonSim s) 0 0 (canon y)) = (Except.ok (), canonSim (setTile s 0 0 y))
        rw [setTile_canon]

theorem prepare_canon (oob : ℚ → I32) (s : Sim) (act : Activation) :
    (canonSim s).prepare oob (some act) = ((s.prepare oob (some act)).1, canonSim (s.prepare oob (some act)).2) := by
  show (canonSim s).loadActivation oob act = ((s.loadActivation oob act).1, canonSim (s.loadActivation oob act).2)
  cases act with
  | file n xs =>
    by_cases h : n = 1
    · subst h; exact loadArray_canon oob s xs
    · simp only [Sim.loadActivation, ne_eq, h, not_false_eq_true, if_true]
  | array xs => exact loadArray_canon oob s xs
  | _ => rfl

/-- What `load_activation` changes. -/
theorem prepare_cases (oob : ℚ → I32) (s : Sim) (act : Activation) :
    (s.prepare oob (some act)).2 = s ∨ ∃ x m v, tileAt s 0 0 = some x ∧
      (s.prepare oob (some act)).2 = setTile s 0 0 { x with ctrl := { x.ctrl with mem := m, valid := v } } := by
  have key : ∀ xs, (s.loadArray oob xs).2 = s ∨ ∃ x m v, tileAt s 0 0 = some x ∧
      (s.loadArray oob xs).2 = setTile s 0 0 { x with ctrl := { x.ctrl with mem := m, valid := v } } := by
    intro xs
    unfold Sim.loadArray
    split
    · exact .inl rfl
    · have hu := updTile_nat s 0 0
      simp only [Nat.cast_zero] at hu
      rw [hu]
      cases hx : tileAt s 0 0 with
      | none => exact .inl rfl
      | some x =>
        dsimp only
        unfold TileObj.loadActivation
        cases assignPrefix x.ctrl.mem.cells (xs.map fun x => castI32 oob (x * 2 ^ s.config.dataConfig.activationFracBits)) with
        | error e => exact .inl rfl
        | ok cells =>
          dsimp only
          generalize assignPrefix x.ctrl.valid _ = r
          cases r with
          | error e => exact .inl rfl
          | ok valid => exact .inr ⟨x, _, valid, rfl, rfl⟩
  show (s.loadActivation oob act).2 = s ∨ _
  cases act with
  | file n xs =>
    show (if n ≠ 1 then (Except.ok (), s) else s.loadArray oob xs : Res Sim Unit).2 = s ∨ _
    by_cases h : n = 1
    · subst h; exact key xs
    · rw [if_pos h]; exact .inl rfl
  | array xs => exact key xs
  | _ => exact .inl rfl

def idleSim (s : Sim) : Prop := ∀ n ∈ s.nodes, ∀ x ∈ n.tiles, idle x

theorem idle_prepare (oob : ℚ → I32) {s : Sim} (h : idleSim s) (act : Activation) :
    idleSim (s.prepare oob (some act)).2 := by
  rcases prepare_cases oob s act with e | ⟨x, m, v, hx, e⟩
  · rw [e]; exact h
  · rw [e]
    have hix : idle x := by
      unfold tileAt nodeAt at hx
      cases hn : s.nodes[0]? with
      | none => rw [hn] at hx; cases hx
      | some n => rw [hn] at hx; exact h n (List.mem_of_getElem? hn) x (List.mem_of_getElem? hx)
    intro n hn y hy
    obtain ⟨i, hi⟩ := List.mem_iff_getElem?.1 hn
    unfold setTile at hi
    dsimp only at hi
    rw [List.getElem?_modify] at hi
    cases hni : s.nodes[i]? with
    | none => rw [hni] at hi; cases hi
    | some n0 =>
      rw [hni] at hi
      have hn0 := List.mem_of_getElem? hni
      by_cases h0 : 0 = i
      · subst h0
        injection hi with hi
        rw [← hi] at hy
        rcases List.mem_or_eq_of_mem_set hy with hy | rfl
        · exact h n0 hn0 y hy
        · exact ⟨hix.running, hix.pending, hix.stats, hix.router⟩
      · simp only [if_neg h0, id_map', Option.some.injEq, Option.map_eq_map, Option.map_some] at hi
        rw [← hi] at hy
        exact h n0 hn0 y hy

theorem blank_prepare (oob : ℚ → I32) (c : Config) (s : Sim) (act : Activation) :
    blankSim c (s.prepare oob (some act)).2 = blankSim c s := by
  rcases prepare_cases oob s act with e | ⟨x, m, v, hx, e⟩
  · rw [e]
  · rw [e]
    unfold blankSim setTile
    dsimp only
    congr 1
    apply List.ext_getElem?
    intro i
    simp only [List.getElem?_map, List.getElem?_modify]
    by_cases h0 : 0 = i
    · subst h0
      unfold tileAt nodeAt at hx
      cases hn : s.nodes[0]? with
      | none => rfl
      | some n =>
        rw [hn] at hx
        change n.tiles[0]? = some x at hx
        simp only [if_true, Option.map_eq_map, Option.map_some]
        congr 2
        apply List.ext_getElem?
        intro j
        simp only [List.getElem?_map, List.getElem?_set]
        by_cases hj : 0 = j
        · subst hj
          have : 0 < n.tiles.length := (List.getElem?_eq_some_iff.1 hx).1
          simp only [this, if_true, hx, Option.map_some]
          rfl
        · rw [if_neg hj]
    · cases s.nodes[i]? <;> simp [h0]

/-- After a reset. -/
theorem startsLike_blank {c : Config} (hs : c.mvmuConfig.haveSramXbar = false) {x x' : TileObj} (h : StartsLike c x x') :
    idle x' ∧ canon x' = blank c x := by
  have h1 := h.ctrl
  have e : (Ctrl.new c.tileConfig.edramSize).begin 0
    = Ctrl.started (Memory.new c.tileConfig.edramSize) (List.replicate c.tileConfig.edramSize false) 0 := rfl
  rw [e] at h1
  unfold Ctrl.begin at h1
  rw [h.running, if_neg (by simp)] at h1
  unfold Ctrl.started at h1
  injection h1 with g1 g2 g3 g4 g5 g6 g7 g8 g9 g10 g11 g12
  refine ⟨⟨h.running, g7, g12, h.stats⟩, ?_⟩
  unfold canon blank
  rw [h.id, h.ops]
  have hc : x'.cores.map canonCore = x.cores.map canonCore := by
    have hcs := h.cores
    generalize x.cores = l at hcs
    generalize x'.cores = l' at hcs
    induction hcs with
    | nil => rfl
    | cons h1 _ ih =>
      rw [List.map_cons, List.map_cons, ih]
      congr 1
      unfold canonCore
      rw [h1.2.1 hs, h1.2.2]
  rw [hc]
  rw [g1, g2]
  rfl

/-! ## The simulator before its first run -/

theorem ready_idle {c : Config} {fl : FloatActs} {s : Sim} (h : SimReady c fl s) : idleSim s := by
  intro n hn x hx
  have h1 := (h.2.2 n hn).ctrl x hx
  have h2 := (h.2.2 n hn).router x hx
  exact ⟨by rw [h1], by rw [h1], by rw [h1], by rw [h2]⟩

theorem blank_programmed (l : Libs) (c : Config) (js : List Json) (w : NpzFile) :
    canonSim (programmed l c js w) = blankSim c (programmed l c js w) := by
  have key : ∀ a b, (tileAt (programmed l c js w) a b).map (·.ctrl) = (tileAt (Sim.new c) a b).map (·.ctrl) := by
    intro a b
    have h1 := (kernels_operations l (Sim.new c) js a b).2
    have h2 := ctrl_weights l ((Sim.new c).loadOperations l.lax l.pick (.value (.arr js))).2 w a b
    exact h2.trans h1
  unfold canonSim blankSim
  congr 1
  apply List.ext_getElem?
  intro a
  rw [List.getElem?_map, List.getElem?_map]
  cases ha : (programmed l c js w).nodes[a]? with
  | none => rfl
  | some n =>
    simp only [Option.map_some, canonNode]
    congr 2
    apply List.ext_getElem?
    intro b
    rw [List.getElem?_map, List.getElem?_map]
    cases hb : n.tiles[b]? with
    | none => rfl
    | some x =>
      have h1 : tileAt (programmed l c js w) a b = some x := by
        unfold tileAt nodeAt
        rw [ha]; exact hb
      have h2 := key a b
      rw [h1] at h2
      cases h3 : tileAt (Sim.new c) a b with
      | none => rw [h3] at h2; cases h2
      | some y =>
        rw [h3] at h2
        have h4 : y.ctrl = Ctrl.new c.tileConfig.edramSize := by
          unfold tileAt nodeAt Sim.new at h3
          simp only [List.getElem?_map] at h3
          cases h5 : (List.range c.numNodes)[a]? with
          | none => rw [h5] at h3; cases h3
          | some i =>
            rw [h5] at h3
            simp only [Option.map_some, Option.bind_some, NodeObj.new, List.getElem?_map] at h3
            cases h6 : (List.range c.numTilesPerNode)[b]? with
            | none => rw [h6] at h3; cases h3
            | some j =>
              rw [h6] at h3
              injection h3 with h3
              rw [← h3]; rfl
        simp only [Option.map_some, Option.some.injEq] at h2
        simp only [Option.map_some, canon, blank]
        rw [h2, h4]
        rfl

/-! ## One run and the reset after it -/

/-- What holds before every run. -/
structure between (l : Libs) (c : Config) (js : List Json) (w : NpzFile) (s : Sim) : Prop where
  idle : idleSim s
  same : canonSim s = canonSim (programmed l c js w)

theorem canon_node {s s' : Sim} (h : canonSim s = canonSim s') (i : Nat) :
    s.nodes[i]?.map canonNode = s'.nodes[i]?.map canonNode := by
  have h1 : s.nodes.map canonNode = s'.nodes.map canonNode := congrArg Sim.nodes h
  rw [← List.getElem?_map, ← List.getElem?_map, h1]

theorem canon_tiles (n : NodeObj) : (canonNode n).tiles.length = n.tiles.length := List.length_map ..

theorem between_config {l : Libs} {c : Config} {js : List Json} {w : NpzFile} {s : Sim} (h : between l c js w s) :
    s.config = c := by
  have h1 := congrArg Sim.config h.same
  exact h1.trans (C50_loaded c someActs l _).1

/-- A run between two resets is a run of a new simulator. -/
theorem between_run {l : Libs} {c : Config} {js : List Json} {w : NpzFile} {s s' : Sim} (h : between l c js w s)
    {act : Activation} {cfg : Nat → SysCfg} {y : Nat → Sys} (hr : runOnce l s act cfg y s') :
    ((programmed l c js w).prepare l.oob (some act)).1 = .ok () ∧
    (∀ i n, (simulator l c js w act).nodes[i]? = some n → endsIn c (cfg i) n (y i)) ∧
    ∃ times : Nat → RunTimes, s'.nodes = (simulator l c js w act).nodes.mapIdx fun i n => n.afterRun (y i) (times i) := by
  have h1 := prepare_canon l.oob s act
  have h2 := prepare_canon l.oob (programmed l c js w) act
  rw [h.same] at h1
  have h3 := h1.symm.trans h2
  injection h3 with h4 h5
  have hready : SimReady c someActs (programmed l c js w) := C50_loaded c someActs l _
  have hi1 := idle_prepare l.oob h.idle act
  have hi2 := idle_prepare l.oob (ready_idle hready) act
  refine ⟨h4.symm.trans hr.loads, fun i n hn => ?_, ?_⟩
  · have h6 := canon_node h5 i
    rw [show ((programmed l c js w).prepare l.oob (some act)).2 = simulator l c js w act from rfl, hn] at h6
    cases hm : (s.prepare l.oob (some act)).2.nodes[i]? with
    | none => rw [hm] at h6; cases h6
    | some m =>
      rw [hm] at h6
      have h7 : canonNode m = canonNode n := by injection h6
      obtain ⟨e1, e2, e3, e4, e5⟩ := hr.ends i m hm
      rw [between_config h] at e2 e3
      refine ⟨?_, e2, ?_, e4, e5⟩
      · rw [e1, ← canon_tiles m, h7, canon_tiles]
      · rw [← start_canon c n (hi2 n (List.mem_of_getElem? hn)), ← h7,
          start_canon c m (hi1 m (List.mem_of_getElem? hm))]
        exact e3
  · obtain ⟨times, ht⟩ := hr.after
    refine ⟨times, ?_⟩
    rw [ht]
    dsimp only
    apply List.ext_getElem?
    intro i
    rw [List.getElem?_mapIdx, List.getElem?_mapIdx]
    have h6 := canon_node h5 i
    rw [show ((programmed l c js w).prepare l.oob (some act)).2 = simulator l c js w act from rfl] at h6
    cases hm : (s.prepare l.oob (some act)).2.nodes[i]? with
    | none =>
      rw [hm] at h6
      cases hn : (simulator l c js w act).nodes[i]? with
      | none => rfl
      | some n => rw [hn] at h6; cases h6
    | some m =>
      rw [hm] at h6
      cases hn : (simulator l c js w act).nodes[i]? with
      | none => rw [hn] at h6; cases h6
      | some n =>
        rw [hn] at h6
        injection h6 with h6
        simp only [Option.map_some]
        rw [← afterRun_canon m, ← afterRun_canon n, h6]

theorem runOnce_config {l : Libs} {s s' : Sim} {act : Activation} {cfg : Nat → SysCfg} {y : Nat → Sys}
    (hr : runOnce l s act cfg y s') : s'.config = s.config := by
  obtain ⟨times, ht⟩ := hr.after
  rw [ht]
  dsimp only
  rcases prepare_cases l.oob s act with e | ⟨x, m, v, hx, e⟩ <;> rw [e] <;> rfl

/-- The reset after a run. -/
theorem between_reset {c0 c : Config} (hsim : Simulable c0) (hb : c0.build = .ok c)
    (hp : 0 < c.mvmuConfig.xbarSize * c.numMvmusPerCore) (hrr : c.mvmuConfig.haveRramXbar = true)
    (hss : c.mvmuConfig.haveSramXbar = false) {l : Libs} {js : List Json} {w : NpzFile} {s s' : Sim}
    (h : between l c js w s) {act : Activation} {cfg : Nat → SysCfg} {y : Nat → Sys} (hr : runOnce l s act cfg y s') :
    ∃ s'', s'.reset = (.ok (), s'') ∧ between l c js w s'' := by
  obtain ⟨-, h1, times, h2⟩ := between_run h hr
  have hready : SimReady c someActs (simulator l c js w act) := C50_loaded c someActs l _
  have key : List.Forall₂ (fun n n' => ∃ n'', n'.reset = (.ok (), n'') ∧ n''.id = n.id ∧
      List.Forall₂ (StartsLike c) n.tiles n''.tiles) (simulator l c js w act).nodes s'.nodes := by
    rw [h2]
    conv => arg 2; rw [← mapIdx_self (simulator l c js w act).nodes]
    apply forall₂_mapIdx
    intro i n hn
    exact node_reset someActs hsim hb hp hrr n (hready.2.2 n (List.mem_of_getElem? hn)) (cfg i) (y i) (h1 i n hn) (times i)
  have key2 : ∀ l l' : List NodeObj, List.Forall₂ (fun n n' => ∃ n'', n'.reset = (.ok (), n'') ∧ n''.id = n.id ∧
      List.Forall₂ (StartsLike c) n.tiles n''.tiles) l l' →
      ∃ l'', forEach NodeObj.reset l' = (.ok (), l'') ∧ (∀ n ∈ l'', ∀ x ∈ n.tiles, idle x) ∧
        l''.map canonNode = l.map fun n => { id := n.id, tiles := n.tiles.map (blank c) } := by
    intro l l' hl
    induction hl with
    | nil => exact ⟨[], rfl, by simp, rfl⟩
    | @cons n n' l l' hn _ ih =>
      obtain ⟨n'', e1, e2, e3⟩ := hn
      obtain ⟨l'', e4, e5, e6⟩ := ih
      have e7 : (∀ x ∈ n''.tiles, idle x) ∧ n''.tiles.map canon = n.tiles.map (blank c) := by
        generalize n.tiles = ts at e3
        generalize n''.tiles = ts' at e3
        induction e3 with
        | nil => exact ⟨by simp, rfl⟩
        | cons hx _ ih =>
          obtain ⟨f1, f2⟩ := startsLike_blank hss hx
          refine ⟨?_, by rw [List.map_cons, List.map_cons, f2, ih.2]⟩
          intro x hx
          rcases List.mem_cons.1 hx with rfl | hx
          · exact f1
          · exact ih.1 x hx
      refine ⟨n'' :: l'', by simp only [forEach, e1, e4], ?_, ?_⟩
      · intro m hm
        rcases List.mem_cons.1 hm with rfl | hm
        · exact e7.1
        · exact e5 m hm
      · rw [List.map_cons, List.map_cons, e6]
        congr 1
        unfold canonNode
        rw [e2, e7.2]
  obtain ⟨l'', e1, e2, e3⟩ := key2 _ _ key
  refine ⟨{ s' with nodes := l'' }, ?_, e2, ?_⟩
  · unfold Sim.reset
    rw [e1]
  · rw [blank_programmed, ← blank_prepare l.oob c (programmed l c js w) act]
    unfold canonSim blankSim
    dsimp only
    rw [e3]
    congr 1
    rw [runOnce_config hr, between_config h]
    exact hready.1.symm

theorem between_new (l : Libs) (c : Config) (js : List Json) (w : NpzFile) : between l c js w (programmed l c js w) :=
  ⟨ready_idle (C50_loaded c someActs l _), rfl⟩

/-- Every run of a session. -/
theorem session_runs {c0 c : Config} (hsim : Simulable c0) (hb : c0.build = .ok c)
    (hp : 0 < c.mvmuConfig.xbarSize * c.numMvmusPerCore) (hrr : c.mvmuConfig.haveRramXbar = true)
    (hss : c.mvmuConfig.haveSramXbar = false) {l : Libs} {js : List Json} {w : NpzFile} {hist : List SessionRun} {s' : Sim}
    (h : session l (programmed l c js w) hist s') :
    (∃ s'', s'.reset = (.ok (), s'') ∧ between l c js w s'') ∧
    (∀ e, hist.getLast? = some e → ∃ times : Nat → RunTimes,
      s'.nodes = (simulator l c js w e.1).nodes.mapIdx fun i n => n.afterRun (e.2.2 i) (times i)) ∧
    ∀ e ∈ hist, ((programmed l c js w).prepare l.oob (some e.1)).1 = .ok () ∧
      ∀ i n, (simulator l c js w e.1).nodes[i]? = some n → endsIn c (e.2.1 i) n (e.2.2 i) := by
  have h0 := between_new l c js w
  induction h with
  | first h =>
    refine ⟨between_reset hsim hb hp hrr hss h0 h, fun e he => ?_, fun e he => ?_⟩
    · cases he
      exact (between_run h0 h).2.2
    obtain rfl := List.mem_singleton.1 he
    exact ⟨(between_run h0 h).1, (between_run h0 h).2.1⟩
  | next _ hr h' ih =>
    obtain ⟨⟨s'', e1, e2⟩, -, e3⟩ := ih
    cases e1.symm.trans hr
    refine ⟨between_reset hsim hb hp hrr hss e2 h', fun e he => ?_, fun e he => ?_⟩
    · rw [List.getLast?_concat] at he
      cases he
      exact (between_run e2 h').2.2
    rcases List.mem_append.1 he with he | he
    · exact e3 e he
    · obtain rfl := List.mem_singleton.1 he
      exact ⟨(between_run e2 h').1, (between_run e2 h').2.1⟩

/-- A run of a new simulator can be repeated between two resets. -/
theorem runOnce_of {l : Libs} {c : Config} {js : List Json} {w : NpzFile} {s : Sim} (h : between l c js w s)
    {act : Activation} {cfg : Nat → SysCfg} {y : Nat → Sys}
    (h1 : ((programmed l c js w).prepare l.oob (some act)).1 = .ok ())
    (h2 : ∀ i n, (simulator l c js w act).nodes[i]? = some n → endsIn c (cfg i) n (y i)) (times : Nat → RunTimes) :
    runOnce l s act cfg y { (s.prepare l.oob (some act)).2 with
      nodes := (s.prepare l.oob (some act)).2.nodes.mapIdx fun i n => n.afterRun (y i) (times i) } := by
  have g1 := prepare_canon l.oob s act
  have g2 := prepare_canon l.oob (programmed l c js w) act
  rw [h.same] at g1
  have g3 := g1.symm.trans g2
  injection g3 with h4 h5
  have hready : SimReady c someActs (programmed l c js w) := C50_loaded c someActs l _
  have hi1 := idle_prepare l.oob h.idle act
  have hi2 := idle_prepare l.oob (ready_idle hready) act
  refine ⟨h4.trans h1, fun i m hm => ?_, times, rfl⟩
  have h6 := canon_node h5 i
  rw [show ((programmed l c js w).prepare l.oob (some act)).2 = simulator l c js w act from rfl, hm] at h6
  cases hn : (simulator l c js w act).nodes[i]? with
  | none => rw [hn] at h6; cases h6
  | some n =>
    rw [hn] at h6
    have h7 : canonNode m = canonNode n := by injection h6
    obtain ⟨e1, e2, e3, e4, e5⟩ := h2 i n hn
    rw [between_config h]
    refine ⟨?_, e2, ?_, e4, e5⟩
    · rw [e1, ← canon_tiles m, h7, canon_tiles]
    · rw [← start_canon c m (hi1 m (List.mem_of_getElem? hm)), h7,
        start_canon c n (hi2 n (List.mem_of_getElem? hn))]
      exact e3

/-- Sessions of any length. -/
theorem session_exists {c0 c : Config} (hsim : Simulable c0) (hb : c0.build = .ok c)
    (hp : 0 < c.mvmuConfig.xbarSize * c.numMvmusPerCore) (hrr : c.mvmuConfig.haveRramXbar = true)
    (hss : c.mvmuConfig.haveSramXbar = false) {l : Libs} {js : List Json} {w : NpzFile} (hist : List SessionRun)
    (hne : hist ≠ []) (h : ∀ e ∈ hist, ((programmed l c js w).prepare l.oob (some e.1)).1 = .ok () ∧
      ∀ i n, (simulator l c js w e.1).nodes[i]? = some n → endsIn c (e.2.1 i) n (e.2.2 i)) :
    ∃ s', session l (programmed l c js w) hist s' := by
  have h0 := between_new l c js w
  induction hist using List.reverseRecOn with
  | nil => exact absurd rfl hne
  | append_singleton hist e ih =>
    obtain ⟨act, cfg, y⟩ := e
    obtain ⟨h1, h2⟩ := h (act, cfg, y) (by simp)
    by_cases hn : hist = []
    · subst hn
      exact ⟨_, .first (runOnce_of h0 h1 h2 fun _ => ⟨fun _ => 0, fun _ _ => 0, 0, false⟩)⟩
    · obtain ⟨s', hs'⟩ := ih hn fun e he => h e (by simp [he])
      obtain ⟨⟨s'', e1, e2⟩, -⟩ := session_runs hsim hb hp hrr hss hs'
      exact ⟨_, .next hs' e1 (runOnce_of e2 h1 h2 fun _ => ⟨fun _ => 0, fun _ _ => 0, 0, false⟩)⟩

end Ramwich
