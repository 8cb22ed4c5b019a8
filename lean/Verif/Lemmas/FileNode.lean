import Verif.Lemmas.Runnable
import Verif.Spec.FileNode

/-! # The cores and DRAMs of a loaded node -/
namespace Ramwich

open Spec

/-! ## Loads of a core -/

theorem core_load_call (fl : FloatActs) (c : Core) (m : Nat) (rows : List (List ℚ)) :
    (c.call fl (.load m rows)).2 = { c with mvmus := c.mvmus.modify m fun u => loadOr u (.matrix rows) } := by
  show (c.loadWeights m rows).2 = _
  unfold Core.loadWeights Core.getMvmu
  by_cases hm : m < c.mvmus.length
  · rw [if_neg (by omega)]
    have hu := List.getElem?_eq_getElem hm
    simp only [Int.toNat_natCast, hu]
    cases hl : c.mvmus[m].loadWeights rows with
    | error e =>
      dsimp only
      have : c.mvmus.modify m (fun u => loadOr u (.matrix rows)) = c.mvmus := by
        apply List.ext_getElem?
        intro i
        rw [List.getElem?_modify]
        by_cases hi : m = i
        · subst hi
          rw [hu]
          simp [loadOr, hl]
        · simp [hi]
      rw [this]
    | ok u' =>
      dsimp only
      have : c.mvmus.modify m (fun u => loadOr u (.matrix rows)) = c.mvmus.set m u' := by
        apply List.ext_getElem?
        intro i
        rw [List.getElem?_modify, List.getElem?_set]
        by_cases hi : m = i
        · subst hi
          rw [hu]
          simp [loadOr, hl, hm]
        · simp [hi]
      rw [this]
  · rw [if_pos (by omega), List.modify_eq_self (by omega)]

theorem core_after_loads (fl : FloatActs) (ws : List (Nat × List (List ℚ))) :
    ∀ c : Core, { c.after fl (ws.map fun w => .load w.1 w.2) with mvmus := [] } = { c with mvmus := [] } ∧
      ∀ m : Nat, (c.after fl (ws.map fun w => .load w.1 w.2)).mvmus[m]? =
        c.mvmus[m]?.map fun u => ((ws.filter (·.1 = m)).map fun w => NpzArray.matrix w.2).foldl loadOr u := by
  induction ws with
  | nil => intro c; exact ⟨rfl, fun m => by simp [Core.after]⟩
  | cons w ws ih =>
    intro c
    have e : c.after fl ((w :: ws).map fun w => .load w.1 w.2) =
        ({ c with mvmus := c.mvmus.modify w.1 fun u => loadOr u (.matrix w.2) } : Core).after fl
          (ws.map fun w => .load w.1 w.2) := by
      rw [← core_load_call fl c w.1 w.2]; rfl
    rw [e]
    refine ⟨(ih _).1, fun m => ?_⟩
    rw [(ih _).2 m, List.getElem?_modify]
    by_cases hm : w.1 = m
    · subst hm
      cases c.mvmus[w.1]? <;> simp
    · cases c.mvmus[m]? <;> simp [hm]

theorem after_isLoad (fl : FloatActs) (ws : List CoreCall) (h : ∀ k ∈ ws, isLoad k = true) :
    ∀ c : Core, { c.after fl ws with mvmus := [] } = { c with mvmus := [] } ∧
      (c.after fl ws).mvmus.length = c.mvmus.length := by
  induction ws with
  | nil => exact fun c => ⟨rfl, rfl⟩
  | cons k ws ih =>
    intro c
    have ih' := ih (fun k hk => h k (List.mem_cons_of_mem _ hk)) (c.call fl k).2
    have hk : { (c.call fl k).2 with mvmus := [] } = { c with mvmus := [] } ∧
        (c.call fl k).2.mvmus.length = c.mvmus.length := by
      cases k with
      | load i w =>
        show { (c.loadWeights i w).2 with mvmus := [] } = _ ∧ (c.loadWeights i w).2.mvmus.length = _
        unfold Core.loadWeights
        split
        · exact ⟨rfl, rfl⟩
        · split
          · exact ⟨rfl, rfl⟩
          · exact ⟨rfl, by simp⟩
      | _ => exact absurd (h _ (List.mem_cons_self ..)) Bool.false_ne_true
    exact ⟨ih'.1.trans hk.1, ih'.2.trans hk.2⟩

theorem loadOr_cfg (u : Mvmu) (x : NpzArray) : (loadOr u x).cfg = u.cfg := by
  unfold loadOr
  split
  · rfl
  · split
    · rename_i m' h
      unfold Mvmu.loadWeights at h
      split at h
      · cases h
      · simp only [bind, Except.bind] at h
        repeat' split at h
        all_goals first | (cases h; done) | (injection h with h; rw [← h])
    · rfl

theorem loadOr_square (u : Mvmu) (x : NpzArray) (h : squareOf u.cfg.xbarSize x = none) : loadOr u x = u := by
  cases x with
  | other => rfl
  | matrix rows =>
    have : u.loadWeights rows = .error .valueError := by
      unfold Mvmu.loadWeights
      rw [if_pos]
      simp only [squareOf] at h
      intro hs
      rw [if_pos] at h
      · cases h
      · unfold shape2 at hs
        simpa using hs
    simp [loadOr, this]

theorem foldl_square (n : Nat) (l : List NpzArray) : ∀ u : Mvmu, u.cfg.xbarSize = n →
    ((l.filterMap (squareOf n)).map NpzArray.matrix).foldl loadOr u = l.foldl loadOr u := by
  induction l with
  | nil => exact fun u _ => rfl
  | cons x l ih =>
    intro u hu
    rw [List.foldl_cons]
    cases hx : squareOf n x with
    | none =>
      rw [List.filterMap_cons_none hx, loadOr_square u x (by rw [hu]; exact hx), ih u hu]
    | some rows =>
      rw [List.filterMap_cons_some hx, List.map_cons, List.foldl_cons]
      have : x = .matrix rows := by
        cases x with
        | other => cases hx
        | matrix r =>
          simp only [squareOf] at hx
          split at hx
          · injection hx with hx; rw [hx]
          · cases hx
      rw [this]
      exact ih _ (by rw [loadOr_cfg]; exact hu)

theorem filter_coreMatrices (uni : Char → Option Nat) (c : Config) (w : NpzFile) (a t k m : Nat)
    (hm : m < c.numMvmusPerCore) :
    (coreMatrices uni c w a t k).filter (·.1 = m) = (matricesIn uni c w a t k m).map fun rows => (m, rows) := by
  unfold coreMatrices
  generalize hg : (fun m => (matricesIn uni c w a t k m).map fun rows => (m, rows)) = g
  have h1 : ∀ i, (g i).filter (fun x => decide (x.1 = m)) = if i = m then g i else [] := by
    intro i
    rw [← hg]
    by_cases hi : i = m
    · simp [hi]
    · rw [if_neg hi, List.filter_eq_nil_iff]
      intro x hx
      obtain ⟨r, -, rfl⟩ := List.mem_map.1 hx
      simpa using hi
  rw [List.filter_flatMap]
  simp only [h1]
  have h2 : ∀ n, ((List.range n).flatMap fun i => if i = m then g i else []) = if m < n then g m else [] := by
    intro n
    induction n with
    | zero => rfl
    | succ n ih =>
      rw [List.range_succ, List.flatMap_append, ih]
      by_cases h : m < n
      · rw [if_pos h, if_pos (by omega)]
        simp [show n ≠ m by omega]
      · rw [if_neg h]
        by_cases h' : n = m
        · subst h'
          simp
        · rw [if_neg (by omega)]
          simp [h']
  rw [h2, if_pos hm, ← hg]

/-- The weights after the matrices of a file are loaded. -/
theorem loadAll_weights (ws : List (Nat × List (List ℚ))) (m : Nat) : ∀ s : CoreState,
    ((CoreState.loadAll s ws).units m).weights =
      match ((ws.filter (·.1 = m)).map Prod.snd).getLast? with
      | some rows => fun r j => (rows.getD r []).getD j 0
      | none => (s.units m).weights := by
  induction ws with
  | nil => exact fun s => rfl
  | cons w ws ih =>
    intro s
    obtain ⟨i, rows⟩ := w
    rw [show CoreState.loadAll s ((i, rows) :: ws) = CoreState.loadAll { s with units := fun j =>
      if j = i then { s.units j with weights := fun r j => (rows.getD r []).getD j 0 } else s.units j } ws from rfl, ih]
    by_cases h : i = m
    · subst h
      simp only [List.filter_cons, decide_true, if_true, List.map_cons, List.getLast?_cons]
      cases ((ws.filter (·.1 = i)).map Prod.snd).getLast? <;> simp
    · simp only [List.filter_cons, decide_eq_true_eq, if_neg h]
      rw [if_neg (fun e => h e.symm)]

theorem coreMatrices_weights (uni : Char → Option Nat) (c : Config) (w : NpzFile) (a t k m : Nat)
    (hm : m < c.numMvmusPerCore) :
    ((CoreState.loadAll {} (coreMatrices uni c w a t k)).units m).weights = weightsIn uni c w a t k m := by
  rw [loadAll_weights, filter_coreMatrices uni c w a t k m hm, List.map_map]
  unfold weightsIn
  have : (Prod.snd ∘ fun rows : List (List ℚ) => (m, rows)) = id := rfl
  rw [this, List.map_id]
  rfl

theorem coreMatrices_shape (uni : Char → Option Nat) (c : Config) (w : NpzFile) (a t k : Nat) :
    ∀ x ∈ coreMatrices uni c w a t k, x.1 < c.numMvmusPerCore ∧ x.2.length = c.mvmuConfig.xbarSize ∧
      ∀ row ∈ x.2, row.length = c.mvmuConfig.xbarSize := by
  intro x hx
  unfold coreMatrices at hx
  obtain ⟨m, hm, hx⟩ := List.mem_flatMap.1 hx
  obtain ⟨rows, hr, rfl⟩ := List.mem_map.1 hx
  obtain ⟨y, -, hy⟩ := List.mem_filterMap.1 hr
  refine ⟨List.mem_range.1 hm, ?_⟩
  cases y with
  | other => cases hy
  | matrix r =>
    simp only [squareOf] at hy
    split at hy
    · rename_i h; injection hy with hy; subst hy; exact h
    · cases hy

/-! ## Loaders -/

/-- The cores of a tile. -/
def kernels (x : TileObj) : List Core := x.cores.map (·.core)

theorem kernels_operations (l : Libs) (s : Sim) (js : List Json) (a b : Nat) :
    (tileAt (s.loadOperations l.lax l.pick (.value (.arr js))).2 a b).map kernels = (tileAt s a b).map kernels ∧
    (tileAt (s.loadOperations l.lax l.pick (.value (.arr js))).2 a b).map (·.ctrl) = (tileAt s a b).map (·.ctrl) := by
  obtain ⟨h, -⟩ := C51_load l.lax l.pick s js
  generalize (s.loadOperations l.lax l.pick (.value (.arr js))).2 = s' at h
  have h6 : (tileAt s' a b).map stripOps = (tileAt s a b).map stripOps := by
    rw [← tileAt_mapTiles, ← tileAt_mapTiles, ← withoutOps_eq, ← withoutOps_eq, h]
  have e : ∀ x : TileObj, kernels (stripOps x) = kernels x := fun x => by simp [kernels, stripOps]
  constructor
  · have := congrArg (Option.map kernels) h6
    simpa [Function.comp_def, e] using this
  · have := congrArg (Option.map (·.ctrl)) h6
    simpa [Function.comp_def, stripOps] using this

theorem ctrl_weights (l : Libs) (s : Sim) (w : NpzFile) (a b : Nat) :
    (tileAt (s.loadWeights l.uni w).2 a b).map (·.ctrl) = (tileAt s a b).map (·.ctrl) := by
  have h : withoutMvmus (s.loadWeights l.uni w).2 = withoutMvmus s := by
    cases w with
    | arrays ws => exact withoutMvmus_loadAll l.uni ws s
    | _ => rfl
  have h6 : (tileAt (s.loadWeights l.uni w).2 a b).map stripMvmus = (tileAt s a b).map stripMvmus := by
    rw [← tileAt_mapTiles, ← tileAt_mapTiles, ← withoutMvmus_eq, ← withoutMvmus_eq, h]
  have := congrArg (Option.map (·.ctrl)) h6
  simpa [Function.comp_def, stripMvmus] using this

/-- What an activation changes. -/
theorem tile_activation (l : Libs) {c : Config} {fl : FloatActs} {s : Sim} (hs : SimReady c fl s)
    (act : Activation) (xs : List ℚ) (ha : act = .array xs ∨ act = .file 1 xs)
    (hl : xs.length ≤ c.tileConfig.edramSize) (h00 : (tileAt s 0 0).isSome) (a b : Nat) :
    (tileAt (s.prepare l.oob (some act)).2 a b).map kernels = (tileAt s a b).map kernels ∧
    (tileAt (s.prepare l.oob (some act)).2 a b).map (fun x => x.ctrl.mem.cells) = (tileAt s a b).map fun x =>
      if a = 0 ∧ b = 0 then xs.map (fun a => castI32 l.oob (a * 2 ^ c.dataConfig.activationFracBits)) ++
        x.ctrl.mem.cells.drop xs.length
      else x.ctrl.mem.cells := by
  obtain ⟨x, hx⟩ := Option.isSome_iff_exists.1 h00
  obtain ⟨hc, hlen, hn⟩ := hs
  have hxr : TileReady c fl x := by
    unfold tileAt nodeAt at hx
    cases hnd : s.nodes[0]? with
    | none => rw [hnd] at hx; cases hx
    | some nd =>
      rw [hnd] at hx
      exact ((readyNode_iff c fl nd).1 (hn nd (List.mem_of_getElem? hnd))).2 x (List.mem_of_getElem? hx)
  obtain ⟨-, ⟨h2, h3, h4⟩, -⟩ := hxr
  have e : s.prepare l.oob (some act) = s.loadArray l.oob xs := by
    rcases ha with rfl | rfl <;> rfl
  rw [e, loadArray_ok l.oob s x xs hx (by rw [hc, h3]) (by rw [hc, h4]) (by rw [hc]; exact hl)]
  by_cases hab : a = 0 ∧ b = 0
  · obtain ⟨rfl, rfl⟩ := hab
    rw [tileAt_set_same s 0 0 x _ hx, hx, hc]
    simp [kernels]
  · rw [tileAt_setTile, if_neg (by tauto)]
    cases tileAt s a b with
    | none => exact ⟨rfl, rfl⟩
    | some y => simp [hab]

theorem mvmuAt_kernels (s s' : Sim) (a b k m : Nat) (h : (tileAt s' a b).map kernels = (tileAt s a b).map kernels) :
    mvmuAt s' a b k m = mvmuAt s a b k m := by
  unfold mvmuAt coreAt
  cases h1 : tileAt s a b with
  | none =>
    rw [h1] at h
    cases h2 : tileAt s' a b with
    | none => rfl
    | some y => rw [h2] at h; cases h
  | some x =>
    rw [h1] at h
    cases h2 : tileAt s' a b with
    | none => rw [h2] at h; cases h
    | some y =>
      rw [h2] at h
      simp only [Option.map_some, Option.some.injEq] at h
      have h3 := congrArg (fun l => l[k]?) h
      simp only [kernels, List.getElem?_map] at h3
      simp only [Option.bind_some]
      cases h4 : x.cores[k]? <;> cases h5 : y.cores[k]? <;> rw [h4, h5] at h3 <;> simp_all

theorem mvmuAt_new (c : Config) (a b k m : Nat) (ha : a < c.numNodes) (hb : b < c.numTilesPerNode)
    (hk : k < c.numCoresPerTile) (hm : m < c.numMvmusPerCore) : mvmuAt (Sim.new c) a b k m = some (Mvmu.new c) := by
  unfold mvmuAt coreAt
  rw [tileAt_new, if_pos ⟨ha, hb⟩]
  simp [TileObj.new, CoreObj.new, Core.new, hk, hm]

variable {c c' : Config} {a : Nat} {js : List Json} {ps : List Placed} {act : Activation} {xs : List ℚ}
  {moves : List DryMove}

/-- The units of a loaded simulator. -/
theorem runnable_mvmu (h : runnable c c' a js ps act xs moves) (l : Libs) (w : NpzFile) (hw : shortIds l.uni w)
    (t k m : Nat) (ht : t < c'.numTilesPerNode) (hk : k < c'.numCoresPerTile) (hm : m < c'.numMvmusPerCore) :
    mvmuAt (simulator l c' js w act) a t k m =
      some ((arraysFor l.uni a t k m (arraysIn w)).foldl loadOr (Mvmu.new c')) := by
  have hready := C50_loaded c' ⟨fun _ x => x, fun _ x => x⟩ l [.operations (.value (.arr js)), .weights w]
  have h0 := (face_operations l c' h.entries h.targets 0 0 (by have := h.node; omega) h.tiles).2
  rw [← face_weights l _ w] at h0
  have h00 : (tileAt (loaded l (Sim.new c') [.operations (.value (.arr js)), .weights w]) 0 0).isSome := by
    rw [← Option.isSome_map (f := face)]
    exact (congrArg Option.isSome h0).trans rfl
  have h1 := (tile_activation l hready act xs h.input h.fits h00 a t).1
  rw [show simulator l c' js w act = ((loaded l (Sim.new c') [.operations (.value (.arr js)), .weights w]).prepare l.oob
      (some act)).2 from rfl, mvmuAt_kernels _ _ a t k m h1]
  show mvmuAt ((((Sim.new c').loadOperations l.lax l.pick (.value (.arr js))).2).loadWeights l.uni w).2 a t k m = _
  have h2 := mvmuAt_kernels _ _ a t k m (kernels_operations l (Sim.new c') js a t).1
  rw [mvmuAt_new c' a t k m h.node ht hk hm] at h2
  cases w with
  | arrays ws =>
    obtain ⟨-, -, h3⟩ := C52_load l.uni ((Sim.new c').loadOperations l.lax l.pick (.value (.arr js))).2 ws hw
    rw [h3, h2]
    rfl
  | missing => simpa [Sim.loadWeights, arraysIn, arraysFor] using h2
  | otherName => simpa [Sim.loadWeights, arraysIn, arraysFor] using h2

/-- The cores of a loaded node have the matrices of the file. -/
theorem runnable_core (h : runnable c c' a js ps act xs moves) (l : Libs) (w : NpzFile) (hw : shortIds l.uni w)
    (fl : FloatActs) {n : NodeObj} (hn : (simulator l c' js w act).nodes[a]? = some n)
    (t k : Nat) (ht : t < c'.numTilesPerNode) (hk : k < c'.numCoresPerTile) :
    (nodeInit c' n).core t k = (Core.new c').after fl ((coreMatrices l.uni c' w a t k).map fun w => .load w.1 w.2) := by
  have hready : readyNode c' fl n := (C50_loaded c' fl l [.operations (.value (.arr js)), .weights w,
    .activation (some act)]).2.2 n (List.mem_of_getElem? hn)
  obtain ⟨x, hx⟩ : ∃ x, n.tiles[t]? = some x := ⟨_, List.getElem?_eq_getElem (by rw [hready.count]; exact ht)⟩
  have hx' := List.mem_of_getElem? hx
  obtain ⟨o, ho⟩ : ∃ o, x.cores[k]? = some o :=
    ⟨_, List.getElem?_eq_getElem (by rw [hready.cores x hx']; exact hk)⟩
  have hcore : (nodeInit c' n).core t k = o.core := by
    show ((n.tiles.getD t _).cores.getD k _).core = _
    rw [List.getD_eq_getElem?_getD (l := n.tiles), hx]
    show (x.cores.getD k _).core = _
    rw [List.getD_eq_getElem?_getD, ho]
    rfl
  rw [hcore]
  obtain ⟨ws, hl, e⟩ := hready.weights x hx' o (List.mem_of_getElem? ho)
  obtain ⟨h1, h2⟩ := after_isLoad fl ws hl (Core.new c')
  obtain ⟨h3, h4⟩ := core_after_loads fl (coreMatrices l.uni c' w a t k) (Core.new c')
  rw [← e] at h1 h2
  have h5 : o.core.mvmus = ((Core.new c').after fl ((coreMatrices l.uni c' w a t k).map fun w =>
      .load w.1 w.2)).mvmus := by
    apply List.ext_getElem?
    intro m
    rw [h4 m]
    by_cases hm : m < c'.numMvmusPerCore
    · have h6 := runnable_mvmu h l w hw t k m ht hk hm
      have h7 : mvmuAt (simulator l c' js w act) a t k m = o.core.mvmus[m]? := by
        simp [mvmuAt, coreAt, tileAt, nodeAt, hn, hx, ho]
      rw [← h7, h6, filter_coreMatrices l.uni c' w a t k m hm, List.map_map]
      have h8 : (Core.new c').mvmus[m]? = some (Mvmu.new c') := by simp [Core.new, hm]
      rw [h8, Option.map_some]
      congr 1
      exact (foldl_square c'.mvmuConfig.xbarSize _ (Mvmu.new c') rfl).symm
    · have h8 : (Core.new c').mvmus.length = c'.numMvmusPerCore := by simp [Core.new]
      rw [List.getElem?_eq_none (by rw [h2, h8]; omega), List.getElem?_eq_none (by rw [h8]; omega)]
      rfl
  have h9 := h1.trans h3.symm
  generalize (Core.new c').after fl ((coreMatrices l.uni c' w a t k).map fun w => .load w.1 w.2) = y at h5 h9
  cases hy : o.core
  cases y
  rw [hy] at h9 h5
  simp only [Core.mk.injEq] at h9 ⊢
  exact ⟨h9.1, h5, h9.2.2⟩

/-- The input words of a loaded node. -/
theorem runnable_input (h : runnable c c' a js ps act xs moves) (l : Libs) (w : NpzFile)
    (hr : ∀ x ∈ xs, inRange c'.dataConfig.activationFracBits x)
    {n : NodeObj} (hn : (simulator l c' js w act).nodes[a]? = some n) (ha : a = 0) (i : Nat) (hi : i < xs.length) :
    wordsOf ((nodeInit c' n).mem 0) i = fixedPoint c'.dataConfig.activationFracBits xs[i] := by
  subst ha
  have hready := C50_loaded c' ⟨fun _ x => x, fun _ x => x⟩ l [.operations (.value (.arr js)), .weights w]
  have h0 := (face_operations l c' h.entries h.targets 0 0 h.node h.tiles).2
  rw [← face_weights l _ w] at h0
  have h00 : (tileAt (loaded l (Sim.new c') [.operations (.value (.arr js)), .weights w]) 0 0).isSome := by
    rw [← Option.isSome_map (f := face)]
    exact (congrArg Option.isSome h0).trans rfl
  have h1 := (tile_activation l hready act xs h.input h.fits h00 0 0).2
  have hr' : readyNode c' ⟨fun _ x => x, fun _ x => x⟩ n := (C50_loaded c' _ l [.operations (.value (.arr js)), .weights w,
    .activation (some act)]).2.2 n (List.mem_of_getElem? hn)
  obtain ⟨x, hx⟩ : ∃ x, n.tiles[0]? = some x := ⟨_, List.getElem?_eq_getElem (by rw [hr'.count]; exact h.tiles)⟩
  have h2 : tileAt (((loaded l (Sim.new c') [.operations (.value (.arr js)), .weights w]).prepare l.oob (some act)).2) 0 0
      = some x := by
    show tileAt (simulator l c' js w act) 0 0 = _
    simp [tileAt, nodeAt, hn, hx]
  rw [h2] at h1
  obtain ⟨y, hy⟩ := Option.isSome_iff_exists.1 h00
  rw [hy] at h1
  simp only [Option.map_some, Option.some.injEq, and_self, if_true] at h1
  have h3 : (nodeInit c' n).mem 0 = x.ctrl.mem := by
    show (n.tiles.getD 0 _).ctrl.mem = _
    rw [List.getD_eq_getElem?_getD, hx]; rfl
  unfold wordsOf
  rw [h3, h1, List.getD_eq_getElem?_getD, List.getElem?_append_left (by simpa using hi)]
  simp only [List.getElem?_map, List.getElem?_eq_getElem hi, Option.map_some, Option.getD_some]
  have h4 := hr _ (List.getElem_mem hi)
  have h5 := castI32_spec l.oob _ h4.1 h4.2
  have h6 : (0 ≤ xs[i] * 2 ^ c'.dataConfig.activationFracBits) ↔ 0 ≤ xs[i] := by
    have : (0 : ℚ) < 2 ^ c'.dataConfig.activationFracBits := by positivity
    exact mul_nonneg_iff_of_pos_right this
  unfold fixedPoint
  split
  · rename_i h7; exact h5.1 (h6.2 h7)
  · rename_i h7; exact h5.2 (by rw [← not_le, h6]; exact h7)

end Ramwich
