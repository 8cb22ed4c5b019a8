import Verif.Spec.ReportTime
import Verif.Lemmas.FileNode
import Verif.Props.Simulation

/-! # The report of a loaded simulator depends on the texts of the programs only -/
namespace Ramwich

open Spec

/-- What else the report needs of a tile. -/
def bill (x : TileObj) : Nat × MemoryStats := (x.id, x.ctrl.mem.stats)

theorem bill_operations (l : Libs) (s : Sim) (js : List Json) (a b : Nat) :
    (tileAt (s.loadOperations l.lax l.pick (.value (.arr js))).2 a b).map bill = (tileAt s a b).map bill := by
  obtain ⟨h, -⟩ := C51_load l.lax l.pick s js
  generalize (s.loadOperations l.lax l.pick (.value (.arr js))).2 = s' at h
  have h6 : (tileAt s' a b).map stripOps = (tileAt s a b).map stripOps := by
    rw [← tileAt_mapTiles, ← tileAt_mapTiles, ← withoutOps_eq, ← withoutOps_eq, h]
  have := congrArg (Option.map bill) h6
  have e : ∀ x : TileObj, bill (stripOps x) = bill x := fun _ => rfl
  simpa [Function.comp_def, e] using this

theorem bill_weights (l : Libs) (s : Sim) (w : NpzFile) (a b : Nat) :
    (tileAt (s.loadWeights l.uni w).2 a b).map bill = (tileAt s a b).map bill := by
  have h : withoutMvmus (s.loadWeights l.uni w).2 = withoutMvmus s := by
    cases w with
    | arrays ws => exact withoutMvmus_loadAll l.uni ws s
    | _ => rfl
  have h6 : (tileAt (s.loadWeights l.uni w).2 a b).map stripMvmus = (tileAt s a b).map stripMvmus := by
    rw [← tileAt_mapTiles, ← tileAt_mapTiles, ← withoutMvmus_eq, ← withoutMvmus_eq, h]
  have := congrArg (Option.map bill) h6
  have e : ∀ x : TileObj, bill (stripMvmus x) = bill x := fun _ => rfl
  simpa [Function.comp_def, e] using this

theorem bill_activation (l : Libs) {c : Config} {fl : FloatActs} {s : Sim} (hs : SimReady c fl s)
    (act : Activation) (xs : List ℚ) (ha : act = .array xs ∨ act = .file 1 xs)
    (hl : xs.length ≤ c.tileConfig.edramSize) (h00 : (tileAt s 0 0).isSome) (a b : Nat) :
    (tileAt (s.prepare l.oob (some act)).2 a b).map bill = (tileAt s a b).map bill := by
  obtain ⟨x, hx⟩ := Option.isSome_iff_exists.1 h00
  obtain ⟨hc, hlen, hn⟩ := hs
  have hxr : TileReady c fl x := by
    unfold tileAt nodeAt at hx
    cases hnd : s.nodes[0]? with
    | none => rw [hnd] at hx; cases hx
    | some nd =>
      rw [hnd] at hx
      exact ((readyNode_iff c fl nd).1 (hn nd (List.mem_of_getElem? hnd))).2 x (List.mem_of_getElem? hx)
  obtain ⟨-, ⟨h2, h3, h4⟩, -⟩ := hxr
  have e : s.prepare l.oob (some act) = s.loadArray l.oob xs := by
    rcases ha with rfl | rfl <;> rfl
  rw [e, loadArray_ok l.oob s x xs hx (by rw [hc, h3]) (by rw [hc, h4]) (by rw [hc]; exact hl)]
  by_cases hab : a = 0 ∧ b = 0
  · obtain ⟨rfl, rfl⟩ := hab
    rw [tileAt_set_same s 0 0 x _ hx, hx]
    simp [bill]
  · rw [tileAt_setTile, if_neg (by tauto)]

section
variable {c c' : Config} {a : Nat} {js : List Json} {ps : List Placed} {act : Activation} {xs : List ℚ}
  {moves : List DryMove}

theorem runnable_bill (h : runnable c c' a js ps act xs moves) (l : Libs) (w : NpzFile) (t : Nat)
    (ht : t < c'.numTilesPerNode) : (tileAt (simulator l c' js w act) a t).map bill = some (t, {}) := by
  have hready := C50_loaded c' ⟨fun _ x => x, fun _ x => x⟩ l [.operations (.value (.arr js)), .weights w]
  have e : simulator l c' js w act = ((loaded l (Sim.new c') [.operations (.value (.arr js)), .weights w]).prepare l.oob
      (some act)).2 := rfl
  have h0 := (face_operations l c' h.entries h.targets 0 0 (by have := h.node; omega) h.tiles).2
  rw [← face_weights l _ w] at h0
  have h00 : (tileAt (loaded l (Sim.new c') [.operations (.value (.arr js)), .weights w]) 0 0).isSome := by
    rw [← Option.isSome_map (f := face)]
    exact (congrArg Option.isSome h0).trans rfl
  rw [e, bill_activation l hready act xs h.input h.fits h00 a t]
  have e2 : loaded l (Sim.new c') [.operations (.value (.arr js)), .weights w] =
      (((Sim.new c').loadOperations l.lax l.pick (.value (.arr js))).2.loadWeights l.uni w).2 := rfl
  rw [e2, bill_weights, bill_operations, tileAt_new, if_pos ⟨h.node, ht⟩]
  rfl

end

theorem tileComponents_congr {p : Power} {x y : TileObj} (h1 : x.id = y.id) (h2 : x.activeCycles = y.activeCycles)
    (h3 : x.operations = y.operations) (h4 : x.ctrl.mem.stats = y.ctrl.mem.stats)
    (h5 : x.ctrl.stats.totalRequests = y.ctrl.stats.totalRequests) (h6 : x.router.stats = y.router.stats)
    (h7 : x.cores.flatMap (coreComponents p) = y.cores.flatMap (coreComponents p)) :
    tileComponents p x = tileComponents p y := by
  unfold tileComponents
  simp only [h1, h2, h3, h4, h5, h6, h7]

theorem flatMap_mapIdx_map {α β γ δ : Type} {f : Nat → α → β} {F : β → List γ} {g : α → δ} {G : Nat → δ → List γ} :
    ∀ l : List α, (∀ i x, F (f i x) = G i (g x)) → (l.mapIdx f).flatMap F = ((l.map g).mapIdx G).flatten := by
  intro l
  induction l generalizing f G with
  | nil => intro _; rfl
  | cons x l ih =>
    intro h
    rw [List.mapIdx_cons, List.flatMap_cons, List.map_cons, List.mapIdx_cons, List.flatten_cons, h,
      ih (G := fun i => G (i + 1)) fun i x => h (i + 1) x]

theorem ledger_cores (p : Power) (c : Config) (l m : List CoreObj) (u : Nat → Int)
    (h : l.map (·.operations) = m.map (·.operations)) :
    (l.mapIdx fun k o => { o with core := coreLedger c (upToHlt o.operations), activeCycles := u k }).flatMap (coreComponents p) =
    (m.mapIdx fun k o => { o with core := coreLedger c (upToHlt o.operations), activeCycles := u k }).flatMap (coreComponents p) := by
  have e : ∀ l : List CoreObj, (l.mapIdx fun k o => { o with core := coreLedger c (upToHlt o.operations), activeCycles := u k }).flatMap
      (coreComponents p) = ((l.map (·.operations)).mapIdx fun k ops =>
        coreComponents p { core := coreLedger c (upToHlt ops), operations := ops, activeCycles := u k }).flatten :=
    fun l => flatMap_mapIdx_map (g := fun o : CoreObj => o.operations) l fun _ _ => rfl
  rw [e, e, h]

theorem routerLedger_congr {n : Nat} {f g : Nat → List TileOp} (h : ∀ t < n, f t = g t) (t : Nat) (ht : t < n) :
    routerLedger n f t = routerLedger n g t := by
  unfold routerLedger
  rw [h t ht]
  congr 1
  exact Finset.sum_congr rfl fun j hj => by rw [h j (Finset.mem_range.1 hj)]

theorem nodeComponents_text {p : Power} {c : Config} {fl : FloatActs} {ps : List Placed} {a : Nat} {n : NodeObj}
    (hr : readyNode c fl n) (hf : ∀ t < c.numTilesPerNode, ∃ x, n.tiles[t]? = some x ∧ x.operations = tileProgram ps a t ∧
      x.cores.map (·.operations) = (List.range c.numCoresPerTile).map (coreProgram ps a t) ∧ x.id = t ∧ x.ctrl.mem.stats = {})
    (u : RunTimes) :
    nodeComponents p (ledgerNode c n u) = nodeComponents p (ledgerNode c (textNode c ps a) u) := by
  have hlen : (textNode c ps a).tiles.length = n.tiles.length := by
    rw [hr.count]; simp [textNode]
  have htiles : (ledgerNode c n u).tiles.length = (ledgerNode c (textNode c ps a) u).tiles.length := by
    simp only [ledgerNode, List.length_mapIdx, hlen]
  have hget : ∀ t < n.tiles.length, (n.tiles.getD t (TileObj.new c t)).operations =
      ((textNode c ps a).tiles.getD t (TileObj.new c t)).operations := by
    intro t ht
    rw [hr.count] at ht
    obtain ⟨x, hx, h1, -⟩ := hf t ht
    rw [List.getD_eq_getElem?_getD, hx, Option.getD_some, h1]
    simp [textNode, ht]
  have hmap : (ledgerNode c n u).tiles.map (tileComponents p) = (ledgerNode c (textNode c ps a) u).tiles.map (tileComponents p) := by
    apply List.ext_getElem?
    intro t
    simp only [ledgerNode, List.getElem?_map, List.getElem?_mapIdx]
    by_cases ht : t < c.numTilesPerNode
    · obtain ⟨x, hx, h1, h2, h3, h4⟩ := hf t ht
      have hy : (textNode c ps a).tiles[t]? = some { TileObj.new c t with
          operations := tileProgram ps a t
          cores := (List.range c.numCoresPerTile).map fun k => { CoreObj.new c with operations := coreProgram ps a t k } } := by
        simp [textNode, ht]
      have hcores : x.cores.map (·.operations) = ((List.range c.numCoresPerTile).map fun k =>
          { CoreObj.new c with operations := coreProgram ps a t k }).map (·.operations) := by
        rw [h2, List.map_map]; rfl
      rw [hx, hy]
      simp only [Option.map_some, Option.some.injEq]
      refine tileComponents_congr h3 rfl h1 ?_ ?_ ?_ ?_
      · dsimp only
        rw [h4, h1, hcores]
        rfl
      · dsimp only
        rw [h1, hcores]
      · dsimp only
        rw [hlen]
        exact routerLedger_congr hget t (by rw [hr.count]; exact ht)
      · exact ledger_cores p c _ _ _ hcores
    · rw [List.getElem?_eq_none (by rw [hr.count]; omega), List.getElem?_eq_none (by rw [hlen, hr.count]; omega)]
      rfl
  unfold nodeComponents
  rw [htiles, List.flatMap_def, List.flatMap_def, hmap]
  rfl

end Ramwich
