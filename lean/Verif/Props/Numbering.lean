import Verif.Props.LoaderWeights

/-! # Numbers of nodes and tiles (C50, C51)

`get_stats` treats tiles 0 and 1 differently and packets are addressed by tile number, so both depend on
the numbers that the objects were given. -/
namespace Ramwich

open Spec

/-- The numbers of the nodes with those of their tiles. -/
def numbering (s : Sim) : List (Nat × List Nat) := s.nodes.map fun n => (n.id, n.tiles.map (·.id))

theorem pyUpdate_map {α β : Type} (g : α → β) {xs ys : List α} {i : Int} {f : α → Except PyErr α}
    (hf : ∀ x y, f x = .ok y → g y = g x) (h : pyUpdate xs i f = .ok ys) : ys.map g = xs.map g := by
  cases hp : position xs.length i with
  | none => rw [pyUpdate_none _ _ _ hp] at h; cases h
  | some j =>
    have hl := position_lt _ _ _ hp
    have hj : xs[j]? = some xs[j] := List.getElem?_eq_getElem hl
    rw [pyUpdate_some _ _ _ j _ hp hj] at h
    cases hfx : f xs[j] with
    | error e => rw [hfx] at h; cases h
    | ok y =>
      rw [hfx] at h
      cases h
      rw [List.map_set, hf _ _ hfx]
      have : g xs[j] = (xs.map g)[j]'(by simpa using hl) := by simp
      rw [this, List.set_getElem_self]

theorem updTile_numbering {s s' : Sim} {n t : Int} {f : TileObj → Except PyErr TileObj}
    (hf : ∀ x y, f x = .ok y → y.id = x.id) (h : s.updTile n t f = .ok s') : numbering s' = numbering s := by
  unfold Sim.updTile at h
  split at h
  · cases h
  · rename_i ns hns
    cases h
    refine pyUpdate_map (fun n : NodeObj => (n.id, n.tiles.map (·.id))) ?_ hns
    intro x y hxy
    split at hxy
    · cases hxy
    · rename_i ts hts
      cases hxy
      exact congrArg _ (pyUpdate_map _ hf hts)

theorem updCore_id {x y : TileObj} {k : Int} {f : CoreObj → Except PyErr CoreObj} (h : x.updCore k f = .ok y) :
    y.id = x.id := by
  unfold TileObj.updCore at h
  split at h
  · cases h
  · cases h; rfl

theorem place_numbering {s s' : Sim} {p : Placed} (h : s.place p = .ok s') : numbering s' = numbering s := by
  cases p with
  | tile n t op => exact updTile_numbering (fun x y hxy => by cases hxy; rfl) h
  | core n t k op => exact updTile_numbering (fun x y hxy => updCore_id hxy) h

theorem placeAll_numbering (lax : Lax) (pick : List (String × Json) → Nat) (js : List Json) :
    ∀ s : Sim, numbering (s.placeAll lax pick js).2 = numbering s := by
  induction js with
  | nil => exact fun s => rfl
  | cons j js ih =>
    intro s
    unfold Sim.placeAll
    split
    · exact ih s
    · split
      · rename_i s' hp
        exact (ih s').trans (place_numbering hp)
      · exact ih s
      · rfl

theorem loadAll_numbering (uni : Char → Option Nat) (ws : List (String × NpzArray)) :
    ∀ s : Sim, numbering (s.loadAll uni ws).2 = numbering s := by
  induction ws with
  | nil => exact fun s => rfl
  | cons e ws ih =>
    intro s
    unfold Sim.loadAll
    split
    · exact ih s
    · split
      · rfl
      · refine (ih _).trans ?_
        unfold Sim.loadUnit
        split
        · rename_i h
          exact updTile_numbering (fun x y hxy => updCore_id hxy) h
        · rfl

theorem loadArray_numbering (oob : ℚ → I32) (s : Sim) (xs : List ℚ) : numbering (s.loadArray oob xs).2 = numbering s := by
  unfold Sim.loadArray
  split
  · rfl
  · split
    · rfl
    · rename_i h
      refine updTile_numbering (fun x y hxy => ?_) h
      unfold TileObj.loadActivation at hxy
      split at hxy
      · cases hxy
      · split at hxy
        · cases hxy
        · cases hxy; rfl

theorem loaded_numbering (l : Libs) (s : Sim) (calls : List LoadCall) : numbering (loaded l s calls) = numbering s := by
  unfold loaded
  induction calls generalizing s with
  | nil => rfl
  | cons k calls ih =>
    rw [List.foldl_cons, ih]
    cases k with
    | operations f =>
      unfold loaded1
      cases f with
      | value j =>
        simp only [Sim.loadOperations]
        split
        · rfl
        · exact placeAll_numbering _ _ _ s
      | _ => rfl
    | weights f =>
      unfold loaded1
      cases f with
      | arrays ws => exact loadAll_numbering _ ws s
      | _ => rfl
    | activation a =>
      unfold loaded1
      cases a with
      | none => exact loadArray_numbering _ s _
      | some a =>
        cases a with
        | file n xs =>
          simp only [Sim.prepare, Sim.loadActivation]
          split
          · rfl
          · exact loadArray_numbering _ s _
        | array xs => exact loadArray_numbering _ s _
        | _ => rfl

theorem forEach_map {α β : Type} (f : α → Res α Unit) (g : α → β) (l : List α) (hf : ∀ x, g (f x).2 = g x) :
    (forEach f l).2.map g = l.map g := by
  induction l with
  | nil => rfl
  | cons x xs ih =>
    unfold forEach
    have := hf x
    rcases hx : f x with ⟨_ | _, x'⟩ <;> rw [hx] at this
    · simp only [List.map_cons, this]
    · simp only [List.map_cons, this, ih]

/-- **C51, numbering.** A new simulator has nodes 0, 1, … of tiles 0, 1, … each, as many as configured; no loader
changes that, whatever it is given, nor does a run or `reset`. -/
theorem C51_numbering (c : Config) (l : Libs) (calls : List LoadCall) :
    (loaded l (Sim.new c) calls).nodes.map (fun n => (n.id, n.tiles.map (·.id)))
      = (List.range c.numNodes).map fun i => (i, List.range c.numTilesPerNode) := by
  refine (loaded_numbering l (Sim.new c) calls).trans ?_
  simp only [numbering, Sim.new, List.map_map]
  refine List.map_congr_left fun i _ => ?_
  simp only [Function.comp, NodeObj.new, List.map_map, Prod.mk.injEq, true_and]
  exact List.map_id' _

example := C51_numbering resetBuilt someLibs resetCalls
example : resetBuilt.numNodes ≠ 0 ∧ resetBuilt.numTilesPerNode ≠ 0 := by decide +kernel

/-- **C50, numbering.** `reset` keeps the numbers of nodes and tiles even if it raises, and so does a run. -/
theorem C50_numbering (s : Sim) (n : NodeObj) (y : Sys) (times : RunTimes) :
    s.reset.2.nodes.map (fun n => (n.id, n.tiles.map (·.id))) = s.nodes.map (fun n => (n.id, n.tiles.map (·.id))) ∧
    (n.afterRun y times).id = n.id ∧ (n.afterRun y times).tiles.map (·.id) = n.tiles.map (·.id) := by
  refine ⟨forEach_map _ _ _ fun n => ?_, rfl, ?_⟩
  · refine congrArg _ (forEach_map _ _ _ fun x => ?_)
    unfold TileObj.reset
    dsimp only
    split <;> rfl
  · apply List.ext_getElem?
    intro i
    simp only [NodeObj.afterRun, List.getElem?_map, List.getElem?_mapIdx, Option.map_map]
    rfl

/-- **C50, pending reads.** A controller that was stopped while reads were waiting for data starts its next run
with them, even after `reset` (dram_controller.py:110-122, 288-297 do not clear `pending_reads`); everything that
is in the DRAM, and which of it is valid, is forgotten. -/
theorem C50_pending_kept (c : Ctrl) (h : c.running = false) (now : Nat) :
    (c.reset.begin now).pending = c.pending ∧ (∀ x ∈ (c.reset.begin now).valid, x = false) ∧
    (∀ x ∈ (c.reset.begin now).mem.cells, x = 0) ∧ (c.reset.begin now).running = true ∧
    (c.reset.begin now).queue = [] := by
  have hb : c.reset.begin now
      = { Ctrl.started c.reset.mem c.reset.valid now with pending := c.reset.pending, stats := c.reset.stats } :=
    if_neg (by rw [show c.reset.running = c.running from rfl, h]; decide)
  rw [hb]
  refine ⟨rfl, ?_, ?_, rfl, rfl⟩
  · intro x hx
    simp only [Ctrl.started, Ctrl.reset] at hx
    exact List.eq_of_mem_replicate hx
  · intro x hx
    simp only [Ctrl.started, Ctrl.reset, Memory.reset] at hx
    exact List.eq_of_mem_replicate hx

example := C50_pending_kept { Ctrl.new 4 with pending := [⟨0, 0, 0, .read 1 1, 0⟩] } rfl 7

end Ramwich
