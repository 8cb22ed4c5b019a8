import Verif.Model.Run
import Verif.Spec.EndToEnd
import Verif.Props.LoaderWeights

/-! # A new simulator after the loaders -/
namespace Ramwich

open Spec

theorem writes_parse (l : Libs) {js : List Json} {ps : List Placed} (h : writes js ps) :
    js.filterMap (l.lax.operation l.pick) = ps := by
  unfold writes at h
  induction h with
  | nil => rfl
  | cons h1 _ ih =>
    obtain ⟨kvs, b, rfl, h2⟩ := h1
    rw [List.filterMap_cons_some (C51_fields l.lax l.pick _ b kvs h2), ih]

/-! ## New simulators -/

theorem tileAt_new (c : Config) (a b : Nat) :
    tileAt (Sim.new c) a b = if a < c.numNodes ∧ b < c.numTilesPerNode then some (TileObj.new c b) else none := by
  unfold tileAt nodeAt Sim.new
  simp only [List.getElem?_map, List.getElem?_range']
  by_cases ha : a < c.numNodes
  · rw [List.getElem?_range ha]
    simp only [Option.map_some, Option.bind_some, NodeObj.new, List.getElem?_map]
    by_cases hb : b < c.numTilesPerNode
    · rw [List.getElem?_range hb, if_pos ⟨ha, hb⟩]; rfl
    · rw [List.getElem?_eq_none (by simpa using hb), if_neg (fun h => hb h.2)]; rfl
  · rw [List.getElem?_eq_none (by simpa using ha), if_neg (fun h => ha h.1)]; rfl

theorem unitOf_new_tile (c : Config) (n t : Int) (op : TileOp) (h : addressed c (.tile n t op)) :
    unitOf (Sim.new c) (.tile n t op) = some (.tile n.toNat t.toNat) := by
  obtain ⟨⟨h1, h2⟩, h3, h4⟩ := h
  obtain ⟨a, rfl⟩ := Int.eq_ofNat_of_zero_le h1
  obtain ⟨b, rfl⟩ := Int.eq_ofNat_of_zero_le h3
  have ha : a < c.numNodes := by omega
  have hb : b < c.numTilesPerNode := by omega
  simp [unitOf, Sim.new, nodeAt, position_nat _ a ha, NodeObj.new, position_nat _ b hb, ha]

theorem unitOf_new_core (c : Config) (n t k : Int) (op : CoreOp) (h : addressed c (.core n t k op)) :
    unitOf (Sim.new c) (.core n t k op) = some (.core n.toNat t.toNat k.toNat) := by
  obtain ⟨⟨h1, h2⟩, ⟨h3, h4⟩, h5, h6⟩ := h
  obtain ⟨a, rfl⟩ := Int.eq_ofNat_of_zero_le h1
  obtain ⟨b, rfl⟩ := Int.eq_ofNat_of_zero_le h3
  obtain ⟨k, rfl⟩ := Int.eq_ofNat_of_zero_le h5
  have ha : a < c.numNodes := by omega
  have hb : b < c.numTilesPerNode := by omega
  have hk : k < c.numCoresPerTile := by omega
  have hx := tileAt_new c a b
  rw [if_pos ⟨ha, hb⟩] at hx
  have hn : nodeAt (Sim.new c) a = some (NodeObj.new c a) := by simp [nodeAt, Sim.new, ha]
  have hl : (Sim.new c).nodes.length = c.numNodes := by simp [Sim.new]
  have hl2 : (NodeObj.new c a).tiles.length = c.numTilesPerNode := by simp [NodeObj.new]
  have hl3 : (TileObj.new c b).cores.length = c.numCoresPerTile := by simp [TileObj.new]
  simp only [unitOf, hl, Int.ofNat_eq_natCast, position_nat _ a ha, Option.bind_eq_bind, Option.bind_some, hn, hl2,
    position_nat _ b hb, hx, hl3, position_nat _ k hk, Int.toNat_natCast]
  rfl

theorem opsOfTile_new (c : Config) (a b : Nat) (ps : List Placed) (h : ∀ p ∈ ps, addressed c p) :
    opsOfTile (Sim.new c) a b ps = tileProgram ps a b := by
  unfold opsOfTile tileProgram
  apply List.filterMap_congr
  intro p hp
  cases p with
  | core => rfl
  | tile n t op =>
    have h1 := h _ hp
    dsimp only
    rw [unitOf_new_tile c n t op h1]
    obtain ⟨⟨h1, h2⟩, h3, h4⟩ := h1
    by_cases hh : n = a ∧ t = b
    · rw [if_pos hh, if_pos (by rw [hh.1, hh.2]; rfl)]
    · rw [if_neg hh, if_neg]
      intro e
      simp only [Option.some.injEq, Unit'.tile.injEq] at e
      exact hh ⟨by omega, by omega⟩

theorem opsOfCore_new (c : Config) (a b k : Nat) (ps : List Placed) (h : ∀ p ∈ ps, addressed c p) :
    opsOfCore (Sim.new c) a b k ps = coreProgram ps a b k := by
  unfold opsOfCore coreProgram
  apply List.filterMap_congr
  intro p hp
  cases p with
  | tile => rfl
  | core n t j op =>
    have h1 := h _ hp
    dsimp only
    rw [unitOf_new_core c n t j op h1]
    obtain ⟨⟨h1, h2⟩, ⟨h3, h4⟩, h5, h6⟩ := h1
    by_cases hh : n = a ∧ t = b ∧ j = k
    · rw [if_pos hh, if_pos (by rw [hh.1, hh.2.1, hh.2.2]; rfl)]
    · rw [if_neg hh, if_neg]
      intro e
      simp only [Option.some.injEq, Unit'.core.injEq] at e
      exact hh ⟨by omega, by omega, by omega⟩

/-! ## What the loaders change -/

/-- The part of a tile that matters here. -/
def face (x : TileObj) : List TileOp × List (List CoreOp) × List Bool :=
  (x.operations, x.cores.map (·.operations), x.ctrl.valid)

/-- Programs and valid words after the operations were loaded. -/
theorem face_operations (l : Libs) (c : Config) {js : List Json} {ps : List Placed} (h : writes js ps)
    (ha : ∀ p ∈ ps, addressed c p) (a b : Nat) (hn : a < c.numNodes) (hb : b < c.numTilesPerNode) :
    ((Sim.new c).loadOperations l.lax l.pick (.value (.arr js))).1 = .ok () ∧
    (tileAt ((Sim.new c).loadOperations l.lax l.pick (.value (.arr js))).2 a b).map face =
      some (tileProgram ps a b, (List.range c.numCoresPerTile).map (coreProgram ps a b),
        List.replicate c.tileConfig.edramSize false) := by
  have hps := writes_parse l h
  have hall : ∀ j ∈ js, ∀ p, l.lax.operation l.pick j = some p → (unitOf (Sim.new c) p).isSome := by
    intro j hj p hp
    have hmem : p ∈ ps := by rw [← hps]; exact List.mem_filterMap.2 ⟨j, hj, hp⟩
    have := ha p hmem
    cases p with
    | tile n t op => rw [unitOf_new_tile c n t op this]; rfl
    | core n t k op => rw [unitOf_new_core c n t k op this]; rfl
  obtain ⟨h1, h2, h3⟩ := C51_all_placed l.lax l.pick (Sim.new c) js hall
  obtain ⟨h4, -⟩ := C51_load l.lax l.pick (Sim.new c) js
  rw [hps] at h2 h3
  refine ⟨h1, ?_⟩
  generalize ((Sim.new c).loadOperations l.lax l.pick (.value (.arr js))).2 = s' at h2 h3 h4
  have h5 := h2 a b
  have hx := tileAt_new c a b
  rw [if_pos ⟨hn, hb⟩] at hx
  rw [hx] at h5
  have h6 : (tileAt s' a b).map stripOps = (tileAt (Sim.new c) a b).map stripOps := by
    rw [← tileAt_mapTiles, ← tileAt_mapTiles, ← withoutOps_eq, ← withoutOps_eq, h4]
  rw [hx] at h6
  cases hy : tileAt s' a b with
  | none => rw [hy] at h5; cases h5
  | some y =>
    rw [hy] at h5 h6
    simp only [Option.map_some, Option.some.injEq] at h5 h6 ⊢
    unfold face
    rw [h5, opsOfTile_new c a b ps ha]
    have h7 : y.ctrl = (TileObj.new c b).ctrl := by
      have := congrArg TileObj.ctrl h6
      exact this
    have h8 : y.cores.length = c.numCoresPerTile := by
      have := congrArg (fun x : TileObj => x.cores.length) h6
      simpa [stripOps, TileObj.new] using this
    rw [h7]
    refine Prod.ext rfl (Prod.ext ?_ rfl)
    apply List.ext_getElem?
    intro k
    simp only [List.getElem?_map]
    by_cases hk : k < c.numCoresPerTile
    · have h9 := h3 a b k
      unfold coreAt at h9
      rw [hy, hx] at h9
      simp only [Option.bind_some] at h9
      rw [h9, opsOfCore_new c a b k ps ha]
      simp [TileObj.new, CoreObj.new, hk]
    · rw [List.getElem?_eq_none (by omega), List.getElem?_eq_none (by simpa using hk)]
      rfl

theorem withoutMvmus_loadAll (uni : Char → Option Nat) (ws : List (String × NpzArray)) :
    ∀ s : Sim, withoutMvmus (s.loadAll uni ws).2 = withoutMvmus s := by
  induction ws with
  | nil => exact fun s => rfl
  | cons e ws ih =>
    intro s
    obtain ⟨key, w⟩ := e
    unfold Sim.loadAll
    split
    · exact ih s
    · split
      · rfl
      · rw [ih, withoutMvmus_loadUnit]

theorem face_weights (l : Libs) (s : Sim) (w : NpzFile) (a b : Nat) :
    (tileAt (s.loadWeights l.uni w).2 a b).map face = (tileAt s a b).map face := by
  have h : withoutMvmus (s.loadWeights l.uni w).2 = withoutMvmus s := by
    cases w with
    | arrays ws => exact withoutMvmus_loadAll l.uni ws s
    | _ => rfl
  have e : ∀ x : TileObj, face (stripMvmus x) = face x := by
    intro x
    simp [face, stripMvmus]
  have e' : ∀ o : Option TileObj, (o.map stripMvmus).map face = o.map face := by
    intro o; cases o <;> simp [e]
  rw [← e', ← e' (tileAt s a b), ← tileAt_mapTiles, ← tileAt_mapTiles, ← withoutMvmus_eq, ← withoutMvmus_eq, h]

theorem face_activation (l : Libs) {c : Config} {fl : FloatActs} {s : Sim} (hs : SimReady c fl s)
    (act : Activation) (xs : List ℚ) (ha : act = .array xs ∨ act = .file 1 xs)
    (hl : xs.length ≤ c.tileConfig.edramSize) (h00 : (tileAt s 0 0).isSome) (a b : Nat) :
    (s.prepare l.oob (some act)).1 = .ok () ∧
    (tileAt (s.prepare l.oob (some act)).2 a b).map face = (tileAt s a b).map fun x =>
      if a = 0 ∧ b = 0 then ((face x).1, (face x).2.1, List.replicate xs.length true ++ x.ctrl.valid.drop xs.length)
      else face x := by
  obtain ⟨x, hx⟩ := Option.isSome_iff_exists.1 h00
  obtain ⟨hc, hlen, hn⟩ := hs
  have hxr : TileReady c fl x := by
    unfold tileAt nodeAt at hx
    cases hnd : s.nodes[0]? with
    | none => rw [hnd] at hx; cases hx
    | some nd =>
      rw [hnd] at hx
      exact ((readyNode_iff c fl nd).1 (hn nd (List.mem_of_getElem? hnd))).2 x (List.mem_of_getElem? hx)
  obtain ⟨-, ⟨h2, h3, h4⟩, -⟩ := hxr
  have e : s.prepare l.oob (some act) = s.loadArray l.oob xs := by
    rcases ha with rfl | rfl <;> rfl
  rw [e, loadArray_ok l.oob s x xs hx (by rw [hc, h3]) (by rw [hc, h4]) (by rw [hc]; exact hl)]
  refine ⟨rfl, ?_⟩
  by_cases hab : a = 0 ∧ b = 0
  · obtain ⟨rfl, rfl⟩ := hab
    rw [tileAt_set_same s 0 0 x _ hx, hx]
    simp [face]
  · rw [tileAt_setTile, if_neg (by tauto)]
    cases tileAt s a b with
    | none => rfl
    | some y => simp [hab]

end Ramwich
