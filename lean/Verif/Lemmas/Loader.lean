import Verif.Spec.Loader
import Mathlib.Tactic

/-! # Lemmas about the loaders -/
namespace Ramwich
open Spec

/-! ## Changing one element of a list -/

theorem position_lt (len : Nat) (i : Int) (j : Nat) (h : position len i = some j) : j < len := by
  unfold position at h
  split at h
  · cases h; omega
  · split at h
    · cases h; omega
    · cases h

theorem position_nat (len j : Nat) (h : j < len) : position len (j : Int) = some j := by
  unfold position
  rw [if_pos (by omega)]
  rfl

theorem position_nat_none (len j : Nat) (h : len ≤ j) : position len (j : Int) = none := by
  unfold position
  rw [if_neg (by omega), if_neg (by omega)]

theorem pyUpdate_none {α : Type} (xs : List α) (i : Int) (f : α → Except PyErr α)
    (h : position xs.length i = none) : pyUpdate xs i f = .error .indexError := by
  unfold position at h
  split at h
  · cases h
  · rename_i h1
    split at h
    · cases h
    · rename_i h2
      unfold pyUpdate
      by_cases hi : i < 0
      · have : i + xs.length < 0 := by omega
        simp [hi, this]
      · have h3 : ¬ i < 0 := hi
        have h4 : xs[i.toNat]? = none := List.getElem?_eq_none (by omega)
        simp [hi, h4]

theorem pyUpdate_some {α : Type} (xs : List α) (i : Int) (f : α → Except PyErr α) (j : Nat) (x : α)
    (h : position xs.length i = some j) (hx : xs[j]? = some x) :
    pyUpdate xs i f = match f x with
      | .error e => .error e
      | .ok y => .ok (xs.set j y) := by
  unfold position at h
  split at h
  · rename_i h1
    cases h
    have hi : ¬ i < 0 := by omega
    simp only [pyUpdate, hi, if_false, hx]
    cases f x <;> rfl
  · split at h
    · rename_i h1 h2
      cases h
      have hi : ¬ i + (xs.length : Int) < 0 := by omega
      have e : i + (xs.length : Int) = xs.length + i := by omega
      rw [e] at hi
      simp only [pyUpdate, h2.1, if_true, e, hi, if_false, hx]
      cases f x <;> rfl
    · cases h

/-! ## Units -/

/-- Tile `b` of node `a` replaced. -/
def setTile (s : Sim) (a b : Nat) (y : TileObj) : Sim :=
  { s with nodes := s.nodes.modify a fun n => { n with tiles := n.tiles.set b y } }

/-- Core `c` of a tile replaced. -/
def TileObj.setCore (t : TileObj) (c : Nat) (o : CoreObj) : TileObj := { t with cores := t.cores.set c o }

theorem tileAt_setTile (s : Sim) (a b : Nat) (y : TileObj) (a' b' : Nat) :
    tileAt (setTile s a b y) a' b'
      = if a = a' ∧ b = b' then (tileAt s a b).map (fun _ => y) else tileAt s a' b' := by
  unfold tileAt nodeAt setTile
  simp only [List.getElem?_modify]
  by_cases ha : a = a'
  · subst ha
    cases hn : s.nodes[a]? with
    | none => simp
    | some n =>
      by_cases hb : b = b'
      · subst hb
        simp only [if_true, Option.map_some, Option.bind_some, and_self]
        by_cases hl : b < n.tiles.length
        · simp [hl]
        · simp [hl]
      · simp [hb]
  · simp [ha]

theorem tileAt_set_same (s : Sim) (a b : Nat) (x y : TileObj) (hx : tileAt s a b = some x) :
    tileAt (setTile s a b y) a b = some y := by
  rw [tileAt_setTile, if_pos ⟨rfl, rfl⟩, hx]; rfl

theorem coreAt_setCore (s : Sim) (a b c : Nat) (x : TileObj) (o : CoreObj) (hx : tileAt s a b = some x)
    (a' b' c' : Nat) :
    coreAt (setTile s a b (x.setCore c o)) a' b' c'
      = if a = a' ∧ b = b' ∧ c = c' then (coreAt s a b c).map (fun _ => o) else coreAt s a' b' c' := by
  unfold coreAt
  rw [tileAt_setTile]
  by_cases h : a = a' ∧ b = b'
  · obtain ⟨rfl, rfl⟩ := h
    rw [if_pos ⟨rfl, rfl⟩, hx]
    simp only [Option.map_some, Option.bind_some, TileObj.setCore, true_and]
    by_cases hc : c = c'
    · subst hc
      by_cases hl : c < x.cores.length
      · simp [hl]
      · simp [hl]
    · simp [hc]
  · rw [if_neg h]
    rw [if_neg (by tauto)]

/-- All tiles changed by `g`. -/
def mapTiles (g : TileObj → TileObj) (s : Sim) : Sim :=
  { s with nodes := s.nodes.map fun n => { n with tiles := n.tiles.map g } }

theorem mapTiles_setTile (g : TileObj → TileObj) (s : Sim) (a b : Nat) (x y : TileObj)
    (hx : tileAt s a b = some x) (hg : g y = g x) : mapTiles g (setTile s a b y) = mapTiles g s := by
  unfold mapTiles setTile
  congr 1
  apply List.ext_getElem?
  intro i
  simp only [List.getElem?_map, List.getElem?_modify]
  unfold tileAt nodeAt at hx
  by_cases hi : a = i
  · subst hi
    cases hn : s.nodes[a]? with
    | none => rfl
    | some n =>
      rw [hn] at hx
      simp only [Option.bind_some] at hx
      simp only [if_true, Option.map_eq_map, Option.map_some, Option.some.injEq]
      congr 1
      apply List.ext_getElem?
      intro j
      simp only [List.getElem?_map, List.getElem?_set]
      by_cases hj : b = j
      · subst hj
        have hl : b < n.tiles.length := (List.getElem?_eq_some_iff.1 hx).1
        simp [hl, hg]
        rw [List.getElem?_eq_some_iff.1 hx |>.2]
      · simp [hj]
  · simp [hi]

theorem mapTiles_nodes_length (g : TileObj → TileObj) (s : Sim) :
    (mapTiles g s).nodes.length = s.nodes.length := by simp [mapTiles]

theorem tileAt_mapTiles (g : TileObj → TileObj) (s : Sim) (a b : Nat) :
    tileAt (mapTiles g s) a b = (tileAt s a b).map g := by
  unfold tileAt nodeAt mapTiles
  simp only [List.getElem?_map]
  cases s.nodes[a]? <;> simp

theorem nodeAt_mapTiles (g : TileObj → TileObj) (s : Sim) (a : Nat) :
    nodeAt (mapTiles g s) a = (nodeAt s a).map fun n => { n with tiles := n.tiles.map g } := by
  simp [nodeAt, mapTiles]

/-- The numbers of tiles and cores decide which unit is meant. -/
theorem unitOf_mapTiles (g : TileObj → TileObj) (hg : ∀ x, (g x).cores.length = x.cores.length) (s : Sim)
    (p : Placed) : unitOf (mapTiles g s) p = unitOf s p := by
  cases p with
  | tile n t op =>
    simp only [unitOf, mapTiles_nodes_length]
    cases position s.nodes.length n with
    | none => rfl
    | some a =>
      simp only [Option.bind_eq_bind, Option.bind_some, nodeAt_mapTiles]
      cases nodeAt s a <;> simp
  | core n t k op =>
    simp only [unitOf, mapTiles_nodes_length]
    cases position s.nodes.length n with
    | none => rfl
    | some a =>
      simp only [Option.bind_eq_bind, Option.bind_some, nodeAt_mapTiles]
      cases nodeAt s a with
      | none => rfl
      | some nd =>
        simp only [Option.map_some, Option.bind_some, List.length_map]
        cases position nd.tiles.length t with
        | none => rfl
        | some b =>
          simp only [Option.bind_some, tileAt_mapTiles]
          cases tileAt s a b <;> simp [hg]

def stripOps (t : TileObj) : TileObj :=
  { t with operations := [], cores := t.cores.map fun o => { o with operations := [] } }

theorem withoutOps_eq (s : Sim) : withoutOps s = mapTiles stripOps s := rfl

theorem unitOf_withoutOps (s s' : Sim) (h : withoutOps s' = withoutOps s) (p : Placed) :
    unitOf s' p = unitOf s p := by
  rw [← unitOf_mapTiles stripOps (by simp [stripOps]) s', ← unitOf_mapTiles stripOps (by simp [stripOps]) s]
  rw [← withoutOps_eq, ← withoutOps_eq, h]

/-- `updTile` at an existing tile. -/
theorem updTile_some (s : Sim) (n t : Int) (f : TileObj → Except PyErr TileObj) (a b : Nat) (nd : NodeObj)
    (x : TileObj) (ha : position s.nodes.length n = some a) (hn : nodeAt s a = some nd)
    (hb : position nd.tiles.length t = some b) (hx : tileAt s a b = some x) :
    s.updTile n t f = match f x with
      | .error e => .error e
      | .ok y => .ok (setTile s a b y) := by
  have hx' : nd.tiles[b]? = some x := by
    unfold tileAt at hx; rw [hn] at hx; exact hx
  have hnn : s.nodes[a]? = some nd := hn
  unfold Sim.updTile
  rw [pyUpdate_some s.nodes n _ a nd ha hn]
  rw [pyUpdate_some nd.tiles t f b x hb hx']
  cases f x with
  | error e => rfl
  | ok y =>
    simp only [setTile]
    congr 2
    apply List.ext_getElem?
    intro i
    rw [List.getElem?_set, List.getElem?_modify]
    have hl : a < s.nodes.length := position_lt _ _ _ ha
    by_cases hi : a = i
    · subst hi
      rw [hnn]
      simp [hl]
    · simp [hi]

/-- `updTile` where there is no tile. -/
theorem updTile_none (s : Sim) (n t : Int) (f : TileObj → Except PyErr TileObj)
    (h : ∀ a nd b, position s.nodes.length n = some a → nodeAt s a = some nd →
      position nd.tiles.length t = some b → False) : s.updTile n t f = .error .indexError := by
  unfold Sim.updTile
  cases ha : position s.nodes.length n with
  | none => rw [pyUpdate_none _ _ _ ha]
  | some a =>
    have hl := position_lt _ _ _ ha
    have hn : s.nodes[a]? = some s.nodes[a] := List.getElem?_eq_getElem hl
    rw [pyUpdate_some _ _ _ a _ ha hn]
    cases hb : position s.nodes[a].tiles.length t with
    | none => rw [pyUpdate_none _ _ _ hb]
    | some b => exact absurd (h a _ b ha hn hb) id

theorem updCore_some (t : TileObj) (k : Int) (f : CoreObj → Except PyErr CoreObj) (c : Nat) (o : CoreObj)
    (hc : position t.cores.length k = some c) (ho : t.cores[c]? = some o) :
    t.updCore k f = match f o with
      | .error e => .error e
      | .ok o' => .ok (t.setCore c o') := by
  unfold TileObj.updCore
  rw [pyUpdate_some _ _ _ c o hc ho]
  cases f o <;> rfl

theorem updCore_none (t : TileObj) (k : Int) (f : CoreObj → Except PyErr CoreObj)
    (hc : position t.cores.length k = none) : t.updCore k f = .error .indexError := by
  unfold TileObj.updCore
  rw [pyUpdate_none _ _ _ hc]

theorem tileAt_of_position (s : Sim) (a : Nat) (nd : NodeObj) (hn : nodeAt s a = some nd) (t : Int) (b : Nat)
    (hb : position nd.tiles.length t = some b) : ∃ x, tileAt s a b = some x := by
  have := position_lt _ _ _ hb
  exact ⟨nd.tiles[b], by unfold tileAt; rw [hn]; simp [this]⟩

/-! ## Placing operations -/

theorem place_none (s : Sim) (p : Placed) (h : unitOf s p = none) : s.place p = .error .indexError := by
  cases p with
  | tile n t op =>
    apply updTile_none
    intro a nd b ha hn hb
    simp [unitOf, ha, hn, hb] at h
  | core n t k op =>
    simp only [Sim.place]
    by_cases hh : ∃ a nd b, position s.nodes.length n = some a ∧ nodeAt s a = some nd ∧
        position nd.tiles.length t = some b
    · obtain ⟨a, nd, b, ha, hn, hb⟩ := hh
      obtain ⟨x, hx⟩ := tileAt_of_position s a nd hn t b hb
      rw [updTile_some s n t _ a b nd x ha hn hb hx]
      have hc : position x.cores.length k = none := by
        cases hc : position x.cores.length k with
        | none => rfl
        | some c => simp [unitOf, ha, hn, hb, hx, hc] at h
      rw [updCore_none _ _ _ hc]
    · apply updTile_none
      intro a nd b ha hn hb
      exact hh ⟨a, nd, b, ha, hn, hb⟩

theorem unitOf_tile (s : Sim) (n t : Int) (op : TileOp) (u : Unit') (h : unitOf s (.tile n t op) = some u) :
    ∃ a nd b x, position s.nodes.length n = some a ∧ nodeAt s a = some nd ∧
      position nd.tiles.length t = some b ∧ tileAt s a b = some x ∧ u = .tile a b := by
  cases ha : position s.nodes.length n with
  | none => simp [unitOf, ha] at h
  | some a =>
    cases hn : nodeAt s a with
    | none => simp [unitOf, ha, hn] at h
    | some nd =>
      cases hb : position nd.tiles.length t with
      | none => simp [unitOf, ha, hn, hb] at h
      | some b =>
        obtain ⟨x, hx⟩ := tileAt_of_position s a nd hn t b hb
        simp [unitOf, ha, hn, hb] at h
        exact ⟨a, nd, b, x, rfl, hn, hb, hx, h.symm⟩

theorem unitOf_core (s : Sim) (n t k : Int) (op : CoreOp) (u : Unit') (h : unitOf s (.core n t k op) = some u) :
    ∃ a nd b x c o, position s.nodes.length n = some a ∧ nodeAt s a = some nd ∧
      position nd.tiles.length t = some b ∧ tileAt s a b = some x ∧ position x.cores.length k = some c ∧
      x.cores[c]? = some o ∧ u = .core a b c := by
  cases ha : position s.nodes.length n with
  | none => simp [unitOf, ha] at h
  | some a =>
    cases hn : nodeAt s a with
    | none => simp [unitOf, ha, hn] at h
    | some nd =>
      cases hb : position nd.tiles.length t with
      | none => simp [unitOf, ha, hn, hb] at h
      | some b =>
        obtain ⟨x, hx⟩ := tileAt_of_position s a nd hn t b hb
        cases hc : position x.cores.length k with
        | none => simp [unitOf, ha, hn, hb, hx, hc] at h
        | some c =>
          simp [unitOf, ha, hn, hb, hx, hc] at h
          have hl := position_lt _ _ _ hc
          exact ⟨a, nd, b, x, c, x.cores[c], rfl, hn, hb, hx, hc, List.getElem?_eq_getElem hl, h.symm⟩

/-- The operations of a tile and of a core. -/
def tileOps (s : Sim) (a b : Nat) : Option (List TileOp) := (tileAt s a b).map (·.operations)
def coreOps (s : Sim) (a b c : Nat) : Option (List CoreOp) := (coreAt s a b c).map (·.operations)

theorem stripOps_setCore (x : TileObj) (c : Nat) (o : CoreObj) (op : CoreOp) (ho : x.cores[c]? = some o) :
    stripOps (x.setCore c { o with operations := o.operations ++ [op] }) = stripOps x := by
  simp only [stripOps, TileObj.setCore]
  congr 1
  apply List.ext_getElem?
  intro i
  rw [List.getElem?_map, List.getElem?_map, List.getElem?_set]
  by_cases hi : c = i
  · subst hi
    have hl : c < x.cores.length := (List.getElem?_eq_some_iff.1 ho).1
    rw [ho]
    simp [hl]
  · simp [hi]

theorem place_some (s : Sim) (p : Placed) (u : Unit') (h : unitOf s p = some u) :
    ∃ s', s.place p = .ok s' ∧ withoutOps s' = withoutOps s ∧
      (∀ a b, tileOps s' a b = (tileOps s a b).map (· ++ opsOfTile s a b [p])) ∧
      (∀ a b c, coreOps s' a b c = (coreOps s a b c).map (· ++ opsOfCore s a b c [p])) := by
  cases p with
  | tile n t op =>
    obtain ⟨a, nd, b, x, ha, hn, hb, hx, rfl⟩ := unitOf_tile s n t op u h
    refine ⟨setTile s a b { x with operations := x.operations ++ [op] }, ?_, ?_, ?_, ?_⟩
    · simp only [Sim.place]
      rw [updTile_some s n t _ a b nd x ha hn hb hx]
    · rw [withoutOps_eq, withoutOps_eq]
      exact mapTiles_setTile stripOps s a b x _ hx rfl
    · intro a' b'
      unfold tileOps
      rw [tileAt_setTile]
      by_cases hab : a = a' ∧ b = b'
      · obtain ⟨rfl, rfl⟩ := hab
        simp [hx, opsOfTile, h]
      · rw [if_neg hab]
        have : opsOfTile s a' b' [.tile n t op] = [] := by
          simp [opsOfTile, h]
          tauto
        rw [this]
        simp [Function.comp_def]
    · intro a' b' c'
      have : opsOfCore s a' b' c' [.tile n t op] = [] := rfl
      rw [this]
      unfold coreOps coreAt
      rw [tileAt_setTile]
      by_cases hab : a = a' ∧ b = b'
      · obtain ⟨rfl, rfl⟩ := hab
        simp [hx, Function.comp_def]
      · simp [hab, Function.comp_def]
  | core n t k op =>
    obtain ⟨a, nd, b, x, c, o, ha, hn, hb, hx, hc, ho, rfl⟩ := unitOf_core s n t k op u h
    refine ⟨setTile s a b (x.setCore c { o with operations := o.operations ++ [op] }), ?_, ?_, ?_, ?_⟩
    · simp only [Sim.place]
      rw [updTile_some s n t _ a b nd x ha hn hb hx, updCore_some _ _ _ c o hc ho]
    · rw [withoutOps_eq, withoutOps_eq]
      exact mapTiles_setTile stripOps s a b x _ hx (stripOps_setCore x c o op ho)
    · intro a' b'
      have : opsOfTile s a' b' [.core n t k op] = [] := rfl
      rw [this]
      unfold tileOps
      rw [tileAt_setTile]
      by_cases hab : a = a' ∧ b = b'
      · obtain ⟨rfl, rfl⟩ := hab
        simp [hx, TileObj.setCore, Function.comp_def]
      · simp [hab, Function.comp_def]
    · intro a' b' c'
      unfold coreOps
      rw [coreAt_setCore s a b c x _ hx]
      by_cases hab : a = a' ∧ b = b' ∧ c = c'
      · obtain ⟨rfl, rfl, rfl⟩ := hab
        have : coreAt s a b c = some o := by unfold coreAt; rw [hx]; exact ho
        simp [this, opsOfCore, h]
      · rw [if_neg hab]
        have : opsOfCore s a' b' c' [.core n t k op] = [] := by
          simp [opsOfCore, h]
          tauto
        rw [this]
        simp [Function.comp_def]

theorem opsOfTile_cons (s : Sim) (a b : Nat) (p : Placed) (ps : List Placed) :
    opsOfTile s a b (p :: ps) = opsOfTile s a b [p] ++ opsOfTile s a b ps := by
  unfold opsOfTile
  rw [show p :: ps = [p] ++ ps from rfl, List.filterMap_append]

theorem opsOfCore_cons (s : Sim) (a b c : Nat) (p : Placed) (ps : List Placed) :
    opsOfCore s a b c (p :: ps) = opsOfCore s a b c [p] ++ opsOfCore s a b c ps := by
  unfold opsOfCore
  rw [show p :: ps = [p] ++ ps from rfl, List.filterMap_append]

theorem opsOf_congr (s s' : Sim) (h : ∀ p, unitOf s' p = unitOf s p) (ps : List Placed) :
    (∀ a b, opsOfTile s' a b ps = opsOfTile s a b ps) ∧ (∀ a b c, opsOfCore s' a b c ps = opsOfCore s a b c ps) ∧
      placeable s' ps = placeable s ps := by
  refine ⟨fun a b => ?_, fun a b c => ?_, ?_⟩
  · unfold opsOfTile; simp only [h]
  · unfold opsOfCore; simp only [h]
  · unfold placeable; simp only [h]

theorem placeAll_spec (lax : Lax) (pick : List (String × Json) → Nat) (js : List Json) : ∀ (s : Sim),
    let ps := js.filterMap (lax.operation pick)
    let r := s.placeAll lax pick js
    withoutOps r.2 = withoutOps s ∧
    (∀ a b, tileOps r.2 a b = (tileOps s a b).map (· ++ opsOfTile s a b (placeable s ps))) ∧
    (∀ a b c, coreOps r.2 a b c = (coreOps s a b c).map (· ++ opsOfCore s a b c (placeable s ps))) ∧
    r.1 = if ∀ p ∈ ps, (unitOf s p).isSome then .ok () else .error .indexError := by
  induction js with
  | nil =>
    intro s
    simp [Sim.placeAll, placeable, opsOfTile, opsOfCore]
  | cons j js ih =>
    intro s
    cases hj : lax.operation pick j with
    | none =>
      simp only [Sim.placeAll, hj, List.filterMap_cons]
      exact ih s
    | some p =>
      simp only [Sim.placeAll, hj, List.filterMap_cons]
      cases hu : unitOf s p with
      | none =>
        rw [place_none s p hu]
        have hpl : placeable s (p :: js.filterMap (lax.operation pick)) = [] := by
          simp [placeable, hu]
        rw [hpl]
        refine ⟨rfl, ?_, ?_, ?_⟩
        · simp [opsOfTile]
        · simp [opsOfCore]
        · rw [if_neg]
          intro hall
          have := hall p (by simp)
          rw [hu] at this
          cases this
      | some u =>
        obtain ⟨s', hp, hw, ht, hc⟩ := place_some s p u hu
        rw [hp]
        dsimp only
        obtain ⟨i1, i2, i3, i4⟩ := ih s'
        have hun := unitOf_withoutOps s s' hw
        obtain ⟨c1, c2, c3⟩ := opsOf_congr s s' hun (placeable s (js.filterMap (lax.operation pick)))
        obtain ⟨_, _, c4⟩ := opsOf_congr s s' hun (js.filterMap (lax.operation pick))
        have hpl : placeable s (p :: js.filterMap (lax.operation pick))
            = p :: placeable s (js.filterMap (lax.operation pick)) := by
          simp [placeable, hu]
        rw [hpl]
        refine ⟨i1.trans hw, ?_, ?_, ?_⟩
        · intro a b
          rw [i2, ht, opsOfTile_cons s a b p (placeable s _), c4, c1]
          cases tileOps s a b <;> simp
        · intro a b c
          rw [i3, hc, opsOfCore_cons s a b c p (placeable s _), c4, c2]
          cases coreOps s a b c <;> simp
        · rw [i4]
          simp only [hun, List.forall_mem_cons, hu, Option.isSome_some, true_and]

end Ramwich
