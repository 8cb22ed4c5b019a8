import Verif.Lemmas.LoaderWeights
import Verif.Props.Loader
import Verif.Props.Reset

/-! # Loading weights and activations

`uni` is the table of decimal digits outside ASCII, `oob` what numpy makes of floats outside the range of
`int32`; the theorems hold for all of them. -/
namespace Ramwich
open Spec

/-! ## Weights -/

/-- C52: the printed ids form a key for these ids. -/
theorem C52_round_trip (uni : Char → Option Nat) (a b c d : Nat) :
    ∃ l, isWeightKey uni ("node" ++ toString a ++ "_tile" ++ toString b ++ "_core" ++ toString c
      ++ "_mvmu" ++ toString d) a b c d l ∧
      (∀ k, 0 < k → a < 10 ^ k → b < 10 ^ k → c < 10 ^ k → d < 10 ^ k → l ≤ k) := by
  have p : ∀ n : Nat, (toString n).toList = Nat.toDigits 10 n := fun n => Nat.toList_repr
  refine ⟨_, ⟨Nat.toDigits 10 a, Nat.toDigits 10 b, Nat.toDigits 10 c, Nat.toDigits 10 d, [], ?_, .inl rfl,
    numeral_toDigits uni a, numeral_toDigits uni b, numeral_toDigits uni c, numeral_toDigits uni d, rfl⟩, ?_⟩
  · simp only [String.toList_append, p, List.append_nil]
  · intro k hk ha hb hc hd
    have q : ∀ n, n < 10 ^ k → (Nat.toDigits 10 n).length ≤ k :=
      fun n hn => (Nat.length_toDigits_le_iff (by decide) hk).2 hn
    have := q a ha; have := q b hb; have := q c hc; have := q d hd
    omega

theorem key_unique (uni : Char → Option Nat) (key : String) (a b c d l a' b' c' d' l' : Nat)
    (hl : l ≤ 4300) (hl' : l' ≤ 4300)
    (h : isWeightKey uni key a b c d l) (h' : isWeightKey uni key a' b' c' d' l') :
    a = a' ∧ b = b' ∧ c = c' ∧ d = d' := by
  obtain ⟨g, hg, hk⟩ := matchKey_of uni key a b c d l h
  obtain ⟨g', hg', hk'⟩ := matchKey_of uni key a' b' c' d' l' h'
  rw [hg] at hg'
  cases hg'
  rw [if_neg (by unfold maxIntDigits; omega)] at hk hk'
  rw [hk] at hk'
  simpa using hk'

theorem mvmuAt_loadUnit (s : Sim) (a b c d : Nat) (w : NpzArray) (a' b' c' d' : Nat) :
    mvmuAt (s.loadUnit a b c d w) a' b' c' d'
      = (mvmuAt s a' b' c' d').map fun m => if a = a' ∧ b = b' ∧ c = c' ∧ d = d' then loadOr m w else m := by
  rcases loadUnit_eq s a b c d w with ⟨x, o, m, rows, m', hx, ho, hm, rfl, hw, e⟩ | ⟨hno, e⟩
  · rw [e, mvmuAt_set s a b c d x o m m' hx ho hm]
    by_cases h : a = a' ∧ b = b' ∧ c = c' ∧ d = d'
    · obtain ⟨rfl, rfl, rfl, rfl⟩ := h
      have : mvmuAt s a b c d = some m := by simp [mvmuAt, coreAt, hx, ho, hm]
      simp [this, loadOr, hw]
    · simp [h]
  · rw [e]
    by_cases h : a = a' ∧ b = b' ∧ c = c' ∧ d = d'
    · obtain ⟨rfl, rfl, rfl, rfl⟩ := h
      cases hm : mvmuAt s a b c d with
      | none => rfl
      | some m =>
        have : loadOr m w = m := by
          cases w with
          | other => rfl
          | matrix rows =>
            unfold loadOr
            dsimp only
            cases hw : m.loadWeights rows with
            | error e => rfl
            | ok m' => exact absurd hw (hno m rows m' hm rfl)
        simp [this]
    · simp [h]

theorem withoutMvmus_loadUnit (s : Sim) (a b c d : Nat) (w : NpzArray) :
    withoutMvmus (s.loadUnit a b c d w) = withoutMvmus s := by
  rcases loadUnit_eq s a b c d w with ⟨x, o, m, rows, m', hx, ho, hm, rfl, hw, e⟩ | ⟨hno, e⟩
  · rw [e, withoutMvmus_eq, withoutMvmus_eq]
    exact mapTiles_setTile _ s a b x _ hx (stripMvmus_set x c d o m' ho)
  · rw [e]

theorem arraysFor_append (uni : Char → Option Nat) (a b c d : Nat) (xs ys : List (String × NpzArray)) :
    arraysFor uni a b c d (xs ++ ys) = arraysFor uni a b c d xs ++ arraysFor uni a b c d ys := by
  unfold arraysFor
  rw [List.filter_append, List.map_append]

theorem arraysFor_pos (uni : Char → Option Nat) (a b c d : Nat) (key : String) (w : NpzArray)
    (ws : List (String × NpzArray)) (h : ∃ l, isWeightKey uni key a b c d l) :
    arraysFor uni a b c d ((key, w) :: ws) = w :: arraysFor uni a b c d ws := by
  unfold arraysFor
  rw [List.filter_cons]
  simp [h]

theorem arraysFor_neg (uni : Char → Option Nat) (a b c d : Nat) (key : String) (w : NpzArray)
    (ws : List (String × NpzArray)) (h : ¬ ∃ l, isWeightKey uni key a b c d l) :
    arraysFor uni a b c d ((key, w) :: ws) = arraysFor uni a b c d ws := by
  unfold arraysFor
  rw [List.filter_cons]
  simp [h]

theorem arraysFor_none (uni : Char → Option Nat) (a b c d : Nat) (ws : List (String × NpzArray))
    (h : ∀ e ∈ ws, ∀ l, ¬ isWeightKey uni e.1 a b c d l) : arraysFor uni a b c d ws = [] := by
  induction ws with
  | nil => simp [arraysFor]
  | cons e ws ih =>
    rw [arraysFor_neg _ _ _ _ _ e.1 e.2 ws (fun ⟨l, hl⟩ => h e (by simp) l hl)]
    exact ih fun e he => h e (List.mem_cons_of_mem _ he)

/-- C52: every MVMU receives the arrays of its keys in the order of the file, where an array that it does
not accept changes nothing. Keys of another form or for units that do not exist have no effect, and nothing
else changes. -/
theorem C52_load (uni : Char → Option Nat) (s : Sim) (ws : List (String × NpzArray))
    (hl : ∀ e ∈ ws, ∀ a b c d l, isWeightKey uni e.1 a b c d l → l ≤ 4300) :
    let r := s.loadWeights uni (.arrays ws)
    r.1 = .ok () ∧ withoutMvmus r.2 = withoutMvmus s ∧
    ∀ a b c d, mvmuAt r.2 a b c d
      = (mvmuAt s a b c d).map fun m => (arraysFor uni a b c d ws).foldl loadOr m := by
  show (s.loadAll uni ws).1 = _ ∧ withoutMvmus (s.loadAll uni ws).2 = _ ∧ ∀ a b c d,
    mvmuAt (s.loadAll uni ws).2 a b c d = _
  induction ws generalizing s with
  | nil => simp [Sim.loadAll, arraysFor]
  | cons e ws ih =>
    obtain ⟨key, w⟩ := e
    have ih' := fun s => ih s fun e he => hl e (List.mem_cons_of_mem _ he)
    by_cases hk : ∃ a b c d l, isWeightKey uni key a b c d l
    · obtain ⟨a, b, c, d, l, hk⟩ := hk
      have hle := hl (key, w) (by simp) a b c d l hk
      obtain ⟨g, hg, hi⟩ := matchKey_of uni key a b c d l hk
      rw [if_neg (by unfold maxIntDigits; omega)] at hi
      simp only [Sim.loadAll, hg, hi]
      obtain ⟨h1, h2, h3⟩ := ih' (s.loadUnit a b c d w)
      refine ⟨h1, h2.trans (withoutMvmus_loadUnit s a b c d w), fun a' b' c' d' => ?_⟩
      rw [h3, mvmuAt_loadUnit, Option.map_map]
      congr 1
      funext m
      by_cases h : a = a' ∧ b = b' ∧ c = c' ∧ d = d'
      · obtain ⟨rfl, rfl, rfl, rfl⟩ := h
        have := arraysFor_pos uni a b c d key w ws ⟨l, hk⟩
        simp [this]
      · have : arraysFor uni a' b' c' d' ((key, w) :: ws) = arraysFor uni a' b' c' d' ws := by
          apply arraysFor_neg
          rintro ⟨l', hk'⟩
          exact h (key_unique uni key a b c d l a' b' c' d' l' hle (hl (key, w) (by simp) _ _ _ _ _ hk') hk hk')
        simp [this, h]
    · have hm : matchKey uni key = none := by
        cases hm : matchKey uni key with
        | none => rfl
        | some g => exact absurd (matchKey_some uni key g hm) hk
      simp only [Sim.loadAll, hm]
      obtain ⟨h1, h2, h3⟩ := ih' s
      refine ⟨h1, h2, fun a' b' c' d' => ?_⟩
      rw [h3]
      have : arraysFor uni a' b' c' d' ((key, w) :: ws) = arraysFor uni a' b' c' d' ws := by
        apply arraysFor_neg
        rintro ⟨l', hk'⟩
        exact hk ⟨_, _, _, _, _, hk'⟩
      rw [this]

theorem loadOr_reload (m : Mvmu) (w : NpzArray) (rows : List (List ℚ)) :
    (loadOr m w).loadWeights rows = m.loadWeights rows := by
  cases w with
  | other => rfl
  | matrix rows' =>
    unfold loadOr
    dsimp only
    cases h : m.loadWeights rows' with
    | error e => rfl
    | ok m' => exact reload m m' rows' rows h

theorem foldl_reload (ws : List NpzArray) (m : Mvmu) (rows : List (List ℚ)) :
    (ws.foldl loadOr m).loadWeights rows = m.loadWeights rows := by
  induction ws generalizing m with
  | nil => rfl
  | cons w ws ih => rw [List.foldl_cons, ih, loadOr_reload]

/-- C52: the array of the last key of an MVMU is what the MVMU has, whatever was loaded before. -/
theorem C52_last (uni : Char → Option Nat) (s : Sim) (xs ys : List (String × NpzArray)) (key : String)
    (rows : List (List ℚ)) (a b c d l : Nat) (m m' : Mvmu)
    (hl : ∀ e ∈ xs ++ (key, .matrix rows) :: ys, ∀ a b c d l, isWeightKey uni e.1 a b c d l → l ≤ 4300)
    (hk : isWeightKey uni key a b c d l) (hm : mvmuAt s a b c d = some m) (hw : m.loadWeights rows = .ok m')
    (hy : ∀ e ∈ ys, ∀ l, ¬ isWeightKey uni e.1 a b c d l) :
    mvmuAt (s.loadWeights uni (.arrays (xs ++ (key, .matrix rows) :: ys))).2 a b c d = some m' := by
  obtain ⟨-, -, h⟩ := C52_load uni s _ hl
  have e : arraysFor uni a b c d (xs ++ (key, .matrix rows) :: ys)
      = arraysFor uni a b c d xs ++ [.matrix rows] := by
    rw [arraysFor_append, arraysFor_pos _ _ _ _ _ _ _ _ ⟨l, hk⟩, arraysFor_none _ _ _ _ _ ys hy]
  rw [h, hm, e]
  have hr := foldl_reload (arraysFor uni a b c d xs) m rows
  simp only [Option.map_some, List.foldl_append, List.foldl_cons, List.foldl_nil]
  generalize (arraysFor uni a b c d xs).foldl loadOr m = m1 at hr
  simp [loadOr, hr, hw]

/-- C52: an id of more than 4300 digits stops the loading with ValueError: `int` is called outside the
`try`. What the earlier entries loaded stays, the later ones are not looked at. -/
theorem C52_long_id (uni : Char → Option Nat) (s : Sim) (xs ys : List (String × NpzArray)) (key : String)
    (w : NpzArray) (a b c d l : Nat)
    (hl : ∀ e ∈ xs, ∀ a b c d l, isWeightKey uni e.1 a b c d l → l ≤ 4300)
    (hk : isWeightKey uni key a b c d l) (hlong : 4300 < l) :
    s.loadWeights uni (.arrays (xs ++ (key, w) :: ys))
      = (.error .valueError, (s.loadWeights uni (.arrays xs)).2) := by
  have h1 := (C52_load uni s xs hl).1
  obtain ⟨g, hg, hi⟩ := matchKey_of uni key a b c d l hk
  rw [if_pos (show maxIntDigits < l from hlong)] at hi
  simp only [Sim.loadWeights] at h1 ⊢
  rw [loadAll_append]
  generalize s.loadAll uni xs = r at h1
  obtain ⟨r1, r2⟩ := r
  dsimp only at h1
  subst h1
  simp [Sim.loadAll, hg, hi]

/-- C52: other files. -/
theorem C52_other_files (uni : Char → Option Nat) (s : Sim) :
    s.loadWeights uni .missing = (.ok (), s) ∧ s.loadWeights uni .otherName = (.ok (), s) := ⟨rfl, rfl⟩

/-! ## Activations -/

theorem castI32_spec (oob : ℚ → I32) (q : ℚ) (h1 : -2 ^ 31 - 1 < q) (h2 : q < 2 ^ 31) :
    truncated q (castI32 oob q).toInt := by
  have hr : -2 ^ 31 ≤ truncToInt q ∧ truncToInt q < 2 ^ 31 := by
    unfold truncToInt
    split
    · rename_i h
      have h3 : 0 ≤ ⌊q⌋ := Int.floor_nonneg.2 h
      have h4 : ⌊q⌋ < 2 ^ 31 := by
        rw [Int.floor_lt]; push_cast; exact h2
      omega
    · rename_i h
      have h3 : ⌈q⌉ ≤ 0 := Int.ceil_le.2 (by push_cast; linarith)
      have h4 : (-2 ^ 31 - 1 : Int) < ⌈q⌉ := by
        rw [Int.lt_ceil]; push_cast; norm_num at h1 ⊢; exact h1
      omega
  have e : (castI32 oob q).toInt = truncToInt q := by
    unfold castI32
    rw [if_pos hr, BitVec.toInt_ofInt]
    exact Int.bmod_eq_of_le (by omega) (by omega)
  rw [e]
  unfold truncToInt
  refine ⟨fun h => if_pos h, fun h => if_neg (by linarith)⟩

def stripDram (t : TileObj) : TileObj :=
  { t with ctrl := { t.ctrl with mem := { t.ctrl.mem with cells := [] }, valid := [] } }

theorem withoutDram_eq (s : Sim) : withoutDram s = mapTiles stripDram s := rfl

theorem loadArray_ok (oob : ℚ → I32) (s : Sim) (x : TileObj) (xs : List ℚ) (hx : tileAt s 0 0 = some x)
    (hc : x.ctrl.mem.cells.length = s.config.tileConfig.edramSize)
    (hv : x.ctrl.valid.length = s.config.tileConfig.edramSize)
    (hl : xs.length ≤ s.config.tileConfig.edramSize) :
    s.loadArray oob xs = (.ok (), setTile s 0 0 { x with ctrl := { x.ctrl with
      mem := { x.ctrl.mem with cells := xs.map (fun a => castI32 oob (a * 2 ^ s.config.dataConfig.activationFracBits))
        ++ x.ctrl.mem.cells.drop xs.length }
      valid := List.replicate xs.length true ++ x.ctrl.valid.drop xs.length } }) := by
  have hu := updTile_nat s 0 0
  simp only [Nat.cast_zero, hx] at hu
  have h1 : ¬ s.config.tileConfig.edramSize < xs.length := by omega
  have h2 : xs.length ≤ x.ctrl.mem.cells.length := by omega
  have h3 : xs.length ≤ x.ctrl.valid.length := by omega
  simp only [Sim.loadArray, h1, if_false, hu, TileObj.loadActivation, assignPrefix, List.length_map,
    List.length_replicate, h2, h3, if_true]

/-- C53: an activation that fits: word `i` of the DRAM of tile 0 of node 0 is `xs[i] * 2 ** frac` rounded
towards zero and valid, the other words and validity bits stay, and so does everything else. -/
theorem C53_loaded (oob : ℚ → I32) (s : Sim) (act : Activation) (xs : List ℚ) (x : TileObj)
    (ha : act = .array xs ∨ act = .file 1 xs) (hx : tileAt s 0 0 = some x)
    (hc : x.ctrl.mem.cells.length = s.config.tileConfig.edramSize)
    (hv : x.ctrl.valid.length = s.config.tileConfig.edramSize)
    (hl : xs.length ≤ s.config.tileConfig.edramSize)
    (hr : ∀ a ∈ xs, -2 ^ 31 - 1 < a * 2 ^ s.config.dataConfig.activationFracBits ∧
      a * 2 ^ s.config.dataConfig.activationFracBits < 2 ^ 31) :
    ∃ s' x', s.loadActivation oob act = (.ok (), s') ∧ withoutDram s' = withoutDram s ∧
      tileAt s' 0 0 = some x' ∧ (∀ a b, (a, b) ≠ (0, 0) → tileAt s' a b = tileAt s a b) ∧
      (∀ i (h : i < xs.length), ∃ v, x'.ctrl.mem.cells[i]? = some v ∧
        truncated (xs[i] * 2 ^ s.config.dataConfig.activationFracBits) v.toInt ∧ x'.ctrl.valid[i]? = some true) ∧
      (∀ i, xs.length ≤ i → x'.ctrl.mem.cells[i]? = x.ctrl.mem.cells[i]? ∧ x'.ctrl.valid[i]? = x.ctrl.valid[i]?) := by
  have e : s.loadActivation oob act = s.loadArray oob xs := by
    rcases ha with rfl | rfl <;> rfl
  rw [e, loadArray_ok oob s x xs hx hc hv hl]
  refine ⟨_, _, rfl, ?_, tileAt_set_same s 0 0 x _ hx, ?_, ?_, ?_⟩
  · rw [withoutDram_eq, withoutDram_eq]
    exact mapTiles_setTile _ s 0 0 x _ hx rfl
  · intro a b hab
    rw [tileAt_setTile, if_neg]
    rintro ⟨rfl, rfl⟩
    exact hab rfl
  · intro i hi
    refine ⟨castI32 oob (xs[i] * 2 ^ s.config.dataConfig.activationFracBits), ?_, ?_, ?_⟩
    · dsimp only
      rw [List.getElem?_append_left (by simpa using hi)]
      simp [hi]
    · have := hr xs[i] (List.getElem_mem hi)
      exact castI32_spec oob _ this.1 this.2
    · dsimp only
      rw [List.getElem?_append_left (by simpa using hi)]
      simp [hi]
  · intro i hi
    constructor
    · dsimp only
      rw [List.getElem?_append_right (by simpa using hi)]
      simp only [List.length_map, List.getElem?_drop]
      congr 1
      omega
    · dsimp only
      rw [List.getElem?_append_right (by simpa using hi)]
      simp only [List.length_replicate, List.getElem?_drop]
      congr 1
      omega

/-- C53: an activation that is too long, a file that is missing, of another kind or not one-dimensional, or
an argument of another type changes nothing. -/
theorem C53_unchanged (oob : ℚ → I32) (s : Sim) :
    s.loadActivation oob .missingFile = (.ok (), s) ∧ s.loadActivation oob .otherName = (.ok (), s) ∧
    s.loadActivation oob .otherType = (.ok (), s) ∧
    (∀ n xs, n ≠ 1 → s.loadActivation oob (.file n xs) = (.ok (), s)) ∧
    (∀ xs, s.config.tileConfig.edramSize < xs.length →
      s.loadActivation oob (.file 1 xs) = (.ok (), s) ∧ s.loadActivation oob (.array xs) = (.ok (), s)) := by
  refine ⟨rfl, rfl, rfl, fun n xs h => ?_, fun xs h => ?_⟩
  · simp [Sim.loadActivation, h]
  · simp [Sim.loadActivation, Sim.loadArray, h]

/-- C53: without a tile 0 there is an IndexError. -/
theorem C53_no_tile (oob : ℚ → I32) (s : Sim) (xs : List ℚ) (hx : tileAt s 0 0 = none)
    (hl : xs.length ≤ s.config.tileConfig.edramSize) :
    s.loadActivation oob (.array xs) = (.error .indexError, s) := by
  have hu := updTile_nat s 0 0
  simp only [Nat.cast_zero, hx] at hu
  have h1 : ¬ s.config.tileConfig.edramSize < xs.length := by omega
  simp only [Sim.loadActivation, Sim.loadArray, h1, if_false, hu]

/-- C53: `run` without an activation makes every word of the DRAM of tile 0 zero and valid. -/
theorem C53_default (oob : ℚ → I32) (s : Sim) (x : TileObj) (hx : tileAt s 0 0 = some x)
    (hc : x.ctrl.mem.cells.length = s.config.tileConfig.edramSize)
    (hv : x.ctrl.valid.length = s.config.tileConfig.edramSize) :
    ∃ s', s.prepare oob none = (.ok (), s') ∧ withoutDram s' = withoutDram s ∧
      (∀ a b, (a, b) ≠ (0, 0) → tileAt s' a b = tileAt s a b) ∧
      tileAt s' 0 0 = some { x with ctrl := { x.ctrl with
        mem := { x.ctrl.mem with cells := List.replicate s.config.tileConfig.edramSize 0 }
        valid := List.replicate s.config.tileConfig.edramSize true } } := by
  have h := loadArray_ok oob s x (List.replicate s.config.tileConfig.edramSize 0) hx hc hv (by simp)
  refine ⟨_, h, ?_, ?_, ?_⟩
  · rw [withoutDram_eq, withoutDram_eq]
    exact mapTiles_setTile _ s 0 0 x _ hx rfl
  · intro a b hab
    rw [tileAt_setTile, if_neg]
    rintro ⟨rfl, rfl⟩
    exact hab rfl
  · rw [tileAt_set_same s 0 0 x _ hx]
    have z : castI32 oob 0 = 0 := by
      have : truncToInt 0 = 0 := by simp [truncToInt]
      simp [castI32, this]
    simp [hc, hv, z, List.drop_eq_nil_of_le]

/-! ## A loaded simulator has not run -/

/-- The conditions of `readyNode` for one tile. -/
def TileReady (c : Config) (fl : FloatActs) (x : TileObj) : Prop :=
  x.ctrl = { mem := x.ctrl.mem, valid := x.ctrl.valid } ∧
  (x.ctrl.mem.size = c.tileConfig.edramSize ∧ x.ctrl.mem.cells.length = c.tileConfig.edramSize ∧
    x.ctrl.valid.length = c.tileConfig.edramSize) ∧
  x.router = {} ∧ x.cores.length = c.numCoresPerTile ∧
  ∀ o ∈ x.cores, ∃ ws, (∀ k ∈ ws, isLoad k = true) ∧ o.core = (Core.new c).after fl ws

theorem readyNode_iff (c : Config) (fl : FloatActs) (n : NodeObj) :
    readyNode c fl n ↔ n.tiles.length = c.numTilesPerNode ∧ ∀ x ∈ n.tiles, TileReady c fl x := by
  constructor
  · rintro ⟨h1, h2, h3, h4, h5, h6⟩
    exact ⟨h1, fun x hx => ⟨h2 x hx, h3 x hx, h4 x hx, h5 x hx, h6 x hx⟩⟩
  · rintro ⟨h1, h2⟩
    exact ⟨h1, fun x hx => (h2 x hx).1, fun x hx => (h2 x hx).2.1, fun x hx => (h2 x hx).2.2.1,
      fun x hx => (h2 x hx).2.2.2.1, fun x hx => (h2 x hx).2.2.2.2⟩

/-- All nodes are ready. -/
def SimReady (c : Config) (fl : FloatActs) (s : Sim) : Prop :=
  s.config = c ∧ s.nodes.length = c.numNodes ∧ ∀ n ∈ s.nodes, readyNode c fl n

theorem pyUpdate_all {α : Type} (P : α → Prop) (xs ys : List α) (i : Int) (f : α → Except PyErr α)
    (hf : ∀ x y, P x → f x = .ok y → P y) (hx : ∀ x ∈ xs, P x) (h : pyUpdate xs i f = .ok ys) :
    ys.length = xs.length ∧ ∀ y ∈ ys, P y := by
  cases hp : position xs.length i with
  | none => rw [pyUpdate_none _ _ _ hp] at h; cases h
  | some j =>
    have hl := position_lt _ _ _ hp
    have hj : xs[j]? = some xs[j] := List.getElem?_eq_getElem hl
    rw [pyUpdate_some _ _ _ j _ hp hj] at h
    cases hfx : f xs[j] with
    | error e => rw [hfx] at h; cases h
    | ok y =>
      rw [hfx] at h
      cases h
      refine ⟨by simp, fun z hz => ?_⟩
      rcases List.mem_or_eq_of_mem_set hz with hz | rfl
      · exact hx z hz
      · exact hf _ _ (hx _ (List.getElem_mem hl)) hfx

theorem updTile_ready (c : Config) (fl : FloatActs) (s s' : Sim) (n t : Int) (f : TileObj → Except PyErr TileObj)
    (hf : ∀ x y, TileReady c fl x → f x = .ok y → TileReady c fl y) (hs : SimReady c fl s)
    (h : s.updTile n t f = .ok s') : SimReady c fl s' := by
  obtain ⟨h1, h2, h3⟩ := hs
  unfold Sim.updTile at h
  split at h
  · cases h
  · rename_i ns hns
    cases h
    have := pyUpdate_all (readyNode c fl) s.nodes ns n _ (by
      intro x y hx hxy
      rw [readyNode_iff] at hx ⊢
      split at hxy
      · cases hxy
      · rename_i ts hts
        cases hxy
        have := pyUpdate_all (TileReady c fl) x.tiles ts t f hf hx.2 hts
        exact ⟨this.1.trans hx.1, this.2⟩) h3 hns
    exact ⟨h1, this.1.trans h2, this.2⟩

theorem updCore_ready (c : Config) (fl : FloatActs) (x y : TileObj) (k : Int) (f : CoreObj → Except PyErr CoreObj)
    (hf : ∀ o o', (∃ ws, (∀ k ∈ ws, isLoad k = true) ∧ o.core = (Core.new c).after fl ws) → f o = .ok o' →
      ∃ ws, (∀ k ∈ ws, isLoad k = true) ∧ o'.core = (Core.new c).after fl ws)
    (hx : TileReady c fl x) (h : x.updCore k f = .ok y) : TileReady c fl y := by
  obtain ⟨h1, h2, h3, h4, h5⟩ := hx
  unfold TileObj.updCore at h
  split at h
  · cases h
  · rename_i cs hcs
    cases h
    have := pyUpdate_all _ x.cores cs k f hf h5 hcs
    exact ⟨h1, h2, h3, this.1.trans h4, this.2⟩

theorem place_ready (c : Config) (fl : FloatActs) (s s' : Sim) (p : Placed) (hs : SimReady c fl s)
    (h : s.place p = .ok s') : SimReady c fl s' := by
  cases p with
  | tile n t op =>
    refine updTile_ready c fl s s' n t _ ?_ hs h
    intro x y hx hxy
    cases hxy
    exact hx
  | core n t k op =>
    refine updTile_ready c fl s s' n t _ ?_ hs h
    intro x y hx hxy
    refine updCore_ready c fl x y k _ ?_ hx hxy
    intro o o' ho hoo
    cases hoo
    exact ho

theorem placeAll_ready (c : Config) (fl : FloatActs) (lax : Lax) (pick : List (String × Json) → Nat)
    (js : List Json) : ∀ s : Sim, SimReady c fl s → SimReady c fl (s.placeAll lax pick js).2 := by
  induction js with
  | nil => exact fun s h => h
  | cons j js ih =>
    intro s hs
    unfold Sim.placeAll
    split
    · exact ih s hs
    · split
      · rename_i s' hp
        exact ih s' (place_ready c fl s s' _ hs hp)
      · exact ih s hs
      · exact hs

theorem loadUnit_ready (c : Config) (fl : FloatActs) (s : Sim) (a b k d : Nat) (w : NpzArray)
    (hs : SimReady c fl s) : SimReady c fl (s.loadUnit a b k d w) := by
  unfold Sim.loadUnit
  split
  · rename_i s' h
    refine updTile_ready c fl s s' a b _ ?_ hs h
    intro x y hx hxy
    refine updCore_ready c fl x y k _ ?_ hx hxy
    rintro o o' ⟨ws, hw, e⟩ hoo
    unfold CoreObj.loadWeights at hoo
    split at hoo
    · cases hoo
    · rename_i rows
      split at hoo
      · cases hoo
      · rename_i co hl
        cases hoo
        refine ⟨ws ++ [.load d rows], ?_, ?_⟩
        · intro q hq
          rcases List.mem_append.1 hq with hq | hq
          · exact hw q hq
          · rw [List.mem_singleton.1 hq]; rfl
        · unfold Core.after at e ⊢
          rw [List.foldl_append, ← e]
          simp only [List.foldl_cons, List.foldl_nil, Core.call, hl]
  · exact hs

theorem loadAll_ready (c : Config) (fl : FloatActs) (uni : Char → Option Nat) (ws : List (String × NpzArray)) :
    ∀ s : Sim, SimReady c fl s → SimReady c fl (s.loadAll uni ws).2 := by
  induction ws with
  | nil => exact fun s h => h
  | cons e ws ih =>
    intro s hs
    unfold Sim.loadAll
    split
    · exact ih s hs
    · split
      · exact hs
      · exact ih _ (loadUnit_ready c fl s _ _ _ _ _ hs)

theorem assignPrefix_length {α : Type} (xs ys zs : List α) (h : assignPrefix xs ys = .ok zs) :
    zs.length = xs.length := by
  unfold assignPrefix at h
  split at h
  · cases h; simp; omega
  · cases h

theorem loadArray_ready (c : Config) (fl : FloatActs) (oob : ℚ → I32) (s : Sim) (xs : List ℚ)
    (hs : SimReady c fl s) : SimReady c fl (s.loadArray oob xs).2 := by
  unfold Sim.loadArray
  split
  · exact hs
  · split
    · exact hs
    · rename_i s' h
      refine updTile_ready c fl s s' 0 0 _ ?_ hs h
      rintro x y ⟨h1, ⟨h2, h3, h4⟩, h5, h6, h7⟩ hxy
      unfold TileObj.loadActivation at hxy
      split at hxy
      · cases hxy
      · rename_i cells hcells
        split at hxy
        · cases hxy
        · rename_i valid hvalid
          cases hxy
          refine ⟨?_, ⟨h2, (assignPrefix_length _ _ _ hcells).trans h3, (assignPrefix_length _ _ _ hvalid).trans h4⟩,
            h5, h6, h7⟩
          dsimp only
          rw [h1]

/-- C50: a new simulator into which operations, weights and activations were loaded, in any order and with
any outcome, is as `C50_next_run` needs it. -/
theorem C50_loaded (c : Config) (fl : FloatActs) (l : Libs) (calls : List LoadCall) :
    (loaded l (Sim.new c) calls).config = c ∧ (loaded l (Sim.new c) calls).nodes.length = c.numNodes ∧
    ∀ n ∈ (loaded l (Sim.new c) calls).nodes, readyNode c fl n := by
  have key : ∀ s : Sim, SimReady c fl s → SimReady c fl (loaded l s calls) := by
    unfold loaded
    induction calls with
    | nil => exact fun s h => h
    | cons k calls ih =>
      intro s hs
      rw [List.foldl_cons]
      apply ih
      cases k with
      | operations f =>
        unfold loaded1
        cases f with
        | value j =>
          simp only [Sim.loadOperations]
          split
          · exact hs
          · exact placeAll_ready c fl _ _ _ s hs
        | _ => exact hs
      | weights f =>
        unfold loaded1
        cases f with
        | arrays ws => exact loadAll_ready c fl _ ws s hs
        | _ => exact hs
      | activation a =>
        unfold loaded1
        cases a with
        | none => exact loadArray_ready c fl _ s _ hs
        | some a =>
          cases a with
          | file n xs =>
            simp only [Sim.prepare, Sim.loadActivation]
            split
            · exact hs
            · exact loadArray_ready c fl _ s _ hs
          | array xs => exact loadArray_ready c fl _ s _ hs
          | _ => exact hs
  apply key
  refine ⟨rfl, by simp [Sim.new], ?_⟩
  intro n hn
  simp only [Sim.new, List.mem_map] at hn
  obtain ⟨i, -, rfl⟩ := hn
  rw [readyNode_iff]
  refine ⟨by simp [NodeObj.new], ?_⟩
  intro x hx
  simp only [NodeObj.new, List.mem_map] at hx
  obtain ⟨j, -, rfl⟩ := hx
  refine ⟨rfl, ⟨rfl, by simp [TileObj.new, Ctrl.new, Memory.new], by simp [TileObj.new, Ctrl.new]⟩, rfl,
    by simp [TileObj.new], ?_⟩
  intro o ho
  simp only [TileObj.new, List.mem_map] at ho
  obtain ⟨k, -, rfl⟩ := ho
  exact ⟨[], by simp, rfl⟩

/-! ### Examples -/

def someLibs : Libs := ⟨strictLax, fun _ => 0, fun _ => none, fun _ => 0⟩

/-- The loaders make `resetNode`: the activation is 5/4, the second array has a wrong shape, the third is
for a tile that does not exist. -/
def resetCalls : List LoadCall :=
  [.operations (.value (.arr resetFile)),
   .weights (.arrays [("node0_tile0_core0_mvmu0", .matrix [[0, 0], [0, 0]]),
     ("node0_tile0_core0_mvmu0", .matrix [[0]]), ("node0_tile7_core0_mvmu0", .matrix demoWeights),
     ("tile0_core0_mvmu0", .other), ("node0_tile0_core0_mvmu00\n", .matrix demoWeights)]),
   .activation (some (.array [5 / 2 ^ resetBuilt.dataConfig.activationFracBits]))]

example : (loaded someLibs (Sim.new resetBuilt) resetCalls).nodes.map (·.tiles) = [(resetNode resetBuilt).tiles] := by
  decide +kernel

example := C50_loaded resetBuilt someActs someLibs resetCalls

def noUni : Char → Option Nat := fun _ => none

theorem isWeightKey_length (uni : Char → Option Nat) (key : String) (a b c d l : Nat)
    (h : isWeightKey uni key a b c d l) : l ≤ key.toList.length := by
  obtain ⟨da, db, dc, dd, tail, hs, -, -, -, -, -, rfl⟩ := h
  rw [hs]
  simp only [List.length_append]
  omega

/-- A key with leading zeros and a final newline. -/
theorem demoKey : isWeightKey noUni "node0_tile0_core00_mvmu1\n" 0 0 0 1 2 :=
  ⟨['0'], ['0'], ['0', '0'], ['1'], ['\n'], by decide, .inr rfl, ⟨by decide, [0], by decide, rfl⟩,
    ⟨by decide, [0], by decide, rfl⟩, ⟨by decide, [0, 0], by decide, rfl⟩, ⟨by decide, [1], by decide, rfl⟩, by decide⟩

def weightFile : List (String × NpzArray) :=
  [("node0_tile0_core0_mvmu1", .matrix [[0, 0], [0, 0]]), ("node0_tile0_core00_mvmu1\n", .matrix demoWeights),
   ("bias", .matrix demoWeights)]

theorem weightFile_short : ∀ e ∈ weightFile, ∀ a b c d l, isWeightKey noUni e.1 a b c d l → l ≤ 4300 := by
  intro e he a b c d l hk
  refine (isWeightKey_length _ _ _ _ _ _ _ hk).trans ?_
  have h : ∀ e ∈ weightFile, e.1.toList.length ≤ 4300 := by decide +kernel
  exact h e he

example := C52_load noUni (Sim.new resetBuilt) weightFile weightFile_short

def loadedMvmu : Mvmu := loadOr (Mvmu.new resetBuilt) (.matrix demoWeights)

example := C52_last noUni (Sim.new resetBuilt) [("node0_tile0_core0_mvmu1", .matrix [[0, 0], [0, 0]])]
  [("bias", .matrix demoWeights)] "node0_tile0_core00_mvmu1\n" demoWeights 0 0 0 1 2 (Mvmu.new resetBuilt)
  loadedMvmu weightFile_short demoKey (by decide +kernel) (by decide +kernel) (by
    intro e he l hk
    simp only [List.mem_singleton] at he
    subst he
    have h : matchKey noUni "bias" = none := by decide
    obtain ⟨g, hg, -⟩ := matchKey_of noUni "bias" 0 0 0 1 l hk
    rw [h] at hg
    cases hg)
example : loadedMvmu ≠ Mvmu.new resetBuilt := by decide +kernel

/-- A key with an id of `n + 1` digits. -/
def longKey (n : Nat) : String :=
  String.ofList ("node".toList ++ List.replicate (n + 1) '0' ++ "_tile0_core0_mvmu0".toList)

theorem longKey_is (n : Nat) : isWeightKey noUni (longKey n) 0 0 0 0 (n + 1) := by
  refine ⟨List.replicate (n + 1) '0', ['0'], ['0'], ['0'], [], ?_, .inl rfl,
    ⟨by simp, List.replicate (n + 1) 0, ?_, ?_⟩, ⟨by decide, [0], by decide, rfl⟩,
    ⟨by decide, [0], by decide, rfl⟩, ⟨by decide, [0], by decide, rfl⟩, by simp⟩
  · simp only [longKey, String.toList_ofList, List.append_assoc, List.append_nil]
    rfl
  · simp only [List.map_replicate]
    rfl
  · have : ∀ n, (List.replicate n 0).foldl (fun a d => 10 * a + d) 0 = 0 := by
      intro n
      induction n with
      | zero => rfl
      | succ n ih => rw [List.replicate_succ, List.foldl_cons]; exact ih
    exact (this _).symm

example := C52_long_id noUni (Sim.new resetBuilt) weightFile [("node0_tile0_core0_mvmu0", .matrix demoWeights)]
  (longKey 4300) (.matrix demoWeights) 0 0 0 0 4301 weightFile_short (longKey_is 4300) (by decide)

-- with the two fractional bits of the configuration -7/8 is -3.5 and becomes -3
example := C53_loaded (fun _ => 0) (Sim.new resetBuilt) (.file 1 [-7 / 8, 3]) [-7 / 8, 3] (TileObj.new resetBuilt 0)
  (.inr rfl) (by decide +kernel) (by decide +kernel) (by decide +kernel) (by decide +kernel) (by decide +kernel)
example := (C53_unchanged (fun _ => 0) (Sim.new resetBuilt)).2.2.2.2 (List.replicate 3000 1) (by decide +kernel)
example := C53_no_tile (fun _ => 0) { Sim.new resetBuilt with nodes := [] } [1] rfl (by decide +kernel)
example := C53_default (fun _ => 0) (Sim.new resetBuilt) (TileObj.new resetBuilt 0)
  (by decide +kernel) (by decide +kernel) (by decide +kernel)

/-! ## Running without an activation -/

/-- The program of `resetFile` at the beginning of `run(activation)`. -/
def preparedNode (a : Option Activation) : NodeObj :=
  match ((loaded someLibs (Sim.new resetBuilt) (resetCalls.take 2)).prepare (fun _ => 0) a).2.nodes with
  | n :: _ => n
  | [] => NodeObj.new resetBuilt 0

def preparedRun (a : Option Activation) (fuel : Nat) : List SysAct × Sys :=
  Sys.auto (resetSys resetBuilt) bothHalted twoTiles twoClocks fuel ((preparedNode a).start resetBuilt)

/-- **C53, running without an activation.** All words of tile 0 are valid, so its reads do not wait for the
data that its cores will store: the same program sends either the stored words or zeros, depending on the
order of events. -/
theorem C53_default_race_witness : ∃ as bs y z,
    ((preparedNode none).start resetBuilt).run (resetSys resetBuilt) as = some y ∧
    ((preparedNode none).start resetBuilt).run (resetSys resetBuilt) bs = some z ∧
    bothHalted y = true ∧ bothHalted z = true ∧
    (y.tile 1).ctrl.mem.cells.take 6 = [0, 0, 7, 7, 7, 0] ∧ (z.tile 1).ctrl.mem.cells.take 6 = [0, 0, 0, 0, 0, 0] := by
  refine ⟨_, _, (preparedRun none 204).2, (preparedRun none 200).2,
    auto_runs (resetSys resetBuilt) bothHalted twoTiles twoClocks 204 _,
    auto_runs (resetSys resetBuilt) bothHalted twoTiles twoClocks 200 _, ?_⟩
  decide +kernel

-- with an empty activation both orders give the stored words
example : ((preparedRun (some (.array [])) 204).2.tile 1).ctrl.mem.cells.take 6 = [0, 0, 7, 7, 7, 0] ∧
    ((preparedRun (some (.array [])) 200).2.tile 1).ctrl.mem.cells.take 6 = [0, 0, 7, 7, 7, 0] := by decide +kernel

end Ramwich
