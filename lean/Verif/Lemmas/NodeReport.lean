import Verif.Lemmas.NodeCounts
import Verif.Lemmas.ResetRun
import Verif.Lemmas.GetStatsOk
import Verif.Props.GetStats

/-! # Reports of runs that differ in their times only -/
namespace Ramwich

open Spec

/-! ## Runs with the same counters -/

/-- What `get_stats` reads of a state. -/
structure SameCounts (tiles cores : Nat) (y y' : Sys) : Prop where
  mem : ∀ t < tiles, (y'.tile t).ctrl.mem.stats = (y.tile t).ctrl.mem.stats
  reqs : ∀ t < tiles, (y'.tile t).ctrl.stats.totalRequests = (y.tile t).ctrl.stats.totalRequests
  router : ∀ t < tiles, y'.net.stats t = y.net.stats t
  core : ∀ t < tiles, ∀ k < cores, ((y'.tile t).core k).core = ((y.tile t).core k).core

theorem tile_getStats_congr (p : Power) (x x' : TileObj) (h1 : x'.id = x.id)
    (h2 : x'.ctrl.mem.stats = x.ctrl.mem.stats) (h3 : x'.ctrl.stats.totalRequests = x.ctrl.stats.totalRequests)
    (h4 : x'.router.stats = x.router.stats) (h5 : x'.cores = x.cores) (h6 : x'.operations = x.operations)
    (h7 : x'.activeCycles = x.activeCycles) : x'.getStats p = x.getStats p := by
  unfold TileObj.getStats dramStats ctrlStatsCall
  rw [h1, h2, h3, h4, h5, h6, h7]

theorem getStats_afterRun {n : NodeObj} {tiles cores : Nat} {y y' : Sys} (h : SameCounts tiles cores y y')
    (hl : n.tiles.length = tiles) (hc : ∀ x ∈ n.tiles, x.cores.length = cores) (p : Power) (times : RunTimes) :
    (n.afterRun y' times).getStats p = (n.afterRun y times).getStats p := by
  have key : (n.afterRun y' times).tiles.map (TileObj.getStats p) = (n.afterRun y times).tiles.map (TileObj.getStats p) := by
    unfold NodeObj.afterRun
    dsimp only
    apply List.ext_getElem?
    intro t
    simp only [List.getElem?_map, List.getElem?_mapIdx]
    cases hx : n.tiles[t]? with
    | none => rfl
    | some x =>
      have ht : t < tiles := hl ▸ (List.getElem?_eq_some_iff.1 hx).1
      have hxm := List.mem_of_getElem? hx
      simp only [Option.map_some, Option.some.injEq]
      refine tile_getStats_congr p _ _ rfl (h.mem t ht) (h.reqs t ht) (h.router t ht) ?_ rfl rfl
      dsimp only
      apply List.ext_getElem?
      intro k
      simp only [List.getElem?_mapIdx]
      cases hk : x.cores[k]? with
      | none => rfl
      | some o =>
        have hkl : k < cores := hc x hxm ▸ (List.getElem?_eq_some_iff.1 hk).1
        simp only [Option.map_some, h.core t ht k hkl]
  unfold NodeObj.getStats
  rw [key]
  unfold NodeObj.afterRun
  simp only [List.length_mapIdx]

/-! ## The same run with other times -/

/-- Components that differ at most in what cycles contribute; if `H`, the second has at least as many. -/
structure SameBut (H : Prop) (a b : Component) : Prop where
  name : b.name = a.name
  area : b.area = a.area
  leak : b.leakPerCycle = a.leakPerCycle
  count : ¬countsCycles a.name → b.count = a.count
  dynamic : ¬countsCycles a.name → b.dynamic = a.dynamic
  cycles : H → a.cycles ≤ b.cycles

variable {H : Prop}

theorem sameBut_mvmu (p : Power) (m : Mvmu) {x y : Int} (hxy : H → x ≤ y) :
    List.Forall₂ (SameBut H) (mvmuComponents p m x) (mvmuComponents p m y) := by
  unfold mvmuComponents
  dsimp only
  refine List.rel_append (List.rel_append ?_ ?_) ?_
  · split <;> repeat' first | exact fun _ => rfl | exact hxy | constructor
  · split <;> repeat' first | exact fun _ => rfl | exact hxy | constructor
  · repeat' first | exact fun _ => rfl | exact hxy | constructor

theorem sameBut_mvmus (p : Power) (ms : List Mvmu) {x y : Int} (hxy : H → x ≤ y) :
    List.Forall₂ (SameBut H) (ms.flatMap fun m => mvmuComponents p m x) (ms.flatMap fun m => mvmuComponents p m y) := by
  induction ms with
  | nil => exact List.Forall₂.nil
  | cons m ms ih =>
    rw [List.flatMap_cons, List.flatMap_cons]
    exact List.rel_append (sameBut_mvmu p m hxy) ih

theorem sameBut_core (p : Power) (c : CoreObj) {x y : Int} (hxy : H → x ≤ y) :
    List.Forall₂ (SameBut H) (coreComponents p { c with activeCycles := x })
      (coreComponents p { c with activeCycles := y }) := by
  unfold coreComponents
  dsimp only
  refine List.rel_append ?_ (sameBut_mvmus p _ hxy)
  refine .cons ⟨rfl, rfl, rfl, fun h => absurd (Or.inl rfl) h, fun h => absurd (Or.inl rfl) h, hxy⟩ ?_
  repeat' first | exact fun _ => rfl | exact hxy | constructor

theorem sameBut_router (p : Power) (r : RouterStats) {x y : Int} (hxy : H → x ≤ y) :
    List.Forall₂ (SameBut H) (routerComponents p r x) (routerComponents p r y) := by
  unfold routerComponents
  repeat' first | exact fun _ => rfl | exact hxy | constructor

theorem forall₂_flatMap_mapIdx {α β : Type} {R : Component → Component → Prop} (f : β → List Component)
    (g g' : Nat → α → β) (l : List α) (h : ∀ i, ∀ a ∈ l, List.Forall₂ R (f (g i a)) (f (g' i a))) :
    List.Forall₂ R ((l.mapIdx g).flatMap f) ((l.mapIdx g').flatMap f) := by
  induction l generalizing g g' with
  | nil => exact List.Forall₂.nil
  | cons a l ih =>
    rw [List.mapIdx_cons, List.mapIdx_cons, List.flatMap_cons, List.flatMap_cons]
    exact List.rel_append (h 0 a (by simp)) (ih _ _ fun i b hb => h (i + 1) b (by simp [hb]))

theorem sameBut_tiles (p : Power) (n : NodeObj) (y : Sys) (a b : RunTimes) (hab : H → slower a b) :
    List.Forall₂ (SameBut H) ((n.afterRun y a).tiles.flatMap (tileComponents p))
      ((n.afterRun y b).tiles.flatMap (tileComponents p)) := by
  unfold NodeObj.afterRun
  dsimp only
  apply forall₂_flatMap_mapIdx
  intro t x _
  unfold tileComponents
  dsimp only
  split
  · exact sameBut_router p _ fun _ => le_rfl
  · have ht : H → a.tile t ≤ b.tile t := fun h => (hab h).tile t
    refine List.rel_append (List.rel_append ?_ (sameBut_router p _ ht)) ?_
    · refine .cons ⟨rfl, rfl, rfl, fun h => absurd (Or.inr rfl) h, fun h => absurd (Or.inr rfl) h, ht⟩ ?_
      repeat' first | exact fun _ => rfl | exact ht | constructor
    · apply forall₂_flatMap_mapIdx
      intro k o _
      exact sameBut_core p { o with core := ((y.tile t).core k).core } fun h => (hab h).core t k

/-! ## Sums -/

theorem contribution_fields (a : Component) : a.contribution.activationCount = a.count ∧
    a.contribution.dynamicEnergy = a.dynamic ∧ a.contribution.leakageEnergy = a.leakPerCycle * a.cycles ∧
    a.contribution.area = a.area := ⟨rfl, rfl, rfl, rfl⟩

theorem reportTotal_cons (a : Component) (l : List Component) (k : String) :
    reportTotal (a :: l) k = (if a.name = k then a.contribution else 0) + reportTotal l k := by
  unfold reportTotal
  rw [List.filter_cons]
  by_cases h : a.name = k
  · simp [h]
  · simp [h]

theorem stats_add (a b : Stats) : (a + b).activationCount = a.activationCount + b.activationCount ∧
    (a + b).dynamicEnergy = a.dynamicEnergy + b.dynamicEnergy ∧
    (a + b).leakageEnergy = a.leakageEnergy + b.leakageEnergy ∧ (a + b).area = a.area + b.area :=
  ⟨rfl, rfl, rfl, rfl⟩

theorem reportTotal_same {l l' : List Component} (h : List.Forall₂ (SameBut H) l l') (k : String) :
    (reportTotal l' k).area = (reportTotal l k).area ∧
    (¬countsCycles k → (reportTotal l' k).activationCount = (reportTotal l k).activationCount ∧
      (reportTotal l' k).dynamicEnergy = (reportTotal l k).dynamicEnergy) ∧
    (H → (∀ c ∈ l, 0 ≤ c.leakPerCycle) → (reportTotal l k).leakageEnergy ≤ (reportTotal l' k).leakageEnergy) := by
  induction h with
  | nil => exact ⟨rfl, fun _ => ⟨rfl, rfl⟩, fun _ _ => le_rfl⟩
  | @cons a b l l' h1 _ ih =>
    obtain ⟨i1, i2, i3⟩ := ih
    simp only [reportTotal_cons, (stats_add _ _).1, (stats_add _ _).2.1, (stats_add _ _).2.2.1, (stats_add _ _).2.2.2]
    rw [h1.name]
    by_cases hk : a.name = k
    · subst hk
      simp only [if_true, (contribution_fields _).1, (contribution_fields _).2.1, (contribution_fields _).2.2.1,
        (contribution_fields _).2.2.2]
      refine ⟨by rw [h1.area, i1], fun hc => ⟨by rw [h1.count hc, (i2 hc).1], by rw [h1.dynamic hc, (i2 hc).2]⟩,
        fun hH hp => ?_⟩
      have h2 := i3 hH fun c hc => hp c (by simp [hc])
      have h3 : (a.cycles : ℚ) ≤ b.cycles := by exact_mod_cast h1.cycles hH
      have h4 := mul_le_mul_of_nonneg_left h3 (hp a (by simp))
      rw [h1.leak]
      exact add_le_add h4 h2
    · simp only [hk, if_false]
      refine ⟨by rw [i1], fun hc => ⟨by rw [(i2 hc).1], by rw [(i2 hc).2]⟩, fun hH hp => ?_⟩
      have h2 := i3 hH fun c hc => hp c (by simp [hc])
      exact add_le_add le_rfl h2

theorem node_report_times (p : Power) (n : NodeObj) (y : Sys) (a b : RunTimes) (k : String) :
    let r := reportTotal (nodeComponents p (n.afterRun y a)) k
    let r' := reportTotal (nodeComponents p (n.afterRun y b)) k
    r'.area = r.area ∧
    (¬countsCycles k → r'.activationCount = r.activationCount ∧
      r'.dynamicEnergy = r.dynamicEnergy + if k = "Router" then (b.busy - a.busy) * val p.nocIntraPowDyn else 0) ∧
    (slower a b → (∀ c ∈ nodeComponents p (n.afterRun y a), 0 ≤ c.leakPerCycle) →
      r.leakageEnergy ≤ r'.leakageEnergy) := by
  intro r r'
  have ht := sameBut_tiles (H := slower a b) p n y a b id
  have hlen : ∀ times, ((n.afterRun y times).tiles.length : ℚ) = n.tiles.length := by
    intro times; simp [NodeObj.afterRun]
  -- with the dynamic energy of the network left out
  let hd (x : RunTimes) : Component :=
    { name := "NOC inter", leakPerCycle := p.nocInterPowLeak, area := p.nocInterArea, cycles := x.busy }
  let hd2 (x : RunTimes) : Component :=
    { name := "NOC intra", leakPerCycle := (n.tiles.length : ℚ) / p.numPort * p.nocIntraPowLeak
      area := (n.tiles.length : ℚ) / p.numPort * p.nocIntraArea, cycles := x.busy }
  let hd3 (x : RunTimes) : Component := { name := "Router", dynamic := x.busy * val p.nocIntraPowDyn, cycles := 0 }
  let tl (x : RunTimes) := (n.afterRun y x).tiles.flatMap (tileComponents p)
  have hnc : ∀ x, nodeComponents p (n.afterRun y x) = hd x :: hd2 x :: hd3 x :: tl x := by
    intro x
    unfold nodeComponents
    dsimp only
    rw [hlen x]
    rfl
  have hs : List.Forall₂ (SameBut (slower a b)) (hd a :: hd2 a :: tl a) (hd b :: hd2 b :: tl b) := by
    refine .cons ?_ (.cons ?_ ht)
    · exact ⟨rfl, rfl, rfl, fun _ => rfl, fun _ => rfl, fun h => h.busy⟩
    · exact ⟨rfl, rfl, rfl, fun _ => rfl, fun _ => rfl, fun h => h.busy⟩
  obtain ⟨q1, q2, q3⟩ := reportTotal_same hs k
  have hr : ∀ x, reportTotal (nodeComponents p (n.afterRun y x)) k =
      reportTotal (hd x :: hd2 x :: tl x) k + if "Router" = k then (hd3 x).contribution else 0 := by
    intro x
    rw [hnc x]
    simp only [reportTotal_cons]
    rw [show (hd3 x).name = "Router" from rfl, add_assoc, add_assoc]
    congr 1
    congr 1
    rw [add_comm]
  have e : r = _ := hr a
  have e' : r' = _ := hr b
  rw [e, e']
  simp only [(stats_add _ _).1, (stats_add _ _).2.1, (stats_add _ _).2.2.1, (stats_add _ _).2.2.2]
  refine ⟨?_, fun hc => ⟨?_, ?_⟩, fun hH hp => ?_⟩
  · rw [q1]; split <;> rfl
  · rw [(q2 hc).1]; split <;> rfl
  · rw [(q2 hc).2]
    by_cases hk : k = "Router"
    · subst hk
      simp only [if_true]
      show _ + ((b.busy : ℚ) * val p.nocIntraPowDyn) = _ + ((a.busy : ℚ) * val p.nocIntraPowDyn) + _
      ring
    · simp only [hk, if_false, Ne.symm hk, add_zero]
  · have h1 := q3 hH fun c hc => hp c (by
      rw [hnc a]
      simp only [List.mem_cons] at hc ⊢
      tauto)
    refine add_le_add h1 ?_
    split
    · show (hd3 a).leakPerCycle * ((hd3 a).cycles : ℚ) ≤ (hd3 b).leakPerCycle * ((hd3 b).cycles : ℚ)
      rfl
    · rfl

end Ramwich
