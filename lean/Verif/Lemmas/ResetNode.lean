import Verif.Lemmas.ResetRun

/-! # Reset of a node after a run -/
namespace Ramwich

open Spec

theorem finished_pending {cfg : SysCfg} {i : SysInit} {y : Sys} (h0 : i.ok) (h : SysInv cfg i y) (hf : finished cfg y)
    (t : Nat) (ht : t < cfg.net.tiles) : (y.tile t).ctrl.pending = [] := by
  obtain ⟨as, hrun⟩ := (h.tile t).ctrl
  have hinv := ctrlInv_run _ _ _ _ ⟨(h0 t).1, (h0 t).2⟩ as _ hrun
  refine (answered_all hinv.line ?_).2
  intro r hr
  obtain ⟨hp, -, hc⟩ := hf.2 t ht
  rcases (h.tile t).owner r hr with h1 | ⟨-, h1⟩ | ⟨k, hk, -, h1⟩
  · exact h1
  · rw [hp] at h1; cases h1
  · rcases hc k hk with h2 | ⟨h2, -⟩ <;> rw [h2] at h1 <;> cases h1

theorem finished_mem {cfg : SysCfg} {i : SysInit} {y : Sys} (h0 : i.ok) (h : SysInv cfg i y)
    (t : Nat) : (y.tile t).ctrl.mem.size = (i.mem t).size ∧ (y.tile t).ctrl.mem.cells.length = (i.mem t).size ∧
      (y.tile t).ctrl.valid.length = (i.mem t).size := by
  obtain ⟨as, hrun⟩ := (h.tile t).ctrl
  have hinv := ctrlInv_run _ _ _ _ ⟨(h0 t).1, (h0 t).2⟩ as _ hrun
  exact ⟨hinv.mem.size, hinv.mem.len, hinv.mem.vlen⟩

/-- A controller without waiting reads starts after `reset` like a new one. -/
theorem ctrl_reset_begin (c : Ctrl) (size : Nat) (hr : c.running = false) (hp : c.pending = [])
    (h1 : c.mem.size = size) (h2 : c.mem.cells.length = size) (h3 : c.valid.length = size) :
    ({ c with mem := c.mem.reset }.reset).begin 0 = (Ctrl.new size).begin 0 := by
  have e : (Ctrl.new size).begin 0 = Ctrl.started (Memory.new size) (List.replicate size false) 0 := rfl
  rw [e]
  unfold Ctrl.begin Ctrl.reset
  dsimp only
  rw [hr, hp, h3, if_neg (by simp)]
  unfold Memory.reset Memory.new Ctrl.started
  simp [h1, h2]

/-- Same core except for the counters of SRAM crossbars. -/
def CoreLike (c : Config) (o o' : CoreObj) : Prop :=
  noSramCountsCore o'.core = o.core ∧ (c.mvmuConfig.haveSramXbar = false → o'.core = o.core) ∧
  o'.operations = o.operations

/-- What the reset of a tile gives: its next run starts like the first one, with an empty DRAM. -/
structure StartsLike (c : Config) (x x' : TileObj) : Prop where
  ctrl : x'.ctrl.begin 0 = (Ctrl.new c.tileConfig.edramSize).begin 0
  running : x'.ctrl.running = false
  router : x'.router.running = false
  stats : x'.router.stats = {}
  id : x'.id = x.id
  ops : x'.operations = x.operations
  cores : List.Forall₂ (CoreLike c) x.cores x'.cores

theorem router_reset_ok (r : RouterObj) (h : r.running = true → r.senderAlive = true) :
    ∃ r', r.reset = (.ok (), r') ∧ r'.running = false ∧ r'.stats = {} := by
  unfold RouterObj.reset
  cases hr : r.running with
  | true => simp [h hr]
  | false => simp

theorem tile_reset (c : Config) (x : TileObj) (y : TileObj) (hr : y.ctrl.running = false) (hp : y.ctrl.pending = [])
    (h1 : y.ctrl.mem.size = c.tileConfig.edramSize) (h2 : y.ctrl.mem.cells.length = c.tileConfig.edramSize)
    (h3 : y.ctrl.valid.length = c.tileConfig.edramSize)
    (hs : y.router.running = true → y.router.senderAlive = true) (hid : y.id = x.id)
    (hops : y.operations = x.operations)
    (hc : List.Forall₂ (fun o o' => ∃ r, o'.reset = (.ok (), r) ∧ CoreLike c o r) x.cores y.cores) :
    ∃ x', y.reset = (.ok (), x') ∧ StartsLike c x x' := by
  obtain ⟨r, e1, e2, e3⟩ := router_reset_ok y.router hs
  have hcs : ∃ cs, forEach CoreObj.reset y.cores = (.ok (), cs) ∧ List.Forall₂ (CoreLike c) x.cores cs := by
    generalize x.cores = l at hc
    generalize y.cores = l' at hc
    induction hc with
    | nil => exact ⟨[], rfl, .nil⟩
    | cons h _ ih =>
      obtain ⟨cs, i1, i2⟩ := ih
      obtain ⟨o, i3, i4⟩ := h
      exact ⟨o :: cs, by simp only [forEach, i3, i1], .cons i4 i2⟩
  obtain ⟨cs, e4, e5⟩ := hcs
  refine ⟨{ y with
      ctrl := { y.ctrl with mem := y.ctrl.mem.reset }.reset, router := r, cores := cs }, by
    simp only [TileObj.reset, e1, e4], ⟨ctrl_reset_begin y.ctrl _ hr hp h1 h2 h3, hr, e2, e3, hid, hops, e5⟩⟩

theorem forall₂_getD {α : Type} {P : α → α → Prop} {l l' : List α} (h : List.Forall₂ P l l') (d : α) (k : Nat) (hd : P d d) :
    P (l.getD k d) (l'.getD k d) := by
  induction h generalizing k with
  | nil => simpa using hd
  | cons h1 _ ih =>
    cases k with
    | zero => exact h1
    | succ k => exact ih k

theorem coreLike_new (c : Config) : CoreLike c (CoreObj.new c) (CoreObj.new c) := by
  refine ⟨?_, fun _ => rfl, rfl⟩
  unfold CoreObj.new noSramCountsCore Core.new
  simp [noSramCounts, Mvmu.new, SRAMCim.new]

theorem startsLike_new (c : Config) (t : Nat) : StartsLike c (TileObj.new c t) (TileObj.new c t) := by
  refine ⟨rfl, rfl, rfl, rfl, rfl, rfl, ?_⟩
  rw [List.forall₂_same]
  intro o ho
  simp only [TileObj.new, List.mem_map] at ho
  obtain ⟨_, -, rfl⟩ := ho
  exact coreLike_new c

theorem begin_of_like {c : Config} {x x' : TileObj} (h : StartsLike c x x') (m : Memory) (v : List Bool) :
    { x'.ctrl with mem := m, valid := v }.begin 0 = Ctrl.started m v 0 := by
  have h1 := h.ctrl
  have h2 := h.running
  have e : (Ctrl.new c.tileConfig.edramSize).begin 0
    = Ctrl.started (Memory.new c.tileConfig.edramSize) (List.replicate c.tileConfig.edramSize false) 0 := rfl
  rw [e] at h1
  unfold Ctrl.begin at h1 ⊢
  dsimp only
  rw [h2, if_neg (by simp)] at h1 ⊢
  unfold Ctrl.started at h1 ⊢
  injection h1 with _ _ _ _ _ _ h3 _ _ _ _ h4
  dsimp only at h3 h4 ⊢
  rw [h3, h4]

/-- The starts of two nodes that differ in the counters of SRAM crossbars. -/
theorem starts_eq (c : Config) (n n' : NodeObj)
    (hctrl : ∀ t, (n'.tiles.getD t (TileObj.new c t)).ctrl.begin 0 = (n.tiles.getD t (TileObj.new c t)).ctrl.begin 0)
    (hops : ∀ t, (n'.tiles.getD t (TileObj.new c t)).operations = (n.tiles.getD t (TileObj.new c t)).operations)
    (hst : ∀ t, (n'.tiles.getD t (TileObj.new c t)).router.stats = (n.tiles.getD t (TileObj.new c t)).router.stats)
    (hc : ∀ t, List.Forall₂ (CoreLike c) (n.tiles.getD t (TileObj.new c t)).cores (n'.tiles.getD t (TileObj.new c t)).cores) :
    noSramCountsSys (n'.start c) = n.start c ∧
    (c.mvmuConfig.haveSramXbar = false → n'.start c = n.start c) := by
  have hk : ∀ t k, CoreLike c ((n.tiles.getD t (TileObj.new c t)).cores.getD k (CoreObj.new c))
      ((n'.tiles.getD t (TileObj.new c t)).cores.getD k (CoreObj.new c)) :=
    fun t k => forall₂_getD (hc t) _ k (coreLike_new c)
  refine ⟨?_, fun hs => ?_⟩
  · unfold NodeObj.start noSramCountsSys
    simp only [hctrl, hops, hst, fun t k => (hk t k).1, fun t k => (hk t k).2.2]
  · unfold NodeObj.start
    simp only [hctrl, hops, hst, fun t k => (hk t k).2.1 hs, fun t k => (hk t k).2.2]

theorem like_getD {c : Config} {n n' : NodeObj} (h : List.Forall₂ (StartsLike c) n.tiles n'.tiles) (t : Nat) :
    StartsLike c (n.tiles.getD t (TileObj.new c t)) (n'.tiles.getD t (TileObj.new c t)) :=
  forall₂_getD h _ t (startsLike_new c t)

theorem start_of_startsLike (c : Config) (n n' : NodeObj)
    (h : List.Forall₂ (StartsLike c) n.tiles n'.tiles) (hr : ∀ x ∈ n.tiles, x.router = {}) :
    noSramCountsSys (n'.start c) = (emptied c n).start c ∧
    (c.mvmuConfig.haveSramXbar = false → n'.start c = (emptied c n).start c) := by
  have hm : ∀ t, (emptied c n).tiles.getD t (TileObj.new c t)
      = { n.tiles.getD t (TileObj.new c t) with ctrl := Ctrl.new c.tileConfig.edramSize } := by
    intro t
    unfold emptied
    rw [List.getD_eq_getElem?_getD, List.getD_eq_getElem?_getD, List.getElem?_map]
    cases n.tiles[t]? <;> rfl
  have hrt : ∀ t, (n.tiles.getD t (TileObj.new c t)).router.stats = {} := by
    intro t
    apply getD_prop (P := fun x : TileObj => x.router.stats = {})
    · rfl
    · intro x hx; rw [hr x hx]
  apply starts_eq
  · intro t; rw [hm]; exact (like_getD h t).ctrl
  · intro t; rw [hm]; exact (like_getD h t).ops
  · intro t; rw [hm, (like_getD h t).stats]; exact (hrt t).symm
  · intro t; rw [hm]; exact (like_getD h t).cores

theorem start_withDram (c : Config) (fl : FloatActs) (n n' : NodeObj)
    (h : List.Forall₂ (StartsLike c) n.tiles n'.tiles) (hn : readyNode c fl n) (m : Nat → Memory) (v : Nat → List Bool) :
    noSramCountsSys ((withDram m v n').start c) = (withDram m v n).start c ∧
    (c.mvmuConfig.haveSramXbar = false → (withDram m v n').start c = (withDram m v n).start c) := by
  have hlen : n.tiles.length = n'.tiles.length := h.length_eq
  have hm : ∀ (n : NodeObj) t, (withDram m v n).tiles.getD t (TileObj.new c t)
      = if t < n.tiles.length then { n.tiles.getD t (TileObj.new c t) with
          ctrl := { (n.tiles.getD t (TileObj.new c t)).ctrl with mem := m t, valid := v t } }
        else TileObj.new c t := by
    intro n t
    unfold withDram
    rw [List.getD_eq_getElem?_getD, List.getD_eq_getElem?_getD, List.getElem?_mapIdx]
    by_cases ht : t < n.tiles.length
    · rw [if_pos ht, List.getElem?_eq_getElem ht]; rfl
    · rw [if_neg ht, List.getElem?_eq_none (by omega)]; rfl
  have hrt : ∀ t, (n.tiles.getD t (TileObj.new c t)).router.stats = {} := by
    intro t
    apply getD_prop (P := fun x : TileObj => x.router.stats = {})
    · rfl
    · intro x hx; rw [hn.router x hx]
  apply starts_eq
  · intro t
    rw [hm, hm, ← hlen]
    by_cases ht : t < n.tiles.length
    · rw [if_pos ht, if_pos ht]
      dsimp only
      rw [begin_of_like (like_getD h t)]
      have : ∀ m v, { (n.tiles.getD t (TileObj.new c t)).ctrl with mem := m, valid := v }.begin 0
          = Ctrl.started m v 0 := by
        have hx := getD_prop (P := fun x : TileObj => x = TileObj.new c t ∨ x ∈ n.tiles) n.tiles (TileObj.new c t) t
          (Or.inl rfl) (fun x hx => Or.inr hx)
        generalize n.tiles.getD t (TileObj.new c t) = x at hx
        intro m v
        rcases hx with rfl | hx
        · rfl
        · rw [hn.ctrl x hx]; rfl
      exact (this _ _).symm
    · rw [if_neg ht, if_neg ht]
  · intro t
    rw [hm, hm, ← hlen]
    by_cases ht : t < n.tiles.length
    · rw [if_pos ht, if_pos ht]; exact (like_getD h t).ops
    · rw [if_neg ht, if_neg ht]
  · intro t
    rw [hm, hm, ← hlen]
    by_cases ht : t < n.tiles.length
    · rw [if_pos ht, if_pos ht]; exact (like_getD h t).stats.trans (hrt t).symm
    · rw [if_neg ht, if_neg ht]
  · intro t
    rw [hm, hm, ← hlen]
    by_cases ht : t < n.tiles.length
    · rw [if_pos ht, if_pos ht]; exact (like_getD h t).cores
    · rw [if_neg ht, if_neg ht]; exact (startsLike_new c t).cores

theorem forall₂_mapIdx {α β γ : Type} (P : β → γ → Prop) (f : Nat → α → β) (g : Nat → α → γ) (l : List α)
    (h : ∀ i x, l[i]? = some x → P (f i x) (g i x)) : List.Forall₂ P (l.mapIdx f) (l.mapIdx g) := by
  rw [List.forall₂_iff_get]
  refine ⟨by simp, fun i h1 h2 => ?_⟩
  have hi : i < l.length := by simpa using h1
  simp only [List.get_eq_getElem, List.getElem_mapIdx]
  exact h i _ (List.getElem?_eq_getElem hi)

theorem mapIdx_self {α : Type} (l : List α) : l.mapIdx (fun _ x => x) = l := by
  apply List.ext_getElem?
  intro i
  rw [List.getElem?_mapIdx]
  cases l[i]? <;> rfl

theorem node_reset {c0 c : Config} (fl : FloatActs) (hs : Simulable c0) (hb : c0.build = .ok c)
    (hp : 0 < c.mvmuConfig.xbarSize * c.numMvmusPerCore) (hr : c.mvmuConfig.haveRramXbar = true)
    (n : NodeObj) (hn : readyNode c fl n) (cfg : SysCfg) (y : Sys)
    (he : endsIn c cfg n y) (times : RunTimes) :
    ∃ n', (n.afterRun y times).reset = (.ok (), n') ∧ n'.id = n.id ∧
      List.Forall₂ (StartsLike c) n.tiles n'.tiles := by
  obtain ⟨ht, hc, ⟨as, hrun⟩, hfin, hhalt⟩ := he
  rw [start_eq hn] at hrun
  have h0 := sysInit_ok hn
  have hinv := sysInv_run (fun t => ⟨(h0 t).1, (h0 t).2⟩) as y hrun
  have key : List.Forall₂ (fun x y' => ∃ x', TileObj.reset y' = (.ok (), x') ∧ StartsLike c x x')
      n.tiles (n.afterRun y times).tiles := by
    unfold NodeObj.afterRun
    dsimp only
    conv => arg 2; rw [← mapIdx_self n.tiles]
    apply forall₂_mapIdx
    intro t x hx
    have hxm := List.mem_of_getElem? hx
    have htl : t < n.tiles.length := (List.getElem?_eq_some_iff.1 hx).1
    have htc : t < cfg.net.tiles := by rw [ht]; exact htl
    have hgd : n.tiles.getD t (TileObj.new c t) = x := by rw [List.getD_eq_getElem?_getD, hx]; rfl
    have hsz := finished_mem h0 hinv t
    have hms : ((sysInit c n).mem t).size = c.tileConfig.edramSize := by
      unfold sysInit; dsimp only; rw [hgd]; exact (hn.size x hxm).1
    rw [hms] at hsz
    refine tile_reset c x _ ((hinv.tile t).stopped (hhalt t htc)) (finished_pending h0 hinv hfin t htc)
      hsz.1 hsz.2.1 hsz.2.2 ?_ rfl rfl ?_
    · intro h
      have := (hinv.alive hfin.1).1
      dsimp only at h ⊢
      rw [this, h]; rfl
    · dsimp only
      conv => arg 2; rw [← mapIdx_self x.cores]
      apply forall₂_mapIdx
      intro k o ho
      have hom := List.mem_of_getElem? ho
      have hkl : k < x.cores.length := (List.getElem?_eq_some_iff.1 ho).1
      have hkc : k < cfg.cores := by rw [hc, ← hn.cores x hxm]; exact hkl
      obtain ⟨ws, hw, hco⟩ := hn.weights x hxm o hom
      have hcore : (sysInit c n).core t k = o.core := by
        unfold sysInit; dsimp only; rw [hgd, List.getD_eq_getElem?_getD, ho]; rfl
      have hran := (finished_core hinv hfin htc hkc).1
      rw [hcore, hco] at hran
      obtain ⟨hv, hok⟩ := coreRan_keeps cfg.fl (electrical_of c0 c hs hb) _ _ (latencies_of c0 c hs hb) _ _ _ _ _ _ _ hran
        (coreOk_after c0 c fl hs hb hp ws)
      obtain ⟨r, g1, g2, g3, -⟩ := reset_exact c fl hr ws _ hok hv
      rw [filter_loads ws hw, ← hco] at g2 g3
      exact ⟨{ core := r, operations := o.operations, activeCycles := times.core t k },
        by simp only [CoreObj.reset, g1], g2, g3, rfl⟩
  have go : ∀ l l' : List TileObj, List.Forall₂ (fun x y' => ∃ x', TileObj.reset y' = (.ok (), x') ∧
      StartsLike c x x') l l' →
      ∃ l'', forEach TileObj.reset l' = (.ok (), l'') ∧ List.Forall₂ (StartsLike c) l l'' := by
    intro l l' h
    induction h with
    | nil => exact ⟨[], rfl, .nil⟩
    | cons h1 _ ih =>
      obtain ⟨x', e1, e2⟩ := h1
      obtain ⟨xs, e3, e4⟩ := ih
      exact ⟨x' :: xs, by simp only [forEach, e1, e3], .cons e2 e4⟩
  obtain ⟨l, e1, e2⟩ := go _ _ key
  exact ⟨{ n.afterRun y times with tiles := l }, by simp only [NodeObj.reset, e1], rfl, e2⟩

end Ramwich
