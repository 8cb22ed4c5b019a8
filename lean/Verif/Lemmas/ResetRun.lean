import Verif.Spec.Reset
import Verif.Lemmas.Reset
import Verif.Lemmas.CoreReach
import Verif.Lemmas.SysDet

/-! # Reset after a run -/
namespace Ramwich

open Spec

theorem forEach_ok {α : Type} (f : α → Res α Unit) (P : α → α → Prop) (l : List α)
    (h : ∀ x ∈ l, ∃ y, f x = (.ok (), y) ∧ P x y) :
    ∃ l', forEach f l = (.ok (), l') ∧ List.Forall₂ P l l' := by
  induction l with
  | nil => exact ⟨[], rfl, .nil⟩
  | cons x xs ih =>
    obtain ⟨y, h1, h2⟩ := h x (by simp)
    obtain ⟨ys, h3, h4⟩ := ih fun x hx => h x (by simp [hx])
    exact ⟨y :: ys, by simp only [forEach, h1, h3], .cons h2 h4⟩

/-! ## What a run does to a core -/

theorem view_loadAddress (c : Core) (r : Int) : view (c.loadAddress r).2 = view c := by
  unfold Core.loadAddress
  refine view_andThen c _ _ (view_read c r 1) fun k a => ?_
  split <;> rfl

theorem coreOk_loadAddress {cfg : Config} {c : Core} (h : CoreOk cfg c) (r : Int) : CoreOk cfg (c.loadAddress r).2 := by
  unfold Core.loadAddress
  refine coreOk_andThen cfg _ _ (coreOk_read cfg c h r 1) fun k a hk => ?_
  split <;> exact hk

theorem view_storeRequest (c : Core) (d r w v : Int) : view (c.storeRequest d r w v).2 = view c := by
  unfold Core.storeRequest
  refine view_andThen c _ _ (view_loadAddress c d) fun k a => ?_
  refine view_andThen k _ _ (view_read k r _) fun k a => ?_
  split <;> rfl

theorem coreOk_storeRequest {cfg : Config} {c : Core} (h : CoreOk cfg c) (d r w v : Int) :
    CoreOk cfg (c.storeRequest d r w v).2 := by
  unfold Core.storeRequest
  refine coreOk_andThen cfg _ _ (coreOk_loadAddress h d) fun k a hk => ?_
  refine coreOk_andThen cfg _ _ (coreOk_read cfg k hk r _) fun k a hk => ?_
  split <;> exact hk

theorem follows_keeps {cfg : Config} (fl : FloatActs) (he : Electrical cfg.mvmuConfig) (lat dlat : Nat)
    (hlat : Latencies cfg.mvmuConfig lat dlat) (noise : Nat → Nat → Noise) (c : Core) (e : CoreEv)
    (h : e.follows fl noise c) (hc : CoreOk cfg c) : view e.after = view c ∧ CoreOk cfg e.after := by
  have hex : ∀ op, c.execute fl noise op = (.ok (), e.after) → view e.after = view c ∧ CoreOk cfg e.after := by
    intro op h
    have h1 := view_execute c fl noise op
    have h2 := coreOk_execute cfg fl he lat dlat hlat c hc noise op
    rw [h] at h1 h2
    exact ⟨h1, h2⟩
  unfold CoreEv.follows at h
  split at h
  · rename_i dest read w v _
    obtain ⟨c1, h1, h2⟩ := h
    have h3 := view_loadAddress c read
    have h4 := coreOk_loadAddress hc read
    rw [h1] at h3 h4
    rw [h2]
    exact ⟨(view_write c1 _ _).trans h3, coreOk_write cfg c1 h4 _ _⟩
  · rename_i dest read w v _
    have h3 := view_storeRequest c dest read w v
    have h4 := coreOk_storeRequest hc dest read w v
    rw [h] at h3 h4
    exact ⟨h3, h4⟩
  · exact hex _ h.1

theorem coreRan_keeps {cfg : Config} (fl : FloatActs) (he : Electrical cfg.mvmuConfig) (lat dlat : Nat)
    (hlat : Latencies cfg.mvmuConfig lat dlat) (noise : Nat → Nat → Nat → Noise) (log : List CoreEv) :
    ∀ (n : Nat) (c c' : Core) (p rest : List CoreOp), coreRan fl noise n c p log c' rest → CoreOk cfg c →
    view c' = view c ∧ CoreOk cfg c' := by
  induction log with
  | nil =>
    intro n c c' p rest h hc
    obtain ⟨rfl, rfl⟩ := h
    exact ⟨rfl, hc⟩
  | cons e log ih =>
    intro n c c' p rest h hc
    obtain ⟨r', h1, h2, h3⟩ := h
    obtain ⟨h4, h5⟩ := follows_keeps fl he lat dlat hlat _ c e h2 hc
    obtain ⟨h6, h7⟩ := ih _ _ _ _ _ h3 h5
    exact ⟨h6.trans h4, h7⟩

/-! ## Reset of a core -/

theorem filter_loads (ws : List CoreCall) (h : ∀ k ∈ ws, isLoad k = true) : ws.filter isLoad = ws :=
  List.filter_eq_self.2 h

theorem idle_new (c : Config) : ∀ m ∈ (Core.new c).mvmus, idleCounts m = (0, 0) := by
  intro m hm
  simp only [Core.new, List.mem_map, List.mem_range] at hm
  obtain ⟨_, -, rfl⟩ := hm
  unfold idleCounts
  split <;> rfl

theorem idle_of_view {c : Config} {fl : FloatActs} {hist : List CoreCall} :
    ∀ m ∈ ((Core.new c).after fl hist).mvmus, idleCounts m = (0, 0) := by
  intro m hm
  have h := (view_after fl hist (Core.new c)).2
  have h1 : idleCounts m ∈ (Core.new c).mvmus.map idleCounts := by rw [← h]; exact List.mem_map_of_mem hm
  obtain ⟨m', h2, h3⟩ := List.mem_map.1 h1
  rw [← h3]; exact idle_new c m' h2


theorem renewed_loaded (c : Config) (fl : FloatActs) (hist : List CoreCall) :
    renewedCore ((Core.new c).after fl hist) = (Core.new c).after fl (hist.filter isLoad) := by
  rw [(view_after fl hist (Core.new c)).1, renewed_new]

/-- `reset` gives the core with newly loaded weights, except for the counters of SRAM crossbars. -/
theorem reset_exact (c : Config) (fl : FloatActs) (hr : c.mvmuConfig.haveRramXbar = true)
    (hist : List CoreCall) (K : Core) (hK : CoreOk c K)
    (hv : view K = view ((Core.new c).after fl hist)) :
    ∃ r, K.reset = (.ok (), r) ∧ noSramCountsCore r = (Core.new c).after fl (hist.filter isLoad) ∧
      (c.mvmuConfig.haveSramXbar = false → r = (Core.new c).after fl (hist.filter isLoad)) ∧
      r.mvmus.map (fun m => (m.sram, m.muxSramSelections)) = K.mvmus.map (fun m => (m.sram, m.muxSramSelections)) := by
  obtain ⟨r, h1, h2, hc⟩ := core_reset_eq c K hK hr
  have h3 := coreOk_reset c K hK
  have h4 := view_reset K
  rw [h1] at h3 h4
  have h5 : renewedCore K = renewedCore ((Core.new c).after fl hist) := congrArg Prod.fst hv
  rw [renewed_loaded] at h5
  refine ⟨r, h1, h2.trans h5, fun hs => ?_, hc⟩
  have h6 : ∀ m ∈ r.mvmus, noSramCounts m = m := by
    intro m hm
    apply noSramCounts_of
    · have h7 : r.mvmus.map idleCounts = ((Core.new c).after fl hist).mvmus.map idleCounts :=
        (congrArg Prod.snd h4).trans (congrArg Prod.snd hv)
      have h8 : idleCounts m ∈ ((Core.new c).after fl hist).mvmus.map idleCounts := by
        rw [← h7]; exact List.mem_map_of_mem hm
      obtain ⟨m', h9, h10⟩ := List.mem_map.1 h8
      rw [← h10]; exact idle_of_view m' h9
    · obtain ⟨hc, s, hs'⟩ := h3
      obtain ⟨i, hi⟩ := List.mem_iff_getElem?.1 hm
      rw [(hs'.units i m hi).1, hc]; exact hs
  have h7 : noSramCountsCore r = r := by
    unfold noSramCountsCore
    rw [List.map_congr_left h6, List.map_id']
  rw [← h5, ← h2, h7]

/-! ## Start of a run -/

/-- A node as the start of a run. -/
def sysInit (c : Config) (n : NodeObj) : SysInit :=
  { mem := fun t => (n.tiles.getD t (TileObj.new c t)).ctrl.mem
    valid := fun t => (n.tiles.getD t (TileObj.new c t)).ctrl.valid
    core := fun t k => ((n.tiles.getD t (TileObj.new c t)).cores.getD k (CoreObj.new c)).core
    prog := fun t k => ((n.tiles.getD t (TileObj.new c t)).cores.getD k (CoreObj.new c)).operations
    ops := fun t => (n.tiles.getD t (TileObj.new c t)).operations }

theorem getD_prop {α : Type} {P : α → Prop} (l : List α) (d : α) (i : Nat) (hd : P d) (hl : ∀ x ∈ l, P x) :
    P (l.getD i d) := by
  rw [List.getD_eq_getElem?_getD]
  cases h : l[i]? with
  | none => exact hd
  | some x => exact hl x (List.mem_of_getElem? h)

theorem start_eq {c : Config} {fl : FloatActs} {n : NodeObj} (h : readyNode c fl n) :
    n.start c = (sysInit c n).start := by
  unfold NodeObj.start SysInit.start sysInit
  have h1 : ∀ t, (n.tiles.getD t (TileObj.new c t)).ctrl.begin 0 = Ctrl.started
      (n.tiles.getD t (TileObj.new c t)).ctrl.mem (n.tiles.getD t (TileObj.new c t)).ctrl.valid 0 := by
    intro t
    apply getD_prop (P := fun x : TileObj => x.ctrl.begin 0 = Ctrl.started x.ctrl.mem x.ctrl.valid 0)
    · rfl
    · intro x hx
      rw [h.ctrl x hx]; rfl
  have h2 : ∀ t, (n.tiles.getD t (TileObj.new c t)).router.stats = {} := by
    intro t
    apply getD_prop (P := fun x : TileObj => x.router.stats = {})
    · rfl
    · intro x hx
      rw [h.router x hx]
  simp only [h1, h2]

theorem sysInit_ok {c : Config} {fl : FloatActs} {n : NodeObj} (h : readyNode c fl n) : (sysInit c n).ok := by
  intro t
  unfold sysInit
  apply getD_prop (P := fun x : TileObj => x.ctrl.mem.cells.length = x.ctrl.mem.size ∧ x.ctrl.valid.length = x.ctrl.mem.size)
  · simp [TileObj.new, Ctrl.new, Memory.new]
  · intro x hx
    obtain ⟨h1, h2, h3⟩ := h.size x hx
    rw [h1, h2, h3]; exact ⟨rfl, rfl⟩

end Ramwich
