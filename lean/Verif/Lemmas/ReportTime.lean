import Verif.Spec.ReportTime
import Verif.Lemmas.PowerOrder

/-! # Reports with longer times -/
namespace Ramwich

open Spec

/-- The same component, active for no less time. -/
structure Longer (a b : Component) : Prop where
  name : a.name = b.name
  count : a.count ≤ b.count
  dynamic : a.dynamic ≤ b.dynamic
  leak : a.leakPerCycle = b.leakPerCycle
  area : a.area = b.area
  cycles : a.cycles ≤ b.cycles
  nonneg : 0 ≤ a.leakPerCycle

theorem longer_mvmu {p : Power} (h : PowerNonneg p) (m : Mvmu) (c d : Int) (hc : c ≤ d) :
    List.Forall₂ Longer (mvmuComponents p m c) (mvmuComponents p m d) := by
  unfold mvmuComponents
  obtain ⟨_, _, _, _, _, _, _, _, _, _, _, _, _, _, _, _, _, _, _, _, _, _, _, _, _, _, _, _, _, _, _, _, _, _, _, _, _, _, _, _, _, _, _, _, _, _, _, _, _, _, _, _, _, _, _, _, _, _, _, _, _, _, _, _, _, _, _, _, _⟩ := h
  dsimp only
  refine List.rel_append (List.rel_append ?_ ?_) ?_
  · split
    · refine .cons ?_ (.cons ?_ (.cons ?_ (.cons ?_ (.cons ?_ (.cons ?_ (.cons ?_ .nil)))))) <;>
        refine ⟨rfl, le_refl _, le_refl _, rfl, rfl, hc, ?_⟩ <;> dsimp only <;> positivity
    · exact .nil
  · split
    · refine .cons ?_ (.cons ?_ .nil) <;> refine ⟨rfl, le_refl _, le_refl _, rfl, rfl, hc, ?_⟩ <;> dsimp only <;> positivity
    · exact .nil
  · refine .cons ?_ (.cons ?_ (.cons ?_ .nil)) <;> refine ⟨rfl, le_refl _, le_refl _, rfl, rfl, hc, ?_⟩ <;> dsimp only <;> positivity

theorem longer_core {p : Power} (h : PowerNonneg p) (o : CoreObj) (c d : Int) (hc : c ≤ d) :
    List.Forall₂ Longer (coreComponents p { o with activeCycles := c }) (coreComponents p { o with activeCycles := d }) := by
  unfold coreComponents
  dsimp only
  refine List.rel_append ?_ (forall₂_flatMap fun m _ => longer_mvmu h m c d hc)
  obtain ⟨_, _, _, _, _, _, _, _, _, _, _, _, _, _, _, _, _, _, _, _, _, _, _, _, _, _, _, _, _, _, _, _, _, _, _, _, _, _, _, _, _, _, _, _, _, _, _, _, _, _, _, _, _, _, _, _, _, _, _, _, _, _, _, _, _, _, _, _, _⟩ := h
  refine .cons ⟨rfl, hc, ?_, rfl, rfl, hc, ?_⟩ (.cons ?_ (.cons ?_ (.cons ?_ (.cons ?_ (.cons ?_ (.cons ?_ (.cons ?_ .nil)))))))
  · dsimp only; gcongr
  · assumption
  all_goals refine ⟨rfl, le_refl _, le_refl _, rfl, rfl, hc, ?_⟩ <;> dsimp only <;> positivity

theorem longer_router {p : Power} (h : PowerNonneg p) (r : RouterStats) (c d : Int) (hc : c ≤ d) :
    List.Forall₂ Longer (routerComponents p r c) (routerComponents p r d) := by
  unfold routerComponents
  obtain ⟨_, _, _, _, _, _, _, _, _, _, _, _, _, _, _, _, _, _, _, _, _, _, _, _, _, _, _, _, _, _, _, _, _, _, _, _, _, _, _, _, _, _, _, _, _, _, _, _, _, _, _, _, _, _, _, _, _, _, _, _, _, _, _, _, _, _, _, _, _⟩ := h
  refine .cons ?_ (.cons ?_ (.cons ?_ (.cons ?_ .nil))) <;>
    refine ⟨rfl, le_refl _, le_refl _, rfl, rfl, hc, ?_⟩ <;> dsimp only <;> positivity

theorem longer_mapIdx {α β γ : Type} {R : γ → γ → Prop} {f g : Nat → α → β} {F : β → List γ} :
    ∀ {l : List α}, (∀ i x, l[i]? = some x → List.Forall₂ R (F (f i x)) (F (g i x))) →
      List.Forall₂ R ((l.mapIdx f).flatMap F) ((l.mapIdx g).flatMap F) := by
  intro l
  induction l generalizing f g with
  | nil => intro _; exact .nil
  | cons x l ih =>
    intro h
    rw [List.mapIdx_cons, List.mapIdx_cons, List.flatMap_cons, List.flatMap_cons]
    exact List.rel_append (h 0 x rfl) (ih fun i y hy => h (i + 1) y (by simpa using hy))

/-- A tile with these times. -/
def tileWithTimes (x : TileObj) (c : Nat → Int) (a : Int) : TileObj :=
  { x with cores := x.cores.mapIdx fun k o => { o with activeCycles := c k }, activeCycles := a }

theorem longer_tile {p : Power} (h : PowerNonneg p) (x : TileObj) (c d : Nat → Int) (a b : Int) (hab : a ≤ b)
    (hc : ∀ k < x.cores.length, c k ≤ d k) :
    List.Forall₂ Longer (tileComponents p (tileWithTimes x c a)) (tileComponents p (tileWithTimes x d b)) := by
  unfold tileComponents tileWithTimes
  dsimp only
  split
  · exact longer_router h _ _ _ (le_refl _)
  refine List.rel_append (List.rel_append ?_ (longer_router h _ _ _ hab))
    (longer_mapIdx fun k o ho => longer_core h o _ _ (hc k (List.getElem?_eq_some_iff.1 ho).1))
  obtain ⟨_, _, _, _, _, _, _, _, _, _, _, _, _, _, _, _, _, _, _, _, _, _, _, _, _, _, _, _, _, _, _, _, _, _, _, _, _, _, _, _, _, _, _, _, _, _, _, _, _, _, _, _, _, _, _, _, _, _, _, _, _, _, _, _, _, _, _, _, _⟩ := h
  refine .cons ⟨rfl, hab, ?_, rfl, rfl, hab, ?_⟩ (.cons ?_ (.cons ?_ (.cons ?_ .nil)))
  · dsimp only; gcongr
  · assumption
  all_goals refine ⟨rfl, le_refl _, le_refl _, rfl, rfl, hab, ?_⟩ <;> dsimp only <;> positivity

theorem longer_node {p : Power} (h : PowerNonneg p) (n : NodeObj) (cores : Nat) (hcores : ∀ x ∈ n.tiles, x.cores.length ≤ cores)
    (u v : RunTimes) (huv : TimesLe n.tiles.length cores u v) :
    List.Forall₂ Longer (nodeComponents p (nodeWithTimes n u)) (nodeComponents p (nodeWithTimes n v)) := by
  unfold nodeComponents nodeWithTimes
  dsimp only
  refine List.rel_append ?_ (longer_mapIdx fun t x hx => ?_)
  · rw [List.length_mapIdx, List.length_mapIdx]
    obtain ⟨_, _, _, _, _, _, _, _, _, _, _, _, _, _, _, _, _, _, _, _, _, _, _, _, _, _, _, _, _, _, _, _, _, _, _, _, _, _, _, _, _, _, _, _, _, _, _, _, _, _, _, _, _, _, _, _, _, _, _, _, _, _, _, _, _, _, _, _, _⟩ := h
    have := huv.busy
    refine .cons ⟨rfl, le_refl _, le_refl _, rfl, rfl, huv.busy, ?_⟩ (.cons ⟨rfl, le_refl _, le_refl _, rfl, rfl, huv.busy, ?_⟩
      (.cons ⟨rfl, le_refl _, ?_, rfl, rfl, le_refl _, le_refl _⟩ .nil)) <;> dsimp only
    · assumption
    · rw [ratio_eq]; positivity
    · gcongr
  · have ht := (List.getElem?_eq_some_iff.1 hx).1
    exact longer_tile h x (u.core t) (v.core t) (u.tile t) (v.tile t) (huv.tile t ht) fun k hk =>
      huv.core t ht k (hk.trans_le (hcores x (List.mem_of_getElem? hx)))

theorem longer_sim {p : Power} (h : PowerNonneg p) (s : Sim) (tiles cores : Nat)
    (hs : ∀ n ∈ s.nodes, n.tiles.length ≤ tiles ∧ ∀ x ∈ n.tiles, x.cores.length ≤ cores) (u v : Nat → RunTimes)
    (huv : ∀ a < s.nodes.length, TimesLe tiles cores (u a) (v a)) :
    List.Forall₂ Longer (simComponents p (simWithTimes s u)) (simComponents p (simWithTimes s v)) := by
  unfold simComponents simWithTimes
  dsimp only
  refine longer_mapIdx fun a n hn => ?_
  have h1 := hs n (List.mem_of_getElem? hn)
  have h2 := huv a (List.getElem?_eq_some_iff.1 hn).1
  exact longer_node h n cores h1.2 _ _ ⟨fun t ht => h2.tile t (ht.trans_le h1.1), fun t ht => h2.core t (ht.trans_le h1.1), h2.busy⟩

theorem longer_add {a b x y : Stats} (h : LongerStats a b) (i : LongerStats x y) : LongerStats (a + x) (b + y) := by
  obtain ⟨h1, h2, h3, h4⟩ := h
  obtain ⟨i1, i2, i3, i4⟩ := i
  exact ⟨add_le_add h1 i1, add_le_add h2 i2, add_le_add h3 i3, congrArg₂ (· + ·) h4 i4⟩

theorem longer_contribution {a b : Component} (h : Longer a b) : LongerStats a.contribution b.contribution := by
  obtain ⟨-, hcount, hd, hl, ha, hcy, hnn⟩ := h
  refine ⟨hcount, hd, ?_, ha⟩
  change a.leakPerCycle * a.cycles ≤ b.leakPerCycle * b.cycles
  rw [← hl]
  have : (a.cycles : ℚ) ≤ b.cycles := by exact_mod_cast hcy
  exact mul_le_mul_of_nonneg_left this hnn

theorem longer_total {l r : List Component} (h : List.Forall₂ Longer l r) (k : String) :
    LongerStats (reportTotal l k) (reportTotal r k) := by
  unfold reportTotal
  induction h with
  | nil => exact ⟨le_refl _, le_refl _, le_refl _, rfl⟩
  | @cons a b l r hab _ ih =>
    rw [List.filter_cons, List.filter_cons, hab.name]
    by_cases hk : b.name = k
    · rw [if_pos (by simpa using hk), if_pos (by simpa using hk), List.map_cons, List.map_cons, List.sum_cons,
        List.sum_cons]
      exact longer_add (longer_contribution hab) ih
    · rw [if_neg (by simpa using hk), if_neg (by simpa using hk)]
      exact ih

theorem longer_sum {l r : List Component} (h : List.Forall₂ Longer l r) :
    LongerStats ((l.map Component.contribution).sum) ((r.map Component.contribution).sum) := by
  induction h with
  | nil => exact ⟨le_refl _, le_refl _, le_refl _, rfl⟩
  | @cons a b l r hab _ ih =>
    rw [List.map_cons, List.map_cons, List.sum_cons, List.sum_cons]
    exact longer_add (longer_contribution hab) ih

end Ramwich
