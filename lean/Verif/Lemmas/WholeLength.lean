import Mathlib.Algebra.BigOperators.Group.Finset.Basic
import Mathlib.Algebra.BigOperators.Group.Finset.Piecewise
import Mathlib.Algebra.Order.BigOperators.Group.Finset
import Verif.Lemmas.WholeInv
import Verif.Props.ClockedRest

/-! # All nodes of a simulator: progress, and the number of events -/
namespace Ramwich

open Pipeline (upd upd_same upd_ne)
open Spec

variable {nodes : Nat} {cfg : Nat → SysCfg} {l : StageLat} {i : Nat → SysInit} {w w' : Whole} {n : Nat → Nat}

theorem node_act {a : Nat} {x : FAct} {f' : FSys} (hr : w.raised nodes = false) (ha : a < nodes) (h1 : x ≠ .t .tick)
    (h2 : x = .monitor → w.left a = none) (hf : (w.node a).act (cfg a) l x = some f') :
    w.act nodes cfg l (.node a x) = some { w with node := upd w.node a f' } := by
  unfold Whole.act
  rw [if_neg (by rw [hr]; simp)]
  dsimp only
  rw [if_pos ha]
  split
  · exact absurd rfl h1
  · rw [if_neg (by rw [h2 rfl]; simp), hf]; rfl
  · rw [hf]; rfl

/-- Something can always happen until the simulation is over or raises. -/
theorem w_progress (h0 : ∀ a < nodes, ∀ t, GoodStart ((i a).mem t) ((i a).valid t)) (h : WInv nodes cfg l i w n)
    (hr : w.raised nodes = false) (ho : w.over nodes = false) : ∃ e w', w.act nodes cfg l e = some w' := by
  cases hq : (List.range nodes).all (w.nodeQuiet cfg l) with
  | true =>
    refine ⟨.tick, { w with node := fun a => if a < nodes then (w.node a).pass (cfg a) else w.node a, now := w.now + 1 }, ?_⟩
    unfold Whole.act
    rw [if_neg (by rw [hr]; simp)]
    dsimp only
    rw [if_pos ⟨ho, hq⟩]
  | false =>
    rw [List.all_eq_false] at hq
    obtain ⟨a, ha, hq⟩ := hq
    rw [List.mem_range] at ha
    have hc := alive_of hr ha
    have hn := h.node a ha
    cases hs : (w.node a).still (cfg a) l with
    | false =>
      -- something in the node is possible
      have : ∃ x f', x ≠ FAct.monitor ∧ x ≠ .t .tick ∧ (w.node a).act (cfg a) l x = some f' := by
        by_contra hne
        have hnone : ∀ x, x ≠ FAct.monitor → x ≠ .t .tick → (w.node a).act (cfg a) l x = none := by
          intro x h1 h2
          by_contra h3
          obtain ⟨f', h4⟩ := Option.ne_none_iff_exists'.1 h3
          exact hne ⟨x, f', h1, h2, h4⟩
        cases hl : w.left a with
        | none =>
          obtain ⟨⟨as, -, h1⟩, -⟩ := hn.waits hl
          rw [still_of_idle (h0 a ha) (finv_run (h0 a ha) as finv_start h1) hc hnone] at hs
          cases hs
        | some T =>
          obtain ⟨as, g, bs, y, -, h1, -, -, -, h5, h6⟩ := hn.gone T hl
          rw [h6, still_watch] at hs
          rw [h6] at hc
          rw [still_of_idle (h0 a ha) (finv_run (h0 a ha) _ finv_start (frun_append_some h1 h5)) hc (fun x e1 e2 => by
            have := hnone x e1 e2
            rw [h6, act_watch e1 e2, Option.map_eq_none_iff] at this
            exact this)] at hs
          cases hs
      obtain ⟨x, f', h1, h2, h3⟩ := this
      exact ⟨_, _, node_act hr ha h2 (fun e => absurd e h1) h3⟩
    | true =>
      unfold Whole.nodeQuiet at hq
      rw [hs, Bool.true_and] at hq
      cases hl : w.left a with
      | some T => rw [hl] at hq; simp at hq
      | none =>
        rw [hl] at hq
        cases hd : (w.node a).tilesDone (cfg a) with
        | true =>
          refine ⟨.leave a, { w with left := upd w.left a (some w.now) }, ?_⟩
          unfold Whole.act
          rw [if_neg (by rw [hr]; simp)]
          dsimp only
          rw [if_pos ⟨ha, hl, hd⟩]
        | false =>
          rw [hd] at hq
          cases hm : (w.node a).clk.monitor (cfg a).net (w.node a).ts.sys.net (w.node a).ts.now with
          | none => rw [hm] at hq; simp at hq
          | some k => exact ⟨_, _, node_act (x := .monitor) hr ha (by simp) (fun _ => hl) (f' := { w.node a with clk := k }) (by
              rw [monitor_act hc, hm]; rfl)⟩

/-- How many nodes have returned. -/
def Whole.gone (nodes : Nat) (w : Whole) : Nat := ((Finset.range nodes).filter fun a => (w.left a).isSome).card

theorem gone_le (w : Whole) : w.gone nodes ≤ nodes := by
  unfold Whole.gone
  exact (Finset.card_filter_le _ _).trans (by rw [Finset.card_range])

theorem act_count {e : WAct} (h : w.act nodes cfg l e = some w') :
    (∑ a ∈ Finset.range nodes, if e.of a then 1 else 0) + w'.gone nodes + w'.now = 1 + w.gone nodes + w.now := by
  unfold Whole.act at h
  split at h
  · cases h
  have of_node : ∀ {a : Nat} {x : FAct}, a < nodes → (∑ b ∈ Finset.range nodes, if (WAct.node a x).of b then 1 else 0) = 1 := by
    intro a x ha
    have : ∀ b, (if (WAct.node a x).of b = true then 1 else 0) = if a = b then 1 else 0 := by
      intro b
      show (if decide (a = b) = true then 1 else 0) = _
      simp
    simp only [this]
    rw [Finset.sum_ite_eq, if_pos (Finset.mem_range.2 ha)]
  cases e with
  | node a x =>
    dsimp only at h
    split at h
    · rename_i ha
      rw [of_node ha]
      split at h
      · cases h
      · split at h
        · cases h
        · rw [Option.map_eq_some_iff] at h
          obtain ⟨f, -, rfl⟩ := h
          rfl
      · rw [Option.map_eq_some_iff] at h
        obtain ⟨f, -, rfl⟩ := h
        rfl
    · cases h
  | leave a =>
    dsimp only at h
    split at h
    · rename_i hh
      obtain ⟨h1, h2, -⟩ := hh
      injection h with h
      subst h
      have e1 : (∑ b ∈ Finset.range nodes, if (WAct.leave a).of b then 1 else 0) = 0 := by
        refine Finset.sum_eq_zero fun b _ => ?_
        rfl
      have e2 : ({ w with left := upd w.left a (some w.now) } : Whole).gone nodes = w.gone nodes + 1 := by
        unfold Whole.gone
        have : ((Finset.range nodes).filter fun b => ((upd w.left a (some w.now)) b).isSome) =
            insert a ((Finset.range nodes).filter fun b => (w.left b).isSome) := by
          ext b
          simp only [Finset.mem_filter, Finset.mem_insert, Finset.mem_range]
          by_cases e : b = a
          · subst e; rw [upd_same]; simp [h1]
          · rw [upd_ne _ _ _ _ e]; simp [e]
        show ((Finset.range nodes).filter fun b => ((upd w.left a (some w.now)) b).isSome).card = _
        rw [this, Finset.card_insert_of_notMem]
        simp [h2]
      rw [e1, e2]
      show 0 + (w.gone nodes + 1) + w.now = _
      omega
    · cases h
  | tick =>
    dsimp only at h
    split at h
    · injection h with h
      subst h
      have e1 : (∑ b ∈ Finset.range nodes, if WAct.tick.of b then 1 else 0) = 0 := by
        refine Finset.sum_eq_zero fun b _ => ?_
        rfl
      rw [e1]
      show 0 + w.gone nodes + (w.now + 1) = _
      omega
    · cases h

theorem run_count (es : List WAct) : ∀ {w w' : Whole}, w.run nodes cfg l es = some w' →
    (∑ a ∈ Finset.range nodes, (es.filter (WAct.of a)).length) + w'.gone nodes + w'.now = es.length + w.gone nodes + w.now := by
  induction es with
  | nil => intro w w' h; cases h; simp
  | cons e es ih =>
    intro w w' h
    simp only [Whole.run, Option.bind_eq_some_iff] at h
    obtain ⟨v, h1, h2⟩ := h
    have k1 := act_count h1
    have k2 := ih h2
    have : ∀ a, ((e :: es).filter (WAct.of a)).length = (if e.of a then 1 else 0) + (es.filter (WAct.of a)).length := by
      intro a
      rw [List.filter_cons]
      split
      · rw [List.length_cons]; omega
      · omega
    simp only [this, Finset.sum_add_distrib, List.length_cons]
    omega

/-- The number of events. -/
theorem wrun_length (h0 : ∀ a < nodes, (i a).ok) {es : List WAct} (h : (Whole.start i).run nodes cfg l es = some w) :
    es.length ≤ (∑ a ∈ Finset.range nodes, ((cfg a).net.tiles + 2) * (clockedWork (cfg a) (i a) + 2 + w.now)) + nodes + w.now := by
  have h1 := run_count es h
  have h2 := winv_run (fun a ha => (h0 a ha).good) es winv_start h
  have h3 : ∑ a ∈ Finset.range nodes, (es.filter (WAct.of a)).length ≤
      ∑ a ∈ Finset.range nodes, ((cfg a).net.tiles + 2) * (clockedWork (cfg a) (i a) + 2 + w.now) := by
    refine Finset.sum_le_sum fun a ha => ?_
    rw [Finset.mem_range] at ha
    have hn := h2.node a ha
    rw [Nat.zero_add] at hn
    cases hl : w.left a with
    | none =>
      obtain ⟨⟨as, k1, k2⟩, -⟩ := hn.waits hl
      have := C81_time_passes (cfg a) l (i a) (h0 a ha) as _ k2
      rw [hn.clock] at this
      omega
    | some T =>
      obtain ⟨as, g, bs, y, k1, k2, -, -, -, k3, k4⟩ := hn.gone T hl
      have := C81_time_passes (cfg a) l (i a) (h0 a ha) (as ++ bs) _ (frun_append_some k2 k3)
      have e : y.ts.now = w.now := by rw [← hn.clock, k4]; rfl
      rw [e, List.length_append] at this
      omega
  have h4 := gone_le (nodes := nodes) w
  have h5 : (Whole.start i).now = 0 := rfl
  omega

end Ramwich
