import Verif.Lemmas.WholeInv

/-! # All nodes of a simulator: runs of single nodes can be put together -/
namespace Ramwich

open Pipeline (upd upd_same upd_ne)
open Spec

variable {nodes : Nat} {cfg : Nat → SysCfg} {l : StageLat} {i : Nat → SysInit} {w w' : Whole}

/-- Node `a` of the whole is in state `f`. -/
def Fits (cfg : Nat → SysCfg) (w : Whole) (a : Nat) (f : FSys) : Prop :=
  w.left a = none ∧ w.node a = f ∨
  ∃ T, w.left a = some T ∧ w.node a = f.watch (w.node a).clk.seen ∧ f.tilesDone (cfg a) = true

theorem Fits.ts {a : Nat} {f : FSys} (h : Fits cfg w a f) : (w.node a).ts = f.ts := by
  rcases h with ⟨-, h⟩ | ⟨T, -, h, -⟩
  · rw [h]
  · rw [h]; rfl

theorem raised_of (h : ∀ a < nodes, (w.node a).ts.sys.crashed = none) : w.raised nodes = false := by
  unfold Whole.raised
  rw [List.any_eq_false]
  intro a ha
  rw [h a (List.mem_range.1 ha)]
  simp

theorem fits_other {a b : Nat} {f g : FSys} (hne : b ≠ a) (h : Fits cfg w b g) : Fits cfg { w with node := upd w.node a f } b g := by
  unfold Fits at *
  have e : ({ w with node := upd w.node a f } : Whole).node b = w.node b := upd_ne _ _ _ _ hne
  rw [e]
  exact h

/-- One action of a node alone can be done in the whole. -/
theorem fits_act {a : Nat} {f f' : FSys} {x : FAct} (ha : a < nodes) (hr : w.raised nodes = false) (h : Fits cfg w a f)
    (h0 : ∀ t, GoodStart ((i a).mem t) ((i a).valid t)) (hI : FInv (cfg a) l (i a) f)
    (hx : x ≠ .t .tick) (hf : f.act (cfg a) l x = some f') :
    ∃ es w', w.run nodes cfg l es = some w' ∧ Fits cfg w' a f' ∧ (∀ b, b ≠ a → w'.node b = w.node b) ∧
      w'.left = w.left ∧ w'.now = w.now := by
  rcases h with ⟨h1, h2⟩ | ⟨T, h1, h2, h3⟩
  · refine ⟨[.node a x], { w with node := upd w.node a f' }, ?_, .inl ⟨h1, upd_same _ _ _⟩, fun b hb => upd_ne _ _ _ _ hb, rfl, rfl⟩
    subst h2
    have : w.act nodes cfg l (.node a x) = some { w with node := upd w.node a f' } := by
      unfold Whole.act
      rw [if_neg (by rw [hr]; simp)]
      dsimp only
      rw [if_pos ha]
      split
      · exact absurd rfl hx
      · rw [if_neg (by rw [h1]; simp), hf]; rfl
      · rw [hf]; rfl
    simp only [Whole.run, this, Option.bind_some]
  · have hd : f'.tilesDone (cfg a) = true := tilesDone_keeps h0 (as := [x]) hI (by simp [FSys.run, hf]) h3
    by_cases hm : x = .monitor
    · subst hm
      refine ⟨[], w, rfl, .inr ⟨T, h1, ?_, hd⟩, fun _ _ => rfl, rfl, rfl⟩
      rw [monitor_act (fact_alive hf), Option.map_eq_some_iff] at hf
      obtain ⟨k, h4, rfl⟩ := hf
      unfold NetClock.monitor at h4
      split at h4
      · injection h4 with h4
        subst h4
        exact h2
      · cases h4
    · have h4 : (w.node a).act (cfg a) l x = some (f'.watch (w.node a).clk.seen) := by
        conv_lhs => rw [h2]
        rw [act_watch hm hx, hf]
        rfl
      refine ⟨[.node a x], { w with node := upd w.node a (f'.watch (w.node a).clk.seen) }, ?_,
        .inr ⟨T, h1, ?_, hd⟩, fun b hb => upd_ne _ _ _ _ hb, rfl, rfl⟩
      · have : w.act nodes cfg l (.node a x) = some { w with node := upd w.node a (f'.watch (w.node a).clk.seen) } := by
          unfold Whole.act
          rw [if_neg (by rw [hr]; simp)]
          dsimp only
          rw [if_pos ha]
          split
          · exact absurd rfl hx
          · exact absurd rfl hm
          · rw [h4]; rfl
        simp only [Whole.run, this, Option.bind_some]
      · show upd w.node a (f'.watch (w.node a).clk.seen) a = f'.watch (upd w.node a (f'.watch (w.node a).clk.seen) a).clk.seen
        rw [upd_same, seen_watch]

/-- What a node alone does at one time can be done in the whole. -/
theorem fits_run {a : Nat} (ha : a < nodes) (h0 : ∀ t, GoodStart ((i a).mem t) ((i a).valid t)) (xs : List FAct) :
    ∀ {w : Whole} {f f' : FSys}, (∀ b < nodes, b ≠ a → (w.node b).ts.sys.crashed = none) → Fits cfg w a f →
    FInv (cfg a) l (i a) f → (∀ x ∈ xs, x ≠ .t .tick) → f.run (cfg a) l xs = some f' →
    ∃ es w', w.run nodes cfg l es = some w' ∧ Fits cfg w' a f' ∧ (∀ b, b ≠ a → w'.node b = w.node b) ∧
      w'.left = w.left ∧ w'.now = w.now := by
  induction xs with
  | nil => intro w f f' _ h _ _ hf; cases hf; exact ⟨[], w, rfl, h, fun _ _ => rfl, rfl, rfl⟩
  | cons x xs ih =>
    intro w f f' hc h hI hx hf
    simp only [FSys.run, Option.bind_eq_some_iff] at hf
    obtain ⟨g, h1, h2⟩ := hf
    have hr : w.raised nodes = false := raised_of fun b hb => by
      by_cases e : b = a
      · rw [e, h.ts]; exact fact_alive h1
      · exact hc b hb e
    obtain ⟨es, v, k1, k2, k3, k4, k5⟩ := fits_act ha hr h h0 hI (hx x (by simp)) h1
    obtain ⟨es', w', j1, j2, j3, j4, j5⟩ := ih (fun b hb e => by rw [k3 b e]; exact hc b hb e) k2 (finv_act h0 hI h1)
      (fun x hx' => hx x (by simp [hx'])) h2
    exact ⟨es ++ es', w', wrun_append_some k1 j1, j2, fun b e => (j3 b e).trans (k3 b e), j4.trans k4, j5.trans k5⟩

/-- The same for all nodes. -/
theorem fits_all (h0 : ∀ a < nodes, ∀ t, GoodStart ((i a).mem t) ((i a).valid t)) (xs : Nat → List FAct) (f f' : Nat → FSys)
    (hI : ∀ a < nodes, FInv (cfg a) l (i a) (f a)) (hx : ∀ a < nodes, ∀ x ∈ xs a, x ≠ .t .tick)
    (hf : ∀ a < nodes, (f a).run (cfg a) l (xs a) = some (f' a)) (hc : ∀ a < nodes, (f' a).ts.sys.crashed = none)
    (h : ∀ a < nodes, Fits cfg w a (f a)) : ∀ n ≤ nodes, ∃ es w', w.run nodes cfg l es = some w' ∧
      (∀ a < nodes, Fits cfg w' a (if a < n then f' a else f a)) ∧ w'.left = w.left ∧ w'.now = w.now := by
  have alive : ∀ a < nodes, (f a).ts.sys.crashed = none := by
    intro a ha
    have := hf a ha
    cases hxs : xs a with
    | nil => rw [hxs] at this; injection this with e; rw [e]; exact hc a ha
    | cons x _ =>
      rw [hxs] at this
      simp only [FSys.run, Option.bind_eq_some_iff] at this
      obtain ⟨g, h1, -⟩ := this
      exact fact_alive h1
  intro n
  induction n with
  | zero => intro _; exact ⟨[], w, rfl, fun a ha => by rw [if_neg (by omega)]; exact h a ha, rfl, rfl⟩
  | succ n ih =>
    intro hn
    obtain ⟨es, v, k1, k2, k3, k4⟩ := ih (by omega)
    have k5 := k2 n (by omega)
    rw [if_neg (by omega)] at k5
    obtain ⟨es', w', j1, j2, j3, j4, j5⟩ := fits_run (nodes := nodes) (l := l) (i := i) (by omega : n < nodes) (h0 n (by omega)) (xs n)
      (fun b hb e => by
        rw [(k2 b hb).ts]
        split
        · exact hc b hb
        · exact alive b hb) k5 (hI n (by omega)) (hx n (by omega)) (hf n (by omega))
    refine ⟨es ++ es', w', wrun_append_some k1 j1, fun a ha => ?_, j4.trans k3, j5.trans k4⟩
    by_cases e : a = n
    · subst e
      rw [if_pos (by omega)]
      exact j2
    · have := k2 a ha
      unfold Fits at this ⊢
      rw [j3 a e, j4]
      by_cases hlt : a < n
      · rw [if_pos hlt] at this
        rw [if_pos (by omega)]
        exact this
      · rw [if_neg hlt] at this
        rw [if_neg (by omega)]
        exact this

/-- `Node.run` returns in all nodes where it can. -/
theorem leave_all (f : Nat → FSys) (hc : ∀ a < nodes, (f a).ts.sys.crashed = none) (h : ∀ a < nodes, Fits cfg w a (f a)) :
    ∀ n ≤ nodes, ∃ es w', w.run nodes cfg l es = some w' ∧ (∀ a < nodes, Fits cfg w' a (f a)) ∧ w'.now = w.now ∧
      ∀ a < n, (f a).tilesDone (cfg a) = true → (w'.left a).isSome = true := by
  intro n
  induction n with
  | zero => intro _; exact ⟨[], w, rfl, h, rfl, fun a ha => by omega⟩
  | succ n ih =>
    intro hn
    obtain ⟨es, v, k1, k2, k3, k4⟩ := ih (by omega)
    by_cases hd : (f n).tilesDone (cfg n) = true ∧ v.left n = none
    · obtain ⟨hd, hl⟩ := hd
      have hv : v.node n = f n := by
        rcases k2 n (by omega) with ⟨-, e⟩ | ⟨T, e, -⟩
        · exact e
        · rw [hl] at e; cases e
      have hr : v.raised nodes = false := raised_of fun a ha => by rw [(k2 a ha).ts]; exact hc a ha
      have ha : v.act nodes cfg l (.leave n) = some { v with left := upd v.left n (some v.now) } := by
        unfold Whole.act
        rw [if_neg (by rw [hr]; simp)]
        dsimp only
        rw [if_pos ⟨by omega, hl, by rw [hv]; exact hd⟩]
      refine ⟨es ++ [.leave n], { v with left := upd v.left n (some v.now) }, wrun_append_some k1 (by simp [Whole.run, ha]),
        fun a ha => ?_, k3, fun a ha he => ?_⟩
      · by_cases e : a = n
        · subst e
          exact .inr ⟨v.now, upd_same _ _ _, by show v.node a = _; rw [hv]; exact (watch_seen _).symm, hd⟩
        · have := k2 a ha
          unfold Fits at this ⊢
          have e1 : ({ v with left := upd v.left n (some v.now) } : Whole).left a = v.left a := upd_ne _ _ _ _ e
          rw [e1]
          exact this
      · show (upd v.left n (some v.now) a).isSome = true
        by_cases e : a = n
        · subst e; rw [upd_same]; rfl
        · rw [upd_ne _ _ _ _ e]; exact k4 a (by omega) he
    · refine ⟨es, v, k1, k2, k3, fun a ha he => ?_⟩
      by_cases e : a = n
      · subst e
        cases hl : v.left a with
        | none => exact absurd ⟨he, hl⟩ hd
        | some _ => rfl
      · exact k4 a (by omega) he

/-- Time passes in all nodes. -/
theorem fits_tick (f f' : Nat → FSys) (h : ∀ a < nodes, Fits cfg w a (f a)) (hc : ∀ a < nodes, (f a).ts.sys.crashed = none)
    (ht : ∀ a < nodes, (f a).act (cfg a) l (.t .tick) = some (f' a)) (hw : ∃ a < nodes, (f a).tilesDone (cfg a) = false) :
    ∃ es w', w.run nodes cfg l es = some w' ∧ (∀ a < nodes, Fits cfg w' a (f' a)) ∧ w'.now = w.now + 1 := by
  obtain ⟨es, v, k1, k2, k3, k4⟩ := leave_all (l := l) f hc h nodes le_rfl
  have hr : v.raised nodes = false := raised_of fun a ha => by rw [(k2 a ha).ts]; exact hc a ha
  have ho : v.over nodes = false := by
    obtain ⟨a, ha, hd⟩ := hw
    unfold Whole.over
    rw [List.all_eq_false]
    refine ⟨a, List.mem_range.2 ha, ?_⟩
    rcases k2 a ha with ⟨e, -⟩ | ⟨T, -, -, e⟩
    · rw [e]; simp
    · rw [hd] at e; cases e
  have hq : (List.range nodes).all (v.nodeQuiet cfg l) = true := by
    rw [List.all_eq_true]
    intro a ha
    rw [List.mem_range] at ha
    obtain ⟨h1, h2, -⟩ := (tick_iff (hc a ha) _).1 (ht a ha)
    unfold Whole.nodeQuiet
    rcases k2 a ha with ⟨e, e1⟩ | ⟨T, e, e1, -⟩
    · rw [e1, h1, h2]
      have : (f a).tilesDone (cfg a) = false := by
        cases hd : (f a).tilesDone (cfg a) with
        | false => rfl
        | true => have := k4 a ha hd; rw [e] at this; cases this
      rw [this]
      simp
    · rw [e, e1, still_watch, h1]
      simp
  have ha : v.act nodes cfg l .tick = some { v with node := fun a => if a < nodes then (v.node a).pass (cfg a) else v.node a, now := v.now + 1 } := by
    unfold Whole.act
    rw [if_neg (by rw [hr]; simp)]
    dsimp only
    rw [if_pos ⟨ho, hq⟩]
  refine ⟨es ++ [.tick], _, wrun_append_some k1 (by simp only [Whole.run, ha, Option.bind_some]; rfl), fun a hlt => ?_, by
    show v.now + 1 = _; rw [k3]⟩
  have e2 := ((tick_iff (hc a hlt) _).1 (ht a hlt)).2.2
  rcases k2 a hlt with ⟨e, e1⟩ | ⟨T, e, e1, e3⟩
  · refine .inl ⟨e, ?_⟩
    show (if a < nodes then (v.node a).pass (cfg a) else v.node a) = _
    rw [if_pos hlt, e1, e2]
  · refine .inr ⟨T, e, ?_, ?_⟩
    · show (if a < nodes then (v.node a).pass (cfg a) else v.node a) =
        (f' a).watch (if a < nodes then (v.node a).pass (cfg a) else v.node a).clk.seen
      rw [if_pos hlt, e2]
      conv_lhs => rw [e1]
      rfl
    · rw [e2]; exact e3

/-- The last tick of a run. -/
theorem last_tick {cfg : SysCfg} {f : FSys} (as : List FAct) : ∀ {f' : FSys}, f.run cfg l as = some f' → f.ts.now < f'.ts.now →
    ∃ pre g g' post, f.run cfg l pre = some g ∧ g.act cfg l (.t .tick) = some g' ∧ g'.run cfg l post = some f' ∧
      (∀ x ∈ post, x ≠ .t .tick) ∧ g'.ts.now = f'.ts.now := by
  induction as using List.reverseRecOn with
  | nil => intro f' h hlt; cases h; omega
  | append_singleton as x ih =>
    intro f' h hlt
    rw [frun_append, Option.bind_eq_some_iff] at h
    obtain ⟨u, h1, h2⟩ := h
    have h2 : u.act cfg l x = some f' := by simpa [FSys.run] using h2
    by_cases e : x = .t .tick
    · subst e
      exact ⟨as, u, f', [], h1, h2, rfl, by simp, rfl⟩
    · have hn := fact_now h2
      rw [if_neg e] at hn
      obtain ⟨pre, g, g', post, k1, k2, k3, k4, k5⟩ := ih h1 (by omega)
      refine ⟨pre, g, g', post ++ [x], k1, k2, frun_append_some k3 (by simp [FSys.run, h2]), ?_, by omega⟩
      intro y hy
      rcases List.mem_append.1 hy with hy | hy
      · exact k4 y hy
      · rw [List.mem_singleton.1 hy]; exact e

theorem no_tick {cfg : SysCfg} (as : List FAct) : ∀ {f f' : FSys}, f.run cfg l as = some f' → f'.ts.now = f.ts.now →
    ∀ x ∈ as, x ≠ .t .tick := by
  induction as with
  | nil => intro f f' _ _ x hx; cases hx
  | cons a as ih =>
    intro f f' h hn x hx
    simp only [FSys.run, Option.bind_eq_some_iff] at h
    obtain ⟨g, h1, h2⟩ := h
    have h3 := fact_now h1
    have h4 := frun_now h2
    by_cases e : a = .t .tick
    · rw [if_pos e] at h3; omega
    · rw [if_neg e] at h3
      rcases List.mem_cons.1 hx with rfl | hx
      · exact e
      · exact ih h2 (by omega) x hx

/-- Runs of all nodes to the same time can be put together, if not all of them have returned before. -/
theorem merge (h0 : ∀ a < nodes, ∀ t, GoodStart ((i a).mem t) ((i a).valid t)) : ∀ (T : Nat) (as : Nat → List FAct) (f : Nat → FSys),
    (∀ a < nodes, (i a).fstart.run (cfg a) l (as a) = some (f a) ∧ (f a).ts.now = T ∧ (f a).ts.sys.crashed = none) →
    (T = 0 ∨ ∃ a < nodes, ∃ t < (cfg a).net.tiles, (f a).active t = none ∨ (f a).active t = some T) →
    ∃ es w, (Whole.start i).run nodes cfg l es = some w ∧ (∀ a < nodes, Fits cfg w a (f a)) ∧ w.now = T := by
  intro T
  induction T with
  | zero =>
    intro as f hf _
    obtain ⟨es, w, h1, h2, -, h4⟩ := fits_all (w := Whole.start i) h0 as (fun a => (i a).fstart) f (fun a _ => finv_start)
      (fun a ha => no_tick _ (hf a ha).1 (by rw [(hf a ha).2.1]; rfl)) (fun a ha => (hf a ha).1) (fun a ha => (hf a ha).2.2)
      (fun a _ => .inl ⟨rfl, rfl⟩) nodes le_rfl
    exact ⟨es, w, h1, fun a ha => by have := h2 a ha; rwa [if_pos ha] at this, h4⟩
  | succ T ih =>
    intro as f hf hl
    have hsplit : ∀ a, ∃ pre g g' post, a < nodes → (i a).fstart.run (cfg a) l pre = some g ∧ g.act (cfg a) l (.t .tick) = some g' ∧
        g'.run (cfg a) l post = some (f a) ∧ (∀ x ∈ post, x ≠ .t .tick) ∧ g'.ts.now = (f a).ts.now := by
      intro a
      by_cases ha : a < nodes
      · obtain ⟨pre, g, g', post, h⟩ := last_tick (as a) (hf a ha).1 (by rw [(hf a ha).2.1]; exact Nat.succ_pos T)
        exact ⟨pre, g, g', post, fun _ => h⟩
      · exact ⟨[], f a, f a, [], fun h => absurd h ha⟩
    choose pre g g' post hs using hsplit
    have hg : ∀ a < nodes, (g a).ts.now = T := by
      intro a ha
      obtain ⟨-, h2, -, -, h5⟩ := hs a ha
      have := fact_now h2
      rw [if_pos rfl, h5, (hf a ha).2.1] at this
      omega
    have hInv : ∀ a < nodes, FInv (cfg a) l (i a) (g a) := fun a ha => finv_run (h0 a ha) _ finv_start (hs a ha).1
    have hw : ∃ a < nodes, ∃ t < (cfg a).net.tiles, (g a).active t = none := by
      obtain ⟨a, ha, t, ht, hact⟩ := hl.resolve_left (by omega)
      refine ⟨a, ha, t, ht, ?_⟩
      cases hgt : (g a).active t with
      | none => rfl
      | some c =>
        exfalso
        have h1 := active_keeps (h0 a ha) (as := .t .tick :: post a) (hInv a ha) (f' := f a) (by
          simp only [FSys.run, (hs a ha).2.1, Option.bind_some]
          exact (hs a ha).2.2.1) ht hgt
        have h2 := start_active_le (hs a ha).1 t c hgt
        rw [hg a ha] at h2
        rcases hact with e | e <;> rw [h1] at e
        · cases e
        · injection e with e; omega
    have hgc : ∀ a < nodes, (g a).ts.sys.crashed = none := fun a ha => fact_alive (hs a ha).2.1
    obtain ⟨es, w, k1, k2, k3⟩ := ih pre g (fun a ha => ⟨(hs a ha).1, hg a ha, hgc a ha⟩) (.inr (by
      obtain ⟨a, ha, t, ht, e⟩ := hw
      exact ⟨a, ha, t, ht, .inl e⟩))
    obtain ⟨es1, w1, j1, j2, j3⟩ := fits_tick g g' k2 hgc (fun a ha => (hs a ha).2.1) (by
      obtain ⟨a, ha, t, ht, e⟩ := hw
      refine ⟨a, ha, ?_⟩
      unfold FSys.tilesDone
      rw [List.all_eq_false]
      exact ⟨t, List.mem_range.2 ht, by rw [e]; simp⟩)
    obtain ⟨es2, w2, m1, m2, -, m4⟩ := fits_all (w := w1) h0 post g' f (fun a ha => finv_act (h0 a ha) (hInv a ha) (hs a ha).2.1)
      (fun a ha => (hs a ha).2.2.2.1) (fun a ha => (hs a ha).2.2.1) (fun a ha => (hf a ha).2.2) j2 nodes le_rfl
    refine ⟨es ++ (es1 ++ es2), w2, wrun_append_some k1 (wrun_append_some j1 m1), fun a ha => ?_, by omega⟩
    have := m2 a ha
    rwa [if_pos ha] at this

end Ramwich
