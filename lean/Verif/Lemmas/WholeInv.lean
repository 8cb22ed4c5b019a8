import Verif.Lemmas.WholeRun

/-! # All nodes of a simulator: every node is in a state that it can reach alone -/
namespace Ramwich

open Pipeline (upd upd_same upd_ne)
open Spec

section node
variable {cfg : SysCfg} {l : StageLat} {i : SysInit} {f f' : FSys}

theorem fact_now {a : FAct} (h : f.act cfg l a = some f') : f'.ts.now = if a = .t .tick then f.ts.now + 1 else f.ts.now := by
  have hc := fact_alive h
  by_cases e : a = .t .tick
  · subst e
    rw [((tick_iff hc f').1 h).2.2]
    rfl
  · rw [if_neg e]
    unfold FSys.act at h
    rw [if_neg (by rw [hc]; simp)] at h
    cases a with
    | monitor =>
      rw [Option.map_eq_some_iff] at h
      obtain ⟨k, -, rfl⟩ := h
      rfl
    | recheck j =>
      dsimp only at h
      split at h
      · rw [Option.map_eq_some_iff] at h
        obtain ⟨k, -, rfl⟩ := h
        rfl
      · cases h
    | t b =>
      cases b with
      | tick => exact absurd rfl e
      | other b =>
        obtain ⟨ts, k, h1, -, h3, -⟩ := other_cases h
        rw [h3]
        exact act_now h1 (by simp)
      | _ =>
        rw [Option.map_eq_some_iff] at h
        obtain ⟨ts, h1, rfl⟩ := h
        exact act_now h1 (by simp)

theorem frun_now {as : List FAct} : ∀ {f f' : FSys}, f.run cfg l as = some f' → f.ts.now ≤ f'.ts.now := by
  induction as with
  | nil => intro f f' h; cases h; exact le_rfl
  | cons a as ih =>
    intro f f' h
    simp only [FSys.run, Option.bind_eq_some_iff] at h
    obtain ⟨g, h1, h2⟩ := h
    have := ih h2
    rw [fact_now h1] at this
    split at this <;> omega

/-- What `Tile.run` has set stays as it is. -/
theorem active_stays (hI : FInv cfg l i f) {a : FAct} (ha : f.act cfg l a = some f') {t c : Nat} (ht : t < cfg.net.tiles)
    (h : f.active t = some c) : f'.active t = some c := by
  have hc := fact_alive ha
  have hready : (f.ts.sys.tile t).phase.isReady = true := by
    have h1 : f.active t = _ := (hI.tile hc t ht).active
    rw [h] at h1
    split at h1
    · rename_i hh
      rw [Bool.and_eq_true] at hh
      exact hh.1
    · cases h1
  unfold FSys.act at ha
  rw [if_neg (by rw [hc]; simp)] at ha
  cases a with
  | recheck j =>
    dsimp only at ha
    split at ha
    · rw [Option.map_eq_some_iff] at ha
      obtain ⟨k, -, rfl⟩ := ha
      exact h
    · cases ha
  | monitor =>
    dsimp only at ha
    rw [Option.map_eq_some_iff] at ha
    obtain ⟨k, -, rfl⟩ := ha
    exact h
  | t b =>
    dsimp only at ha
    split at ha
    · split at ha
      · rw [Option.map_eq_some_iff] at ha
        obtain ⟨k, -, rfl⟩ := ha
        exact h
      · cases ha
    · obtain ⟨ts, k, h1, -, -, h4⟩ := other_cases ha
      rcases h4 with ⟨-, rfl⟩ | ⟨-, -, h4⟩
      · exact h
      rcases h4 with ⟨u, rfl, rfl⟩ | ⟨-, rfl⟩
      · by_cases e : t = u
        · subst e
          unfold FSys.mark
          rw [hready]
          split
          · exact h
          · rename_i e1 _; cases e1
          · exact h
        · unfold FSys.mark
          split
          · exact h
          · dsimp only
            split
            · rw [upd_ne _ _ _ _ e]; exact h
            · exact h
          · exact h
      · exact h
    · rw [Option.map_eq_some_iff] at ha
      obtain ⟨ts, -, rfl⟩ := ha
      exact h

theorem active_keeps (h0 : ∀ t, GoodStart (i.mem t) (i.valid t)) {as : List FAct} : ∀ {f f' : FSys}, FInv cfg l i f →
    f.run cfg l as = some f' → ∀ {t c : Nat}, t < cfg.net.tiles → f.active t = some c → f'.active t = some c := by
  induction as with
  | nil => intro f f' _ h t c _ hc; cases h; exact hc
  | cons a as ih =>
    intro f f' hI h t c ht hc
    simp only [FSys.run, Option.bind_eq_some_iff] at h
    obtain ⟨g, h1, h2⟩ := h
    exact ih (finv_act h0 hI h1) h2 ht (active_stays hI h1 ht hc)

theorem tilesDone_keeps (h0 : ∀ t, GoodStart (i.mem t) (i.valid t)) {as : List FAct} (hI : FInv cfg l i f)
    (h : f.run cfg l as = some f') (hd : f.tilesDone cfg = true) : f'.tilesDone cfg = true := by
  unfold FSys.tilesDone at *
  rw [List.all_eq_true] at *
  intro t ht
  obtain ⟨c, hc⟩ := Option.isSome_iff_exists.1 (hd t ht)
  rw [active_keeps h0 hI h (List.mem_range.1 ht) hc]
  rfl

theorem active_le {as : List FAct} : ∀ {f f' : FSys}, (∀ t c, f.active t = some c → c ≤ f.ts.now) →
    f.run cfg l as = some f' → ∀ t c, f'.active t = some c → c ≤ f'.ts.now := by
  induction as with
  | nil => intro f f' h hr; cases hr; exact h
  | cons a as ih =>
    intro f f' h hr
    simp only [FSys.run, Option.bind_eq_some_iff] at hr
    obtain ⟨g, h1, h2⟩ := hr
    refine ih (fun t c hc => ?_) h2
    have := fact_now h1
    have hn : f.ts.now ≤ g.ts.now := by rw [this]; split <;> omega
    rcases active_act h1 hc with h3 | ⟨-, rfl⟩
    · exact (h t c h3).trans hn
    · exact hn

theorem start_active_le {as : List FAct} (h : i.fstart.run cfg l as = some f) : ∀ t c, f.active t = some c → c ≤ f.ts.now := by
  refine active_le (fun t c hc => ?_) h
  have : i.fstart.active t = if (i.ops t).isEmpty then some 0 else none := rfl
  rw [this] at hc
  split at hc
  · injection hc with e; omega
  · cases hc

end node

/-- How a node stands in the whole: it was alone in `g` when `Node.run` returned, and has come from there to `f`. -/
def leftAt (cfg : SysCfg) (l : StageLat) (i : SysInit) (f : FSys) (T n : Nat) : Prop :=
  ∃ as g bs h, n ≤ as.length + bs.length ∧ i.fstart.run cfg l as = some g ∧ g.tilesDone cfg = true ∧ g.ts.now = T ∧
    (T = 0 ∨ ∃ t < cfg.net.tiles, g.active t = some T) ∧ g.run cfg l bs = some h ∧ f = h.watch g.clk.seen

structure NodeOk (cfg : SysCfg) (l : StageLat) (i : SysInit) (f : FSys) (left : Option Nat) (now n : Nat) : Prop where
  clock : f.ts.now = now
  waits : left = none → (∃ as, n ≤ as.length ∧ i.fstart.run cfg l as = some f) ∧
    (now = 0 ∨ ∃ t < cfg.net.tiles, f.active t = none ∨ f.active t = some now)
  gone : ∀ T, left = some T → leftAt cfg l i f T n

/-- The event is one of a process of node `a`. -/
def WAct.of (a : Nat) : WAct → Bool
  | .node b _ => decide (b = a)
  | _ => false

structure WInv (nodes : Nat) (cfg : Nat → SysCfg) (l : StageLat) (i : Nat → SysInit) (w : Whole) (n : Nat → Nat) : Prop where
  node : ∀ a < nodes, NodeOk (cfg a) l (i a) (w.node a) (w.left a) w.now (n a)
  last : w.now = 0 ∨ ∃ a < nodes, w.left a = none ∨ w.left a = some w.now

section
variable {nodes : Nat} {cfg : Nat → SysCfg} {l : StageLat} {i : Nat → SysInit} {w w' : Whole}

theorem winv_start : WInv nodes cfg l i (Whole.start i) fun _ => 0 :=
  ⟨fun a _ => ⟨rfl, fun _ => ⟨⟨[], le_rfl, rfl⟩, .inl rfl⟩, fun T h => nomatch h⟩, .inl rfl⟩

theorem alive_of (h : w.raised nodes = false) {a : Nat} (ha : a < nodes) : (w.node a).ts.sys.crashed = none := by
  unfold Whole.raised at h
  rw [List.any_eq_false] at h
  simpa using h a (List.mem_range.2 ha)

/-- An action of a node other than the passing of time. -/
theorem nodeOk_act {cfg : SysCfg} {i : SysInit} {f f' : FSys} {left : Option Nat} {now n : Nat} {x : FAct}
    (h0 : ∀ t, GoodStart (i.mem t) (i.valid t)) (h : NodeOk cfg l i f left now n) (hx : x ≠ .t .tick)
    (hm : x = .monitor → left = none) (hf : f.act cfg l x = some f') : NodeOk cfg l i f' left now (n + 1) := by
  have hn := fact_now hf
  rw [if_neg hx, h.clock] at hn
  refine ⟨hn, fun e => ?_, fun T e => ?_⟩
  · obtain ⟨⟨as, hn, h1⟩, h2⟩ := h.waits e
    refine ⟨⟨as ++ [x], by rw [List.length_append, List.length_singleton]; omega, frun_append_some h1 (by simp [FSys.run, hf])⟩, h2.imp_right ?_⟩
    rintro ⟨t, ht, h3⟩
    refine ⟨t, ht, ?_⟩
    rcases h3 with h3 | h3
    · cases h4 : f'.active t with
      | none => exact .inl rfl
      | some c =>
        rcases active_act hf h4 with h5 | ⟨-, h5⟩
        · rw [h3] at h5; cases h5
        · rw [h5, h.clock]; exact .inr rfl
    · exact .inr (active_stays (finv_run h0 as finv_start h1) hf ht h3)
  · obtain ⟨as, g, bs, y, hn, h1, h2, h3, h4, h5, rfl⟩ := h.gone T e
    have hx' : x ≠ .monitor := fun e' => by rw [hm e'] at e; cases e
    rw [act_watch hx' hx, Option.map_eq_some_iff] at hf
    obtain ⟨y', h6, rfl⟩ := hf
    exact ⟨as, g, bs ++ [x], y', by rw [List.length_append, List.length_singleton]; omega, h1, h2, h3, h4, frun_append_some h5 (by simp [FSys.run, h6]), rfl⟩

theorem nodeOk_tick {a n : Nat} (h : NodeOk (cfg a) l (i a) (w.node a) (w.left a) w.now n)
    (hc : (w.node a).ts.sys.crashed = none) (hq : w.nodeQuiet cfg l a = true) :
    NodeOk (cfg a) l (i a) ((w.node a).pass (cfg a)) (w.left a) (w.now + 1) n := by
  unfold Whole.nodeQuiet at hq
  rw [Bool.and_eq_true] at hq
  refine ⟨by show (w.node a).ts.now + 1 = _; rw [h.clock], fun e => ?_, fun T e => ?_⟩
  · have h2 := hq.2
    rw [e] at h2
    simp only [Option.isSome_none, Bool.false_or, Bool.and_eq_true, Bool.not_eq_true'] at h2
    obtain ⟨⟨as, hn, h1⟩, -⟩ := h.waits e
    refine ⟨⟨as ++ [.t .tick], by rw [List.length_append]; omega, frun_append_some h1 ?_⟩, .inr ?_⟩
    · simp only [FSys.run, (tick_iff hc _).2 ⟨hq.1, Option.isNone_iff_eq_none.1 h2.2, rfl⟩, Option.bind_some]
    · have h3 := h2.1
      unfold FSys.tilesDone at h3
      rw [List.all_eq_false] at h3
      obtain ⟨t, ht, h4⟩ := h3
      exact ⟨t, List.mem_range.1 ht, .inl (by show (w.node a).active t = none; simpa using h4)⟩
  · obtain ⟨as, g, bs, y, hn, h1, h2, h3, h4, h5, h6⟩ := h.gone T e
    rw [h6] at hq hc
    have hcy : y.ts.sys.crashed = none := hc
    obtain ⟨cs, m, h7, h8, -⟩ := watched (cfg := cfg a) (l := l) hcy
    have hs : (y.watch m).still (cfg a) l = true := by
      have := hq.1
      rwa [still_watch] at this ⊢
    have h9 : (y.watch m).act (cfg a) l (.t .tick) = some ((y.watch m).pass (cfg a)) :=
      (tick_iff (f := y.watch m) hcy _).2 ⟨hs, h8, rfl⟩
    refine ⟨as, g, bs ++ (cs ++ [.t .tick]), (y.watch m).pass (cfg a), by rw [List.length_append]; omega, h1, h2, h3, h4,
      frun_append_some h5 (frun_append_some h7 (by simp [FSys.run, h9])), ?_⟩
    rw [h6, pass_watch, pass_watch, watch_watch]

theorem winv_act (h0 : ∀ a < nodes, ∀ t, GoodStart ((i a).mem t) ((i a).valid t)) {e : WAct} {n : Nat → Nat}
    (h : WInv nodes cfg l i w n) (ha : w.act nodes cfg l e = some w') :
    WInv nodes cfg l i w' fun a => n a + if e.of a then 1 else 0 := by
  unfold Whole.act at ha
  split at ha
  · cases ha
  rename_i hr
  have hr : w.raised nodes = false := by simpa using hr
  have upn : ∀ {a : Nat} {f' : FSys} {x : FAct}, a < nodes → x ≠ .t .tick → (x = .monitor → w.left a = none) →
      (w.node a).act (cfg a) l x = some f' →
      WInv nodes cfg l i { w with node := upd w.node a f' } fun b => n b + if (WAct.node a x).of b then 1 else 0 := by
    intro a f' x hlt hx hm hf
    refine ⟨fun b hb => ?_, h.last⟩
    by_cases e : b = a
    · subst e
      show NodeOk _ _ _ (upd w.node b f' b) _ _ (n b + if decide (b = b) then 1 else 0)
      rw [upd_same, decide_eq_true rfl, if_pos rfl]
      exact nodeOk_act (h0 b hb) (h.node b hb) hx hm hf
    · show NodeOk _ _ _ (upd w.node a f' b) _ _ (n b + if decide (a = b) then 1 else 0)
      rw [upd_ne _ _ _ _ e, decide_eq_false (fun h => e h.symm), if_neg (by simp)]
      exact h.node b hb
  cases e with
  | node a x =>
    dsimp only at ha
    split at ha
    · rename_i hlt
      split at ha
      · cases ha
      · split at ha
        · cases ha
        · rename_i hl
          rw [Option.map_eq_some_iff] at ha
          obtain ⟨f', h1, rfl⟩ := ha
          exact upn hlt (by simp) (fun _ => by simpa using hl) h1
      · rename_i hx1 hx2
        rw [Option.map_eq_some_iff] at ha
        obtain ⟨f', h1, rfl⟩ := ha
        exact upn hlt hx1 (fun e => absurd e hx2) h1
    · cases ha
  | leave a =>
    dsimp only at ha
    split at ha
    · rename_i hh
      obtain ⟨h1, h2, h3⟩ := hh
      injection ha with ha
      subst ha
      refine ⟨fun b hb => ?_, ?_⟩
      · by_cases e : b = a
        · subst e
          show NodeOk _ _ _ _ (upd w.left b (some w.now) b) _ _
          rw [upd_same]
          have hn := h.node b hb
          refine ⟨hn.clock, nofun, fun T hT => ?_⟩
          injection hT with hT
          subst hT
          obtain ⟨⟨as, g0, g1⟩, g2⟩ := hn.waits h2
          refine ⟨as, w.node b, [], w.node b, g0, g1, h3, hn.clock, g2.imp_right ?_, rfl, (watch_seen _).symm⟩
          rintro ⟨t, ht, g3⟩
          refine ⟨t, ht, g3.resolve_left fun g4 => ?_⟩
          unfold FSys.tilesDone at h3
          rw [List.all_eq_true] at h3
          have := h3 t (List.mem_range.2 ht)
          rw [g4] at this
          cases this
        · show NodeOk _ _ _ _ (upd w.left a (some w.now) b) _ _
          rw [upd_ne _ _ _ _ e]
          exact h.node b hb
      · refine h.last.imp_right ?_
        rintro ⟨b, hb, hl⟩
        refine ⟨b, hb, ?_⟩
        show upd w.left a (some w.now) b = none ∨ upd w.left a (some w.now) b = some w.now
        by_cases e : b = a
        · subst e; rw [upd_same]; exact .inr rfl
        · rw [upd_ne _ _ _ _ e]; exact hl
    · cases ha
  | tick =>
    dsimp only at ha
    split at ha
    · rename_i hh
      obtain ⟨h1, h2⟩ := hh
      injection ha with ha
      subst ha
      refine ⟨fun b hb => ?_, .inr ?_⟩
      · show NodeOk _ _ _ (if b < nodes then (w.node b).pass (cfg b) else w.node b) _ _ _
        rw [if_pos hb]
        rw [List.all_eq_true] at h2
        exact nodeOk_tick (h.node b hb) (alive_of hr hb) (h2 b (List.mem_range.2 hb))
      · unfold Whole.over at h1
        rw [List.all_eq_false] at h1
        obtain ⟨b, hb, h3⟩ := h1
        exact ⟨b, List.mem_range.1 hb, .inl (by simpa using h3)⟩
    · cases ha

theorem winv_run (h0 : ∀ a < nodes, ∀ t, GoodStart ((i a).mem t) ((i a).valid t)) : ∀ (es : List WAct) {w w' : Whole}
    {n : Nat → Nat}, WInv nodes cfg l i w n → w.run nodes cfg l es = some w' →
    WInv nodes cfg l i w' fun a => n a + (es.filter (WAct.of a)).length := by
  intro es
  induction es with
  | nil => intro w w' n h hr; cases hr; exact h
  | cons e es ih =>
    intro w w' n h hr
    simp only [Whole.run, Option.bind_eq_some_iff] at hr
    obtain ⟨v, h1, h2⟩ := hr
    have := ih (winv_act h0 h h1) h2
    have e1 : (fun a => n a + ((e :: es).filter (WAct.of a)).length) =
        fun a => n a + (if e.of a then 1 else 0) + (es.filter (WAct.of a)).length := by
      funext a
      rw [List.filter_cons]
      split
      · rw [List.length_cons]; omega
      · omega
    rw [e1]
    exact this

theorem wrun_append (es es' : List WAct) : ∀ {w : Whole},
    w.run nodes cfg l (es ++ es') = (w.run nodes cfg l es).bind fun v => v.run nodes cfg l es' := by
  induction es with
  | nil => intro w; rfl
  | cons e es ih =>
    intro w
    simp only [List.cons_append, Whole.run]
    cases w.act nodes cfg l e with
    | none => rfl
    | some v => exact ih

theorem wrun_append_some {es es' : List WAct} {w w' w'' : Whole} (h : w.run nodes cfg l es = some w')
    (h' : w'.run nodes cfg l es' = some w'') : w.run nodes cfg l (es ++ es') = some w'' := by
  rw [wrun_append, h]; exact h'

end
end Ramwich
