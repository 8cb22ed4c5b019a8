import Verif.Lemmas.ClockedDead
import Verif.Lemmas.ClockedTimes

/-! # The node with one clock: bounds -/
namespace Ramwich

open Spec Pipeline

section
variable {cfg : SysCfg} {l : StageLat} {i : SysInit}

theorem work_start (cfg : SysCfg) (i : SysInit) : i.tstart.work cfg i = clockedWork cfg i := by
  unfold TSys.work clockedWork
  rw [plain_start, sysWork_start]
  congr 1
  unfold TSys.pipeWork
  congr 1
  refine List.map_congr_left fun t _ => ?_
  congr 1
  refine List.map_congr_left fun k _ => ?_
  simp [SysInit.tstart, Timed.init, Pipeline.init, weight, Ctl.weight]
  omega

theorem frun_snoc {b : FAct} {f' : FSys} : ∀ (bs : List FAct) {f : FSys}, f.run cfg l (bs ++ [b]) = some f' →
    ∃ g, f.run cfg l bs = some g ∧ g.act cfg l b = some f' := by
  intro bs f h
  rw [frun_append, Option.bind_eq_some_iff] at h
  obtain ⟨g, h1, h2⟩ := h
  refine ⟨g, h1, ?_⟩
  simp only [FSys.run, Option.bind_eq_some_iff] at h2
  obtain ⟨u, h3, h4⟩ := h2
  injection h4 with h4
  rw [← h4]
  exact h3

theorem frun_bounded (h0 : ∀ t, GoodStart (i.mem t) (i.valid t)) {as : List FAct} {f : FSys}
    (hrun : i.fstart.run cfg l as = some f) :
    (as.filter fun a => !idleAct a).length ≤ clockedWork cfg i + if f.ts.sys.crashed = none then 0 else 1 := by
  have alive : ∀ bs g, i.fstart.run cfg l bs = some g → g.ts.sys.crashed = none →
      (bs.filter fun a => !idleAct a).length ≤ clockedWork cfg i := by
    intro bs g h hn
    have := frun_work h0 bs finv_start h hn
    rw [show i.fstart.ts = i.tstart from rfl, work_start] at this
    omega
  by_cases hn : f.ts.sys.crashed = none
  · rw [if_pos hn]; exact alive as f hrun hn
  · rw [if_neg hn]
    rcases List.eq_nil_or_concat as with rfl | ⟨bs, b, rfl⟩
    · simp
    · rw [List.concat_eq_append] at hrun ⊢
      obtain ⟨g, h1, h2⟩ := frun_snoc bs hrun
      have h4 := alive bs g h1 (fact_alive h2)
      rw [List.filter_append, List.length_append]
      have h5 : ([b].filter fun a => !idleAct a).length ≤ 1 := List.length_filter_le _ _
      omega

theorem act_now {s s' : TSys} {a : TAct} (h : s.act cfg l a = some s') (ha : a ≠ .tick) : s'.now = s.now := by
  unfold TSys.act at h
  split at h
  · cases h
  have live : ∀ {x : TSys} {sys : Sys}, x.now = s.now →
      (if sys.crashed.isSome then { s with sys := sys } else x).now = s.now := by
    intro x sys hx
    split
    · rfl
    · exact hx
  cases a with
  | tick => exact absurd rfl ha
  | pipe t k a =>
    dsimp only at h
    split at h
    · unfold TSys.pipeAct at h
      split at h
      · cases h
      · cases h
      · rw [Option.map_eq_some_iff] at h
        obtain ⟨p, -, rfl⟩ := h
        rfl
    · cases h
  | exec t k =>
    dsimp only at h
    split at h
    · unfold TSys.exec at h
      split at h
      · rw [Option.map_eq_some_iff] at h
        obtain ⟨sys, -, rfl⟩ := h
        exact live rfl
      · cases h
    · cases h
  | mid t k =>
    dsimp only at h
    split at h
    · unfold TSys.mid at h
      split at h
      · rw [Option.map_eq_some_iff] at h
        obtain ⟨sys, -, rfl⟩ := h
        exact live rfl
      · split at h
        · rw [Option.map_eq_some_iff] at h
          obtain ⟨sys, -, rfl⟩ := h
          exact live rfl
        · cases h
      · cases h
    · cases h
  | fin t k =>
    dsimp only at h
    split at h
    · unfold TSys.fin at h
      split at h
      · split at h
        · split at h
          · injection h with h
            rw [← h]
            exact live rfl
          · cases h
        · cases h
      · split at h
        · split at h
          · injection h with h
            rw [← h]
            exact live rfl
          · cases h
        · cases h
      · split at h
        · injection h with h
          rw [← h]
          exact live rfl
        · cases h
      · split at h
        · rw [Option.map_eq_some_iff] at h
          obtain ⟨p, -, rfl⟩ := h
          rfl
        · cases h
      · cases h
    · cases h
  | ret t k =>
    dsimp only at h
    split at h
    · unfold TSys.ret at h
      split at h
      · split at h
        · rw [Option.map_eq_some_iff] at h
          obtain ⟨p, -, rfl⟩ := h
          rfl
        · cases h
      · cases h
    · cases h
  | other b =>
    dsimp only at h
    split at h
    · cases h
    · cases h
    · rw [Option.map_eq_some_iff] at h
      obtain ⟨p, -, rfl⟩ := h
      rfl

theorem polls_le (f : FSys) : f.polls cfg ≤ cfg.net.tiles + 1 := by
  unfold FSys.polls
  have : ((List.range cfg.net.tiles).filter fun t => f.clk.check t = f.ts.now).length ≤ cfg.net.tiles :=
    (List.length_filter_le _ _).trans (by rw [List.length_range])
  split <;> omega

/-- Looking again is bounded by what else happens. -/
theorem frun_length (as : List FAct) : ∀ {f f' : FSys}, f.run cfg l as = some f' →
    as.length + (cfg.net.tiles + 2) * f.ts.now ≤
      (cfg.net.tiles + 2) * ((as.filter fun a => !idleAct a).length + f'.ts.now) + f.polls cfg := by
  induction as with
  | nil => intro f f' h; injection h with h; subst h; simp
  | cons a as ih =>
    intro f f' h
    simp only [FSys.run, Option.bind_eq_some_iff] at h
    obtain ⟨g, h1, h2⟩ := h
    have e := ih h2
    have hp := polls_le (cfg := cfg) g
    rw [Nat.mul_add] at e ⊢
    cases hid : idleAct a with
    | true =>
      rw [List.filter_cons, hid]
      simp only [Bool.not_true, Bool.false_eq_true, if_false, List.length_cons]
      by_cases ht : a = .t .tick
      · subst ht
        rw [(later_tick h1).now, Nat.mul_add] at e
        omega
      · obtain ⟨g1, g2⟩ := later_poll h1 hid ht
        rw [g1.now] at e
        simp only [Nat.add_zero] at e
        omega
    | false =>
      rw [List.filter_cons, hid]
      simp only [Bool.not_false, if_true, List.length_cons]
      have hnow : g.ts.now = f.ts.now := by
        rcases fact_ts h1 with ⟨b, rfl, hts⟩ | ⟨hb, hts⟩
        · exact act_now hts (by rintro rfl; cases hid)
        · rw [hts]
      rw [hnow] at e
      rw [Nat.mul_add]
      omega

/-- Executed to the end. -/
theorem finished_plain {s : TSys} (h : s.finished cfg i) : finished cfg (s.plain i) := by
  obtain ⟨h1, h2⟩ := h
  refine ⟨h1, fun t ht => ⟨(h2 t ht).1, (h2 t ht).2.1, fun k hk => ?_⟩⟩
  rcases (h2 t ht).2.2 k hk with h3 | ⟨h3, h4⟩
  · exact Or.inl h3
  · refine Or.inr ⟨h3, ?_⟩
    change leftOf _ _ = []
    unfold leftOf
    rw [h4]
    simp

theorem finished_of_plain {s : TSys} (hI : TSI cfg l i s) (h : finished cfg (s.plain i)) : s.finished cfg i := by
  obtain ⟨h1, h2⟩ := h
  refine ⟨h1, fun t ht => ⟨(h2 t ht).1, (h2 t ht).2.1, fun k hk => ?_⟩⟩
  have hhk : cfg.hasCore t k = true := by simp [SysCfg.hasCore, ht, hk]
  rcases (h2 t ht).2.2 k hk with h3 | ⟨h3, h4⟩
  · exact Or.inl h3
  · have h3 : ((s.sys.tile t).core k).phase = .ready := h3
    refine Or.inr ⟨h3, ?_⟩
    have hok := hI.core h1 t k hhk
    have hfree : ∀ op, (s.pipe t k).st.ctl 2 ≠ .busy op := by
      intro op hb
      have := hok.busy op hb
      unfold Running at this
      rw [h3] at this
      split at this
      · rcases this with ⟨_, _, _, h, _⟩ | ⟨_, _, _, h, _⟩ <;> cases h
      · rcases this with ⟨_, _, h, _⟩ | ⟨_, _, _, h, _⟩ <;> cases h
      · have := this.1
        split at this <;> cases this
    have hno := hok.free hfree
    have h4 : leftOf (i.prog t k) ((s.pipe t k).st.accepted 2) = [] := h4
    by_cases hh : ((s.pipe t k).st.accepted 2).any isHlt = true
    · rw [if_pos hh, h3] at hno
      rcases hno with h | h <;> cases h
    · unfold leftOf at h4
      rw [if_neg hh] at h4
      obtain ⟨r, hr⟩ := (hI.tinv hhk).inv.prefix_prog (i := 2) (by omega)
      rw [← hr] at h4 ⊢
      simp only [List.drop_left] at h4
      rw [h4]
      simp

end
end Ramwich
