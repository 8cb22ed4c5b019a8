import Verif.Lemmas.ClockedWork

/-! # A test for the node with one clock being at rest -/
namespace Ramwich

open Spec Pipeline

section
variable {cfg : SysCfg} {l : StageLat} {i : SysInit}

/-- The pipelines cannot do anything at any later time. -/
structure TSys.PipesStill (cfg : SysCfg) (l : StageLat) (s : TSys) : Prop where
  acts : ∀ t k, cfg.hasCore t k = true → ∀ a, a ≠ .start 2 → a ≠ .finish 2 → (s.pipe t k).move isHlt 3 l.lat a = none
  stages : ∀ t k, cfg.hasCore t k = true → ∀ j, j < 2 → ∀ op, (s.pipe t k).st.ctl j ≠ .busy op
  halting : ∀ t k, cfg.hasCore t k = true → ((s.sys.tile t).core k).phase = .halting → ∀ op, (s.pipe t k).st.ctl 2 ≠ .busy op

theorem move_st {p p' : Timed CoreOp} {a : PAct} (h : p.move isHlt 3 l.lat a = none) (h2 : a ≠ .finish 2)
    (hb : ∀ j, j < 2 → ∀ op, p.st.ctl j ≠ .busy op) (hs : p'.st = p.st) : p'.move isHlt 3 l.lat a = none := by
  by_contra hne
  obtain ⟨q, hq⟩ := Option.ne_none_iff_exists'.1 hne
  cases a with
  | finish j =>
    simp only [Timed.move] at hq
    split at hq
    · rename_i hj
      unfold Timed.finish at hq
      split at hq
      · rename_i op hc
        rw [hs] at hc
        exact hb j (by have : j ≠ 2 := fun e => h2 (by rw [e]); omega) op hc
      · cases hq
    · cases hq
  | feedIn =>
    simp only [Timed.move, Timed.feedIn, hs] at h hq
    cases hf : p.st.feed with
    | nil => rw [hf] at hq; cases hq
    | cons op rest =>
      rw [hf] at h hq
      dsimp only at h hq
      split at hq
      · rename_i hc
        rw [if_pos hc] at h
        cases h
      · cases hq
  | take j =>
    simp only [Timed.move, Timed.take, hs] at h hq
    split at hq
    · rename_i hj
      rw [if_pos hj] at h
      split at hq
      · rename_i hc hbf
        rw [hc, hbf] at h
        cases h
      · cases hq
    · cases hq
  | start j =>
    simp only [Timed.move, Timed.start, hs] at h hq
    split at hq
    · rename_i hj
      rw [if_pos hj] at h
      split at hq
      · rename_i hc
        rw [hc] at h
        cases h
      · cases hq
    · cases hq
  | putIn j =>
    simp only [Timed.move, Timed.putIn, hs] at h hq
    split at hq
    · rename_i hj
      rw [if_pos hj] at h
      split at hq
      · rename_i hc
        rw [hc] at h
        dsimp only at h
        split at hq
        · rename_i hl
          rw [if_pos hl] at h
          cases h
        · cases hq
      · cases hq
    · cases hq
  | next j =>
    simp only [Timed.move, Timed.next, hs] at h hq
    split at hq
    · rename_i hj
      rw [if_pos hj] at h
      split at hq
      · rename_i hc
        rw [hc] at h
        dsimp only at h
        split at h <;> cases h
      · cases hq
    · cases hq
  | monitor =>
    simp only [Timed.move, Timed.monitor, hs] at h hq
    split at hq
    · rename_i hc
      rw [if_pos hc] at h
      cases h
    · cases hq
  | signal =>
    simp only [Timed.move, Timed.signal, hs] at h hq
    split at hq
    · rename_i hc
      rw [if_pos hc] at h
      cases h
    · cases hq
  | tick => cases hq

theorem PipesStill.later {f f' : FSys} {n : Nat} (h : f.ts.PipesStill cfg l) (hl : Later f f' n) : f'.ts.PipesStill cfg l := by
  refine ⟨fun t k hk a h1 h2 => ?_, fun t k hk j hj op => ?_, fun t k hk hp op => ?_⟩
  · exact move_st (h.acts t k hk a h1 h2) h2 (h.stages t k hk) (later_st hl t k)
  · rw [later_st hl]; exact h.stages t k hk j hj op
  · rw [later_st hl]; exact h.halting t k hk (by rw [← later_corePhase hl]; exact hp) op

/-- An action is one of the node without pipelines, or one of a pipeline, or the end of a `hlt` in the pipeline. -/
theorem plain_kind {s s' : TSys} {a : TAct} (h : TSI cfg l i s) (ha : s.act cfg l a = some s') (ht : a ≠ .tick) :
    (∃ b, (∀ t, b ≠ .ctrl t .tick) ∧ (s.plain i).run cfg [b] = some (s'.plain i)) ∨
    (∃ t k c p, cfg.hasCore t k = true ∧ c ≠ .start 2 ∧ c ≠ .finish 2 ∧ (s.pipe t k).move isHlt 3 l.lat c = some p) ∨
    (∃ t k op, cfg.hasCore t k = true ∧ ((s.sys.tile t).core k).phase = .halting ∧ (s.pipe t k).st.ctl 2 = .busy op) := by
  unfold TSys.act at ha
  split at ha
  · cases ha
  rename_i hc
  have hc : s.sys.crashed = none := by simpa using hc
  cases a with
  | tick => exact absurd rfl ht
  | pipe t k a =>
    dsimp only at ha
    split at ha
    · rename_i hk
      unfold TSys.pipeAct at ha
      split at ha
      · cases ha
      · cases ha
      · rename_i h1 h2
        rw [Option.map_eq_some_iff] at ha
        obtain ⟨p, hm, rfl⟩ := ha
        exact .inr (.inl ⟨t, k, a, p, hk, h1, h2, hm⟩)
    · cases ha
  | exec t k =>
    dsimp only at ha
    split at ha
    · rename_i hk
      unfold TSys.exec at ha
      split at ha
      · rename_i op p hg hp
        rw [Option.map_eq_some_iff] at ha
        obtain ⟨sys, hs, rfl⟩ := ha
        obtain ⟨hno, rest, hprog⟩ := next_op (h.tinv hk) hg
        obtain ⟨-, e2, -⟩ := start_two hg hp
        have hok := h.core hc t k hk
        have hready := hok.free fun op' ho => by rw [hg] at ho; cases ho
        rw [hno] at hready
        simp only [Bool.false_eq_true, if_false] at hready
        refine .inl ⟨.core t k, by simp, act_plain_core hc hk ?_⟩
        have hstep : (s.plain i).coreStep cfg t k = (s.plain i).coreStart cfg t k op rest := by
          unfold Sys.coreStep
          have h1 : (((s.plain i).tile t).core k).phase = .ready := hready
          have h2 : (((s.plain i).tile t).core k).prog = op :: rest := by
            show leftOf (i.prog t k) _ = _
            unfold leftOf
            rw [hno, hprog]
            simp
          simp only [h1, h2]
        rw [hstep, plain_eq, withProg_coreStart cfg _ s.sys hc, hs, Option.map_some]
        congr 1
        by_cases hcr : sys.crashed.isSome = true
        · rw [if_pos hcr, if_pos hcr]
          rfl
        · rw [if_neg hcr, if_neg hcr, plain_eq]
          rw [progs_upd2 i s (s.setPipe sys t k p (s.startDue cfg op)) t k p rfl, e2]
          show sys.withProg _ = sys.withProg _
          congr 2
          unfold leftOf
          rw [List.any_append, hno, hprog]
          cases op <;> simp [isHlt]
      · cases ha
    · cases ha
  | mid t k =>
    dsimp only at ha
    split at ha
    · rename_i hk
      unfold TSys.mid at ha
      split at ha
      · rename_i hph
        rw [Option.map_eq_some_iff] at ha
        obtain ⟨sys, hs, rfl⟩ := ha
        refine .inl ⟨.core t k, by simp, plain_core_run hc hk (by rw [hph]; simp) hs ?_ ?_⟩
        · split <;> rfl
        · split
          · rfl
          · exact progs_same i s _ t k _ rfl rfl
      · rename_i hph
        split at ha
        · rw [Option.map_eq_some_iff] at ha
          obtain ⟨sys, hs, rfl⟩ := ha
          refine .inl ⟨.core t k, by simp, plain_core_run hc hk (by rw [hph]; simp) hs ?_ ?_⟩
          · split <;> rfl
          · split
            · rfl
            · exact progs_same i s _ t k _ rfl rfl
        · cases ha
      · cases ha
    · cases ha
  | fin t k =>
    dsimp only at ha
    split at ha
    · rename_i hk
      unfold TSys.fin at ha
      have close : ∀ (sys : Sys) (p : Timed CoreOp), s.sys.coreStep cfg t k = some sys →
          ((s.sys.tile t).core k).phase ≠ .ready → (s.pipe t k).finish 3 2 = some p →
          (s.plain i).run cfg [.core t k] =
            some ((if sys.crashed.isSome then { s with sys := sys } else s.setPipe sys t k p none).plain i) := by
        intro sys p hs hr hp
        obtain ⟨op, -, -, e2, -⟩ := finish_two hp
        refine plain_core_run hc hk hr hs ?_ ?_
        · split <;> rfl
        · split
          · rfl
          · exact progs_same i s _ t k _ rfl e2
      split at ha
      · rename_i hph
        split at ha
        · split at ha
          · rename_i sys p hs hp
            cases ha
            exact .inl ⟨.core t k, by simp, close sys p hs (by rw [hph]; simp) hp⟩
          · cases ha
        · cases ha
      · rename_i hph
        split at ha
        · split at ha
          · rename_i sys p hs hp
            cases ha
            exact .inl ⟨.core t k, by simp, close sys p hs (by rw [hph]; simp) hp⟩
          · cases ha
        · cases ha
      · rename_i hph
        split at ha
        · rename_i sys p hs hp
          cases ha
          exact .inl ⟨.core t k, by simp, close sys p hs (by rw [hph]; simp) hp⟩
        · cases ha
      · rename_i hph
        split at ha
        · rw [Option.map_eq_some_iff] at ha
          obtain ⟨p, hp, rfl⟩ := ha
          obtain ⟨op, e1, -⟩ := finish_two hp
          exact .inr (.inr ⟨t, k, op, hk, hph, e1⟩)
        · cases ha
      · cases ha
    · cases ha
  | ret t k =>
    dsimp only at ha
    split at ha
    · rename_i hk
      unfold TSys.ret at ha
      split at ha
      · rename_i hph
        split at ha
        · rw [Option.map_eq_some_iff] at ha
          obtain ⟨sys, hs, rfl⟩ := ha
          exact .inl ⟨.core t k, by simp, plain_core_run hc hk (by rw [hph]; simp) hs rfl rfl⟩
        · cases ha
      · cases ha
    · cases ha
  | other a =>
    dsimp only at ha
    split at ha
    · cases ha
    · cases ha
    · rename_i h1 h2
      rw [Option.map_eq_some_iff] at ha
      obtain ⟨sys, hs, rfl⟩ := ha
      refine .inl ⟨a, fun t e => h2 t e, ?_⟩
      simp only [Sys.run, Option.bind_eq_some_iff]
      refine ⟨_, ?_, rfl⟩
      rw [plain_eq, withProg_act cfg _ s.sys a h1, hs]
      rfl

theorem atRest_run {s s' : Sys} (h : atRest cfg s) {as : List SysAct} (hr : s.run cfg as = some s') : atRest cfg s' := by
  intro bs u hu a ha
  exact h (as ++ bs) u (sys_run_append as hr hu) a (by simp [ha])

/-- If the node without clock is at rest and the pipelines are, the node is. -/
theorem rest_of_still (h0 : ∀ t, GoodStart (i.mem t) (i.valid t)) : ∀ (as : List FAct) {f f' : FSys}, FInv cfg l i f →
    atRest cfg (f.ts.plain i) → f.ts.PipesStill cfg l → f.run cfg l as = some f' → ∀ a ∈ as, idleAct a = true := by
  intro as
  induction as with
  | nil => intro f f' _ _ _ _ a ha; cases ha
  | cons b as ih =>
    intro f f' hI hr hp h a ha
    simp only [FSys.run, Option.bind_eq_some_iff] at h
    obtain ⟨g, h1, h2⟩ := h
    obtain ⟨hT, hV⟩ := hI.both h0
    have hc := fact_alive h1
    have key : idleAct b = true ∧ atRest cfg (g.ts.plain i) ∧ g.ts.PipesStill cfg l := by
      rcases fact_ts h1 with ⟨c, rfl, hts⟩ | ⟨hb, hts⟩
      · by_cases hct : c = .tick
        · subst hct
          obtain ⟨cs, hcs⟩ := plain_act hT (hV.alive hc).2 hts
          exact ⟨rfl, atRest_run hr hcs, PipesStill.later hp (later_tick h1)⟩
        · rcases plain_kind hT hts hct with ⟨x, hx, hrun⟩ | ⟨t, k, x, p, hk, g1, g2, g3⟩ | ⟨t, k, op, hk, g1, g2⟩
          · obtain ⟨t, e⟩ := hr [x] _ hrun x (by simp)
            exact absurd e (hx t)
          · rw [hp.acts t k hk x g1 g2] at g3
            cases g3
          · exact absurd g2 (hp.halting t k hk g1 op)
      · refine ⟨?_, by rw [hts]; exact hr, by rw [hts]; exact hp⟩
        cases b with
        | t c => exact absurd rfl (hb c)
        | _ => rfl
    rcases List.mem_cons.1 ha with rfl | ha
    · exact key.1
    · exact ih (finv_act h0 hI h1) key.2.1 key.2.2 h2 a ha

end
end Ramwich
