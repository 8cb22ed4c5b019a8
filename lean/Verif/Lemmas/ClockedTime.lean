import Verif.Lemmas.ClockedLeftTick

/-! # The time that a simulation takes -/
namespace Ramwich

open Spec Pipeline

section
variable {cfg : SysCfg} {l : StageLat} {i : SysInit} {f f' : FSys}

theorem act_left {a : FAct} (h0 : ∀ t, GoodStart (i.mem t) (i.valid t)) (h : FInv cfg l i f)
    (ha : f.act cfg l a = some f') (hn : f'.ts.sys.crashed = none) (ht : a ≠ .t .tick) :
    f'.left cfg l i ≤ f.left cfg l i := by
  by_cases hb : ∃ b, a = .t b
  swap
  · exact poll_left ha fun b e => hb ⟨b, e⟩
  obtain ⟨b, rfl⟩ := hb
  have hc := fact_alive ha
  have hI := (h.both h0).1
  unfold FSys.act at ha
  rw [if_neg (by rw [hc]; simp)] at ha
  dsimp only at ha
  split at ha
  · exact absurd rfl ht
  · rename_i b
    cases b with
    | ctrl t a => exact ctrl_left h0 h ha hn
    | thread t => exact thread_left h ha hn
    | take t => exact take_left ha hn
    | tile t => exact tileProc_left h ha hn
    | core t k =>
      obtain ⟨ts, k, h1, -⟩ := other_cases ha
      exact absurd rfl ((tsAct_other h1).2.1 _ _)
  · rename_i h1 h2
    rw [Option.map_eq_some_iff] at ha
    obtain ⟨ts, hts, rfl⟩ := ha
    exact coreAct_left hI hts h1 (fun b e => h2 b e) hn

theorem left_start : i.fstart.left cfg l i = programCycles cfg l i := by
  unfold FSys.left programCycles
  congr 1
  refine List.map_congr_left fun t _ => ?_
  unfold FSys.tileLeft
  have e1 : ctrlLeft cfg.edramLat (i.fstart.ts.sys.tile t).ctrl = 0 := rfl
  have e2 : procLeft cfg (i.fstart.ts.sys.tile t).phase = 0 := rfl
  have e3 : ((i.fstart.clk.adds t).map fun d => d - i.fstart.ts.now).sum = 0 := rfl
  have e4 : (i.fstart.ts.sys.net.queue t).length = 0 := rfl
  have e5 : senderLeft cfg.net.lat i.fstart.ts.now (i.fstart.ts.sys.net.sender t) (i.fstart.clk.flight t) = 0 := rfl
  have e6 : stopLeft i.fstart.ts.now (i.fstart.ts.sys.net.stopper t) (i.fstart.ts.sys.net.queue t) (i.fstart.clk.check t) = 0 := rfl
  have e7 : (i.fstart.ts.sys.tile t).ops = i.ops t := rfl
  rw [e1, e2, e3, e4, e5, e6, e7]
  have : ∀ k, coreLeft cfg l (i.prog t k) (i.fstart.ts.pipe t k) ((i.fstart.ts.sys.tile t).core k).phase (i.fstart.ts.due t k) =
      ((upToHlt (i.prog t k)).map fun op => l.fetch + l.decode + coreOpCycles cfg op).sum := by
    intro k
    have a1 : ∀ j, toStart (i.prog t k) (i.fstart.ts.pipe t k) j = upToHlt (i.prog t k) := fun _ => rfl
    have a2 : ∀ j, stageRem (i.fstart.ts.pipe t k) j = 0 := fun _ => rfl
    have a3 : phaseLeft cfg (i.fstart.ts.pipe t k).now ((i.fstart.ts.sys.tile t).core k).phase (i.fstart.ts.due t k) = 0 := rfl
    unfold coreLeft
    rw [a1, a1, a1, a2, a2, a3]
    generalize upToHlt (i.prog t k) = ops
    induction ops with
    | nil => simp
    | cons op ops ih =>
      simp only [List.length_cons, List.map_cons, List.sum_cons, Nat.succ_mul] at ih ⊢
      omega
  simp only [this]
  omega

theorem crashed_rest (hc : f.ts.sys.crashed ≠ none) : clockedRest cfg l f := by
  intro as f' hr a ha
  cases as with
  | nil => cases ha
  | cons b as =>
    simp only [FSys.run, Option.bind_eq_some_iff] at hr
    obtain ⟨g, h1, -⟩ := hr
    exact absurd (fact_alive h1) hc

/-- The time that has passed and the time that is still needed are together not more than the bound, or nothing will
happen any more. -/
theorem time_act {a : FAct} {n : Nat} (h0 : ∀ t, GoodStart (i.mem t) (i.valid t)) (h : FInv cfg l i f)
    (ha : f.act cfg l a = some f') (ht : clockedRest cfg l f ∨ f.ts.now + f.left cfg l i ≤ n) :
    clockedRest cfg l f' ∨ f'.ts.now + f'.left cfg l i ≤ n := by
  have hrun : f.run cfg l [a] = some f' := by simp [FSys.run, ha]
  rcases ht with ht | ht
  · exact .inl (rest_run ht hrun)
  by_cases hc : f'.ts.sys.crashed = none
  swap
  · exact .inl (crashed_rest hc)
  by_cases hta : a = .t .tick
  · subst hta
    rcases tick_left h0 h ha with h1 | h1
    · right
      have := (later_tick ha).now
      omega
    · exact .inl (rest_run h1 hrun)
  · right
    have h1 := act_left h0 h ha hc hta
    have h2 : f'.ts.now = f.ts.now := by
      rcases fact_ts ha with ⟨b, rfl, hb⟩ | ⟨-, e⟩
      · exact act_now hb (fun e => hta (by rw [e]))
      · rw [e]
    omega

theorem time_run (h0 : ∀ t, GoodStart (i.mem t) (i.valid t)) {n : Nat} : ∀ (as : List FAct) {f f' : FSys}, FInv cfg l i f →
    clockedRest cfg l f ∨ f.ts.now + f.left cfg l i ≤ n → f.run cfg l as = some f' →
    clockedRest cfg l f' ∨ f'.ts.now + f'.left cfg l i ≤ n := by
  intro as
  induction as with
  | nil => intro f f' _ h hr; cases hr; exact h
  | cons a as ih =>
    intro f f' hI h hr
    simp only [FSys.run, Option.bind_eq_some_iff] at hr
    obtain ⟨g, h1, h2⟩ := hr
    exact ih (finv_act h0 hI h1) (time_act h0 hI h1 h) h2

/-- `active_cycles` is only set by an action of a tile process, to the current time. -/
theorem active_act {a : FAct} {t c : Nat} (ha : f.act cfg l a = some f') (h : f'.active t = some c) :
    f.active t = some c ∨ idleAct a = false ∧ c = f.ts.now := by
  have hc := fact_alive ha
  unfold FSys.act at ha
  rw [if_neg (by rw [hc]; simp)] at ha
  cases a with
  | recheck j =>
    dsimp only at ha
    split at ha
    · rw [Option.map_eq_some_iff] at ha
      obtain ⟨k, -, rfl⟩ := ha
      exact .inl h
    · cases ha
  | monitor =>
    dsimp only at ha
    rw [Option.map_eq_some_iff] at ha
    obtain ⟨k, -, rfl⟩ := ha
    exact .inl h
  | t b =>
    dsimp only at ha
    split at ha
    · split at ha
      · rw [Option.map_eq_some_iff] at ha
        obtain ⟨k, -, rfl⟩ := ha
        exact .inl h
      · cases ha
    · obtain ⟨ts, k, h1, -, -, h4⟩ := other_cases ha
      rcases h4 with ⟨-, rfl⟩ | ⟨-, -, h4⟩
      · exact .inl h
      rcases h4 with ⟨u, rfl, rfl⟩ | ⟨-, rfl⟩
      · unfold FSys.mark at h
        split at h
        · exact .inl h
        · dsimp only at h
          split at h
          · by_cases e : t = u
            · subst e
              rw [upd_same] at h
              injection h with h
              obtain ⟨-, -, -, sys, -, rfl⟩ := tsAct_other h1
              exact .inr ⟨rfl, h.symm⟩
            · rw [upd_ne _ _ _ _ e] at h
              exact .inl h
          · exact .inl h
        · exact .inl h
      · exact .inl h
    · rw [Option.map_eq_some_iff] at ha
      obtain ⟨ts, -, rfl⟩ := ha
      exact .inl h

end
end Ramwich
