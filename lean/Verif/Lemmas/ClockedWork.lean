import Verif.Lemmas.ClockedStill
import Verif.Lemmas.SysWork

/-! # The work of a node with one clock ends -/
namespace Ramwich

open Spec Pipeline

section
variable {cfg : SysCfg} {l : StageLat} {i : SysInit}

/-- Actions left in the pipelines. -/
def TSys.pipeWork (cfg : SysCfg) (s : TSys) : Nat :=
  ((List.range cfg.net.tiles).map fun t =>
    ((List.range cfg.cores).map fun k => weight 3 (s.pipe t k).st).sum).sum

/-- Actions left in the node. -/
def TSys.work (cfg : SysCfg) (i : SysInit) (s : TSys) : Nat := sysWork cfg (s.plain i) + s.pipeWork cfg

theorem pipeWork_upd2 {s s' : TSys} {t k : Nat} {p : Timed CoreOp} (hk : cfg.hasCore t k = true)
    (hp : s'.pipe = upd2 s.pipe t k p) (hw : weight 3 p.st < weight 3 (s.pipe t k).st) :
    s'.pipeWork cfg < s.pipeWork cfg := by
  unfold TSys.pipeWork
  have h1 := sum_range_upd cfg.net.tiles t (hasCore_tile hk)
    (fun t => ((List.range cfg.cores).map fun k => weight 3 (s.pipe t k).st).sum)
    (fun t => ((List.range cfg.cores).map fun k => weight 3 (s'.pipe t k).st).sum) (fun j hj => by
      rw [hp]
      unfold upd2
      rw [upd_ne _ _ _ _ hj])
  have h2 := sum_range_upd cfg.cores k (hasCore_core hk) (fun k => weight 3 (s.pipe t k).st)
    (fun k => weight 3 (s'.pipe t k).st) (fun j hj => by
      rw [hp]
      unfold upd2
      rw [upd_same, upd_ne _ _ _ _ hj])
  have h3 : weight 3 (s'.pipe t k).st = weight 3 p.st := by rw [hp]; unfold upd2; rw [upd_same, upd_same]
  omega

theorem start_weight {lat : Nat → Nat → Option Nat} {p p' : Timed CoreOp} (h : p.start lat 2 = some p') :
    weight 3 p'.st < weight 3 p.st :=
  weight_step (hlt := isHlt) (by omega) (move_step (n := 3) (lat := lat) (a := .start 2) (by simpa [Timed.move] using h))

theorem finish_weight {p p' : Timed CoreOp} (h : p.finish 3 2 = some p') : weight 3 p'.st < weight 3 p.st :=
  weight_step (hlt := isHlt) (by omega)
    (move_step (n := 3) (lat := fun _ _ => none) (a := .finish 2) (by simpa [Timed.move] using h))

theorem plain_core_run {s s' : TSys} (hc : s.sys.crashed = none) {t k : Nat}
    (hk : cfg.hasCore t k = true) {sys : Sys} (hp : ((s.sys.tile t).core k).phase ≠ .ready)
    (h : s.sys.coreStep cfg t k = some sys) (hs : s'.sys = sys) (hP : s'.progs i = s.progs i) :
    (s.plain i).run cfg [.core t k] = some (s'.plain i) := by
  refine act_plain_core hc hk ?_
  rw [plain_eq, plain_eq, withProg_coreStep cfg _ s.sys t k hp, h, hs, hP]
  rfl

theorem pipeWork_same {s s' : TSys} (h : ∀ t k, (s'.pipe t k).st = (s.pipe t k).st) : s'.pipeWork cfg = s.pipeWork cfg := by
  unfold TSys.pipeWork
  simp only [h]

/-- Every action but the passing of time leaves less to do. -/
theorem tact_work (h0 : ∀ t, GoodStart (i.mem t) (i.valid t)) {s s' : TSys} {a : TAct} (h : TSI cfg l i s)
    (hal : ∀ t, (s.sys.tile t).ctrl.crashed = none) {bs : List SysAct} (hb : i.start.run cfg bs = some (s.plain i))
    (ha : s.act cfg l a = some s') (hn : s'.sys.crashed = none) :
    s'.work cfg i + (if a = .tick then 0 else 1) ≤ s.work cfg i := by
  have hn' : (s'.plain i).crashed = none := hn
  obtain ⟨as, hp⟩ := plain_act h hal ha
  have hle := run_work h0 as bs _ _ hb hp hn'
  have strict : ∀ {b : SysAct}, b.isWork = true → (s.plain i).run cfg [b] = some (s'.plain i) →
      sysWork cfg (s'.plain i) + 1 ≤ sysWork cfg (s.plain i) := by
    intro b hw hr
    have := run_work h0 [b] bs _ _ hb hr hn'
    simpa [hw] using this
  have live : ∀ {x : TSys} {sys : Sys}, (if sys.crashed.isSome then { s with sys := sys } else x).sys.crashed = none →
      (if sys.crashed.isSome then { s with sys := sys } else x) = x := by
    intro x sys hx
    by_cases hcr : sys.crashed.isSome = true
    · rw [if_pos hcr] at hx
      rw [show sys.crashed = none from hx] at hcr
      cases hcr
    · rw [if_neg hcr]
  unfold TSys.work
  unfold TSys.act at ha
  split at ha
  · cases ha
  rename_i hc
  have hc : s.sys.crashed = none := by simpa using hc
  cases a with
  | tick =>
    dsimp only at ha
    unfold TSys.tick at ha
    split at ha
    · injection ha with ha
      have := pipeWork_same (cfg := cfg) (s := s) (s' := s') fun t k => by rw [← ha]; dsimp only; split <;> rfl
      simp only [if_true]
      omega
    · cases ha
  | pipe t k a =>
    rw [if_neg (by simp)]
    dsimp only at ha
    split at ha
    · rename_i hk
      unfold TSys.pipeAct at ha
      split at ha
      · cases ha
      · cases ha
      · rw [Option.map_eq_some_iff] at ha
        obtain ⟨p, hm, rfl⟩ := ha
        have := pipeWork_upd2 (s := s) (s' := { s with pipe := upd2 s.pipe t k p }) hk rfl (weight_step (by omega) (move_step hm))
        omega
    · cases ha
  | exec t k =>
    rw [if_neg (by simp)]
    dsimp only at ha
    split at ha
    · rename_i hk
      unfold TSys.exec at ha
      split at ha
      · rename_i op p hg hst
        rw [Option.map_eq_some_iff] at ha
        obtain ⟨sys, hs, rfl⟩ := ha
        rw [live hn] at hle ⊢
        have := pipeWork_upd2 (s := s) (s' := s.setPipe sys t k p (s.startDue cfg op)) hk rfl (start_weight hst)
        omega
      · cases ha
    · cases ha
  | mid t k =>
    rw [if_neg (by simp)]
    dsimp only at ha
    split at ha
    · rename_i hk
      unfold TSys.mid at ha
      have close : ∀ {sys : Sys} {d : Option Nat}, s.sys.coreStep cfg t k = some sys →
          ((s.sys.tile t).core k).phase ≠ .ready →
          (if sys.crashed.isSome then { s with sys := sys } else s.setPipe sys t k (s.pipe t k) d) = s' →
          sysWork cfg (s'.plain i) + s'.pipeWork cfg + 1 ≤ sysWork cfg (s.plain i) + s.pipeWork cfg := by
        intro sys d hs hph he
        have hse : s' = s.setPipe sys t k (s.pipe t k) d := by
          rw [← he] at hn ⊢
          exact live hn
        have h1 := strict (b := .core t k) rfl (plain_core_run (s' := s') hc hk hph hs (by rw [hse]; rfl)
          (progs_same i s s' t k (s.pipe t k) (by rw [hse]; rfl) rfl))
        have h2 : s'.pipeWork cfg = s.pipeWork cfg := by
          refine pipeWork_same fun t' k' => ?_
          rw [hse]
          show (upd2 s.pipe t k (s.pipe t k) t' k').st = _
          rw [upd2_self]
        omega
      split at ha
      · rename_i hph
        rw [Option.map_eq_some_iff] at ha
        obtain ⟨sys, hs, he⟩ := ha
        exact close hs (by rw [hph]; simp) he
      · rename_i hph
        split at ha
        · rw [Option.map_eq_some_iff] at ha
          obtain ⟨sys, hs, he⟩ := ha
          exact close hs (by rw [hph]; simp) he
        · cases ha
      · cases ha
    · cases ha
  | fin t k =>
    rw [if_neg (by simp)]
    dsimp only at ha
    split at ha
    · rename_i hk
      unfold TSys.fin at ha
      have close : ∀ {sys : Sys} {p : Timed CoreOp}, (s.pipe t k).finish 3 2 = some p →
          (if sys.crashed.isSome then { s with sys := sys } else s.setPipe sys t k p none) = s' →
          sysWork cfg (s'.plain i) + s'.pipeWork cfg + 1 ≤ sysWork cfg (s.plain i) + s.pipeWork cfg := by
        intro sys p hf he
        have hse : s' = s.setPipe sys t k p none := by
          rw [← he] at hn ⊢
          exact live hn
        have := pipeWork_upd2 (s := s) (s' := s') hk (by rw [hse]; rfl) (finish_weight hf)
        omega
      split at ha
      · split at ha
        · split at ha
          · rename_i sys p hs hp
            injection ha with ha
            exact close hp ha
          · cases ha
        · cases ha
      · split at ha
        · split at ha
          · rename_i sys p hs hp
            injection ha with ha
            exact close hp ha
          · cases ha
        · cases ha
      · split at ha
        · rename_i sys p hs hp
          injection ha with ha
          exact close hp ha
        · cases ha
      · split at ha
        · rw [Option.map_eq_some_iff] at ha
          obtain ⟨p, hf, rfl⟩ := ha
          have := pipeWork_upd2 (s := s) (s' := s.setPipe s.sys t k p none) hk rfl (finish_weight hf)
          omega
        · cases ha
      · cases ha
    · cases ha
  | ret t k =>
    rw [if_neg (by simp)]
    dsimp only at ha
    split at ha
    · rename_i hk
      unfold TSys.ret at ha
      split at ha
      · rename_i hph
        split at ha
        · rw [Option.map_eq_some_iff] at ha
          obtain ⟨sys, hs, rfl⟩ := ha
          have h1 := strict (b := .core t k) rfl (plain_core_run (s' := { s with sys := sys }) hc hk (by rw [hph]; simp) hs rfl rfl)
          have h2 : TSys.pipeWork cfg { s with sys := sys } = s.pipeWork cfg := rfl
          omega
        · cases ha
      · cases ha
    · cases ha
  | other a =>
    rw [if_neg (by simp)]
    dsimp only at ha
    split at ha
    · cases ha
    · cases ha
    · rename_i h1 h2
      rw [Option.map_eq_some_iff] at ha
      obtain ⟨sys, hs, rfl⟩ := ha
      have h3 := strict (b := a) (by
        cases a with
        | ctrl t a => cases a <;> first | rfl | exact absurd rfl (h2 _)
        | _ => rfl) (by
        simp only [Sys.run, Option.bind_eq_some_iff]
        refine ⟨_, ?_, rfl⟩
        rw [plain_eq, withProg_act cfg _ s.sys a h1, hs]
        rfl)
      have h4 : TSys.pipeWork cfg { s with sys := sys } = s.pipeWork cfg := rfl
      omega

/-- Every action that is not idle leaves less to do. -/
theorem fact_work (h0 : ∀ t, GoodStart (i.mem t) (i.valid t)) {f f' : FSys} {a : FAct} (h : FInv cfg l i f)
    (ha : f.act cfg l a = some f') (hn : f'.ts.sys.crashed = none) :
    f'.ts.work cfg i + (if idleAct a then 0 else 1) ≤ f.ts.work cfg i := by
  obtain ⟨hI, hV⟩ := h.both h0
  obtain ⟨bs, hb⟩ := plain_run h0 h
  have hc := fact_alive ha
  rcases fact_ts ha with ⟨b, rfl, hts⟩ | ⟨hb, hts⟩
  · have := tact_work h0 hI (hV.alive hc).2 hb hts hn
    by_cases hbt : b = .tick
    · subst hbt
      simpa [idleAct] using this
    · have hid : idleAct (.t b) = false := by cases b <;> first | rfl | exact absurd rfl hbt
      rw [if_neg hbt] at this
      rw [hid]
      simpa using this
  · have hid : idleAct a = true := by
      cases a with
      | t b => exact absurd rfl (hb b)
      | _ => rfl
    rw [hid, hts]
    simp

theorem frun_work (h0 : ∀ t, GoodStart (i.mem t) (i.valid t)) (as : List FAct) : ∀ {f f' : FSys}, FInv cfg l i f →
    f.run cfg l as = some f' → f'.ts.sys.crashed = none →
    f'.ts.work cfg i + (as.filter fun a => !idleAct a).length ≤ f.ts.work cfg i := by
  induction as with
  | nil => intro f f' _ h _; injection h with h; subst h; simp
  | cons a as ih =>
    intro f f' hI h hn
    simp only [FSys.run, Option.bind_eq_some_iff] at h
    obtain ⟨g, h1, h2⟩ := h
    have hg : g.ts.sys.crashed = none := by
      cases as with
      | nil => injection h2 with h2; subst h2; exact hn
      | cons b bs =>
        simp only [FSys.run, Option.bind_eq_some_iff] at h2
        obtain ⟨_, h3, _⟩ := h2
        exact fact_alive h3
    have e1 := fact_work h0 hI h1 hg
    have e2 := ih (finv_act h0 hI h1) h2 hn
    cases hid : idleAct a <;> simp only [hid, List.filter_cons, Bool.not_true, Bool.not_false, if_true, Bool.false_eq_true, if_false, List.length_cons] at e1 ⊢ <;> omega

end
end Ramwich
