import Verif.Lemmas.TimedSysInv
import Verif.Spec.TimedSystem

/-! # The node with pipelines refines the node without -/
namespace Ramwich

open Pipeline

/-- The programs of the node without pipelines. -/
def TSys.progs (i : SysInit) (s : TSys) (t k : Nat) : List CoreOp :=
  leftOf (i.prog t k) ((s.pipe t k).st.accepted 2)

theorem plain_eq (i : SysInit) (s : TSys) : s.plain i = s.sys.withProg (s.progs i) := rfl

theorem plain_start (i : SysInit) : i.tstart.plain i = i.start := rfl

theorem sys_run_append {cfg : SysCfg} (as : List SysAct) {s s' s'' : Sys} {bs : List SysAct}
    (h : s.run cfg as = some s') (h' : s'.run cfg bs = some s'') : s.run cfg (as ++ bs) = some s'' := by
  induction as generalizing s with
  | nil => cases h; exact h'
  | cons a as ih =>
    simp only [Sys.run, Option.bind_eq_some_iff, List.cons_append] at h ⊢
    obtain ⟨u, hu, h⟩ := h
    exact ⟨u, hu, ih h⟩

theorem progs_upd2 (i : SysInit) (s s' : TSys) (t k : Nat) (p : Timed CoreOp) (hp : s'.pipe = upd2 s.pipe t k p) :
    s'.progs i = upd2 (s.progs i) t k (leftOf (i.prog t k) (p.st.accepted 2)) := by
  funext t' k'
  unfold TSys.progs
  rw [hp, upd2_apply, upd2_apply]
  split
  · rename_i heq
    obtain ⟨rfl, rfl⟩ := heq
    rfl
  · rfl

theorem upd2_self {β : Type} (f : Nat → Nat → β) (t k : Nat) : upd2 f t k (f t k) = f := by
  funext t' k'
  rw [upd2_apply]
  split
  · rename_i heq
    obtain ⟨rfl, rfl⟩ := heq
    rfl
  · rfl

theorem progs_same (i : SysInit) (s s' : TSys) (t k : Nat) (p : Timed CoreOp) (hp : s'.pipe = upd2 s.pipe t k p)
    (ha : p.st.accepted 2 = (s.pipe t k).st.accepted 2) : s'.progs i = s.progs i := by
  rw [progs_upd2 i s s' t k p hp, ha]
  exact upd2_self (s.progs i) t k

/-- All clocks of the controllers advance one after the other. -/
theorem ticks_run (cfg : SysCfg) (s : Sys) (hc : s.crashed = none) (n : Nat) (hn : n ≤ cfg.net.tiles)
    (hal : ∀ t, (s.tile t).ctrl.crashed = none) (hq : ∀ t, t < n → (s.tile t).ctrl.quiescent = true) :
    s.run cfg ((List.range n).map fun t => .ctrl t .tick) =
      some { s with tile := fun t => if t < n then (s.tile t).tick else s.tile t } := by
  induction n with
  | zero => rfl
  | succ n ih =>
    rw [List.range_succ, List.map_append]
    refine sys_run_append _ (ih (by omega) fun t ht => hq t (by omega)) ?_
    simp only [List.map_cons, List.map_nil, Sys.run, Option.bind_eq_some_iff]
    refine ⟨_, ?_, rfl⟩
    unfold Sys.act
    simp only [hc, Option.isSome_none, Bool.false_eq_true, if_false]
    rw [if_pos (by omega)]
    unfold Sys.ctrlAct Ctrl.act Ctrl.tick
    simp only [Nat.lt_irrefl, if_false, hal n, Option.isSome_none, Bool.false_eq_true, hq n (by omega), if_true,
      Option.map_some, id]
    unfold Sys.setTile
    dsimp only
    congr 2
    funext t
    by_cases ht : t = n
    · subst ht
      rw [upd_same, if_pos (by omega)]
      unfold TileSt.tick
      simp only [hal t]
    · rw [upd_ne _ _ _ _ ht]
      by_cases h' : t < n
      · rw [if_pos h', if_pos (by omega)]
      · rw [if_neg h', if_neg (by omega)]

/-- What the execution stage takes next is the next operation of the program. -/
theorem next_op {l : StageLat} {prog : List CoreOp} {p : Timed CoreOp} (h : TInv isHlt 3 l.lat prog 0 p) {op : CoreOp}
    (hg : p.st.ctl 2 = .got op) : (p.st.accepted 2).any isHlt = false ∧
      ∃ rest, prog = p.st.accepted 2 ++ op :: rest := by
  constructor
  · rw [List.any_eq_false]
    intro x hx
    rw [h.inv.quiet 2 (by omega) (Or.inr ⟨op, hg⟩) x hx]
    simp
  · have h1 := h.inv.link 1 (by omega)
    rw [hg] at h1
    simp only [Ctl.taken] at h1
    obtain ⟨r, hr⟩ := h.inv.prefix_prog (i := 1) (by omega)
    refine ⟨p.st.buf 2 ++ (p.st.ctl 1).held ++ r, ?_⟩
    rw [← hr, h1]
    simp

theorem act_plain_core {cfg : SysCfg} {s : TSys} {i : SysInit} (hc : s.sys.crashed = none) {t k : Nat}
    (hk : cfg.hasCore t k = true) {s' : Sys} (h : (s.plain i).coreStep cfg t k = some s') :
    (s.plain i).run cfg [.core t k] = some s' := by
  simp only [Sys.run, Option.bind_eq_some_iff]
  refine ⟨s', ?_, rfl⟩
  unfold Sys.act
  have : (s.plain i).crashed = none := hc
  simp only [this, Option.isSome_none, Bool.false_eq_true, if_false]
  rw [if_pos ⟨hasCore_tile hk, hasCore_core hk⟩]
  exact h

theorem plain_coreStep {cfg : SysCfg} {s s' : TSys} {i : SysInit} (hc : s.sys.crashed = none) {t k : Nat}
    (hk : cfg.hasCore t k = true) {sys : Sys} (hp : ((s.sys.tile t).core k).phase ≠ .ready)
    (h : s.sys.coreStep cfg t k = some sys) (hs : s'.sys = sys) (hP : s'.progs i = s.progs i) :
    ∃ as, (s.plain i).run cfg as = some (s'.plain i) := by
  refine ⟨[.core t k], act_plain_core hc hk ?_⟩
  rw [plain_eq, plain_eq, withProg_coreStep cfg _ s.sys t k hp, h, hs, hP]
  rfl

theorem plain_act {cfg : SysCfg} {l : StageLat} {i : SysInit} {s s' : TSys} {a : TAct} (h : TSI cfg l i s)
    (hal : ∀ t, (s.sys.tile t).ctrl.crashed = none) (ha : s.act cfg l a = some s') :
    ∃ as, (s.plain i).run cfg as = some (s'.plain i) := by
  unfold TSys.act at ha
  split at ha
  · cases ha
  rename_i hc
  have hc : s.sys.crashed = none := by
    cases h : s.sys.crashed with
    | none => rfl
    | some e => rw [h] at hc; simp at hc
  cases a with
  | tick =>
    dsimp only at ha
    unfold TSys.tick at ha
    split at ha
    · rename_i hq
      cases ha
      refine ⟨_, (ticks_run cfg (s.plain i) hc cfg.net.tiles (Nat.le_refl _) hal fun t ht => ?_).trans ?_⟩
      · have h1 := List.all_eq_true.1 hq t (List.mem_range.2 ht)
        unfold TSys.tileQuiet at h1
        simp only [Bool.and_eq_true] at h1
        exact h1.1
      · congr 1
        unfold TSys.plain
        dsimp only
        congr 1
        funext t
        by_cases ht : t < cfg.net.tiles
        · simp only [ht, if_true]
          unfold TileSt.tick
          dsimp only
          congr 1
          funext k
          congr 3
          split <;> rfl
        · simp only [ht, if_false]
          congr 1
          funext k
          congr 3
          split <;> rfl
    · cases ha
  | pipe t k a =>
    dsimp only at ha
    split at ha
    · unfold TSys.pipeAct at ha
      split at ha
      · cases ha
      · cases ha
      · rename_i h1 h2
        rw [Option.map_eq_some_iff] at ha
        obtain ⟨p, hp, rfl⟩ := ha
        refine ⟨[], ?_⟩
        rw [plain_eq, plain_eq,
          progs_same i s { s with pipe := upd2 s.pipe t k p } t k p rfl (move_same hp h1 h2).acc]
        rfl
    · cases ha
  | exec t k =>
    dsimp only at ha
    split at ha
    · rename_i hk
      unfold TSys.exec at ha
      split at ha
      · rename_i op p hg hp
        rw [Option.map_eq_some_iff] at ha
        obtain ⟨sys, hs, rfl⟩ := ha
        obtain ⟨hno, rest, hprog⟩ := next_op (h.tinv hk) hg
        obtain ⟨-, e2, -⟩ := start_two hg hp
        have hok := h.core hc t k hk
        have hready := hok.free fun op' ho => by rw [hg] at ho; cases ho
        rw [hno] at hready
        simp only [Bool.false_eq_true, if_false] at hready
        refine ⟨[.core t k], act_plain_core hc hk ?_⟩
        have hstep : (s.plain i).coreStep cfg t k = (s.plain i).coreStart cfg t k op rest := by
          unfold Sys.coreStep
          have h1 : (((s.plain i).tile t).core k).phase = .ready := hready
          have h2 : (((s.plain i).tile t).core k).prog = op :: rest := by
            show leftOf (i.prog t k) _ = _
            unfold leftOf
            rw [hno, hprog]
            simp
          simp only [h1, h2]
        rw [hstep, plain_eq, withProg_coreStart cfg _ s.sys hc, hs, Option.map_some]
        congr 1
        by_cases hcr : sys.crashed.isSome = true
        · rw [if_pos hcr, if_pos hcr]
          rfl
        · rw [if_neg hcr, if_neg hcr, plain_eq]
          rw [progs_upd2 i s (s.setPipe sys t k p (s.startDue cfg op)) t k p rfl, e2]
          show sys.withProg _ = sys.withProg _
          congr 2
          unfold leftOf
          rw [List.any_append, hno, hprog]
          cases op <;> simp [isHlt]
      · cases ha
    · cases ha
  | mid t k =>
    dsimp only at ha
    split at ha
    · rename_i hk
      unfold TSys.mid at ha
      split at ha
      · rename_i hph
        rw [Option.map_eq_some_iff] at ha
        obtain ⟨sys, hs, rfl⟩ := ha
        refine plain_coreStep hc hk (by rw [hph]; simp) hs ?_ ?_
        · split <;> rfl
        · split
          · rfl
          · exact progs_same i s _ t k _ rfl rfl
      · rename_i hph
        split at ha
        · rw [Option.map_eq_some_iff] at ha
          obtain ⟨sys, hs, rfl⟩ := ha
          refine plain_coreStep hc hk (by rw [hph]; simp) hs ?_ ?_
          · split <;> rfl
          · split
            · rfl
            · exact progs_same i s _ t k _ rfl rfl
        · cases ha
      · cases ha
    · cases ha
  | fin t k =>
    dsimp only at ha
    split at ha
    · rename_i hk
      unfold TSys.fin at ha
      have close : ∀ (sys : Sys) (p : Timed CoreOp), s.sys.coreStep cfg t k = some sys →
          ((s.sys.tile t).core k).phase ≠ .ready → (s.pipe t k).finish 3 2 = some p →
          ∃ as, (s.plain i).run cfg as =
            some ((if sys.crashed.isSome then { s with sys := sys } else s.setPipe sys t k p none).plain i) := by
        intro sys p hs hr hp
        obtain ⟨op, -, -, e2, -⟩ := finish_two hp
        refine plain_coreStep hc hk hr hs ?_ ?_
        · split <;> rfl
        · split
          · rfl
          · exact progs_same i s _ t k _ rfl e2
      split at ha
      · rename_i hph
        split at ha
        · split at ha
          · rename_i sys p hs hp
            cases ha
            exact close sys p hs (by rw [hph]; simp) hp
          · cases ha
        · cases ha
      · rename_i hph
        split at ha
        · split at ha
          · rename_i sys p hs hp
            cases ha
            exact close sys p hs (by rw [hph]; simp) hp
          · cases ha
        · cases ha
      · rename_i hph
        split at ha
        · rename_i sys p hs hp
          cases ha
          exact close sys p hs (by rw [hph]; simp) hp
        · cases ha
      · split at ha
        · rw [Option.map_eq_some_iff] at ha
          obtain ⟨p, hp, rfl⟩ := ha
          obtain ⟨op, -, -, e2, -⟩ := finish_two hp
          refine ⟨[], ?_⟩
          rw [plain_eq, plain_eq, progs_same i s (s.setPipe s.sys t k p none) t k p rfl e2]
          rfl
        · cases ha
      · cases ha
    · cases ha
  | ret t k =>
    dsimp only at ha
    split at ha
    · rename_i hk
      unfold TSys.ret at ha
      split at ha
      · rename_i hph
        split at ha
        · rw [Option.map_eq_some_iff] at ha
          obtain ⟨sys, hs, rfl⟩ := ha
          exact plain_coreStep hc hk (by rw [hph]; simp) hs rfl rfl
        · cases ha
      · cases ha
    · cases ha
  | other a =>
    dsimp only at ha
    split at ha
    · cases ha
    · cases ha
    · rename_i h1 h2
      rw [Option.map_eq_some_iff] at ha
      obtain ⟨sys, hs, rfl⟩ := ha
      refine ⟨[a], ?_⟩
      simp only [Sys.run, Option.bind_eq_some_iff]
      refine ⟨_, ?_, rfl⟩
      rw [plain_eq, withProg_act cfg _ s.sys a h1, hs]
      rfl

theorem tsi_start (cfg : SysCfg) (l : StageLat) (i : SysInit) : TSI cfg l i i.tstart := by
  refine ⟨fun t k _ => ⟨[], rfl⟩, fun _ _ _ => rfl, fun _ _ _ => rfl, fun _ t k _ => ⟨?_, ?_, ?_, ?_⟩⟩
  · intro op ho; cases ho
  · intro _; rfl
  · intro h; cases h
  · intro n hn; cases hn

/-- Reachable states: the invariant, and a run of the node without pipelines. -/
theorem tsys_run {cfg : SysCfg} {l : StageLat} {i : SysInit} (h0 : ∀ t, GoodStart (i.mem t) (i.valid t))
    (acts : List TAct) {s s' : TSys} (h : TSI cfg l i s) (hr : ∃ as, i.start.run cfg as = some (s.plain i))
    (hrun : s.run cfg l acts = some s') :
    TSI cfg l i s' ∧ ∃ as, i.start.run cfg as = some (s'.plain i) := by
  induction acts generalizing s with
  | nil => cases hrun; exact ⟨h, hr⟩
  | cons a acts ih =>
    simp only [TSys.run, Option.bind_eq_some_iff] at hrun
    obtain ⟨u, hu, hrun⟩ := hrun
    obtain ⟨as, has⟩ := hr
    have hinv := sysInv_run h0 as _ has
    have hc : s.sys.crashed = none := by
      unfold TSys.act at hu
      split at hu
      · cases hu
      · rename_i hc
        cases h : s.sys.crashed with
        | none => rfl
        | some e => rw [h] at hc; simp at hc
    have hal : ∀ t, (s.sys.tile t).ctrl.crashed = none := (hinv.alive hc).2
    have hline : ∀ t, CtrlLine (s.sys.tile t).ctrl := fun t => (ctrlInv_of (h0 t) (hinv.tile t).ctrl).line
    obtain ⟨bs, hbs⟩ := plain_act h hal hu
    exact ih (tsi_eff h hc hline hal (tact_eff hu)) ⟨as ++ bs, sys_run_append as has hbs⟩ hrun

end Ramwich
