import Verif.Lemmas.ClockedTileCore
import Verif.Lemmas.ClockedTileRows

/-! # The node with one clock: every tile process -/
namespace Ramwich

open Spec Pipeline

section
variable {cfg : SysCfg} {l : StageLat} {f f' : FSys} {i : SysInit}

/-- An action of a controller, a router or a tile process. -/
theorem tv_other {b : SysAct} (hS : NetStop f.ts.sys.net) (h : f.other cfg l b = some f')
    (hc : f'.ts.sys.crashed = none) (j : Nat) : TVStep cfg.dataMemLat.toNat cfg.cores (f.tv j) (f'.tv j) := by
  have stay : ∀ {g : FSys}, g.tv j = f.tv j → TVStep cfg.dataMemLat.toNat cfg.cores (f.tv j) (g.tv j) := by
    intro g e
    rw [e]
    exact .ctrl _ (.rfl' _)
  have h' := h
  obtain ⟨ts, k, h1, h2, h3, h4⟩ := other_cases h
  rw [h3] at hc
  rcases h4 with ⟨h4, -⟩ | ⟨-, -, h4⟩
  · rw [hc] at h4; cases h4
  rcases h4 with ⟨t', rfl, -⟩ | ⟨hb, h4⟩
  · exact tv_tile hS h' (by rw [h3]; exact hc) j
  obtain ⟨hc0, hb1, hb2, sys, h5, rfl⟩ := tsAct_other h1
  dsimp only at hc
  unfold Sys.act at h5
  rw [if_neg (by rw [hc0]; simp)] at h5
  unfold FSys.netPart Sys.netOf at h2
  subst h4
  cases b with
  | tile t => exact absurd rfl (hb t)
  | core t k => exact absurd rfl (hb1 t k)
  | ctrl t a =>
    injection h2 with h2
    subst h2
    have h6 : sys = f.ts.sys.setTile t (f.ts.sys.tile t) ∨ ∃ c, CtrlExt (f.ts.sys.tile t).ctrl c ∧
        sys = f.ts.sys.setTile t { f.ts.sys.tile t with ctrl := c } := by
      cases a with
      | tick => exact absurd rfl (hb2 t)
      | submit => cases h5
      | stop => cases h5
      | _ =>
        dsimp only at h5
        split at h5
        · obtain ⟨c, g1, g2, g3⟩ := ctrlAct_ok h5 hc
          exact .inr ⟨c, ctrl_act_ext g1 (by simp), g3⟩
        · cases h5
    rcases h6 with rfl | ⟨c, hext, rfl⟩
    · rw [setTile_self]; exact stay rfl
    · by_cases hj : j = t
      · subst hj
        have := TVStep.ctrl (lat := cfg.dataMemLat.toNat) (cores := cfg.cores) (v := f.tv j) c hext
        simpa [FSys.tv, Sys.setTile, upd_same] using this
      · exact stay (by simp [FSys.tv, Sys.setTile, upd_ne _ _ _ _ hj])
  | thread t =>
    obtain ⟨n, g1, g2, rfl⟩ := netAct_ok h5 hc
    obtain ⟨-, -, g3⟩ := net_act_cases g1
    have gv := view_thread g3
    have r1 : n.reader j = f.ts.sys.net.reader j := congrArg NetView.reader (gv j)
    have r2 : n.stopper j = f.ts.sys.net.stopper j := congrArg NetView.stopper (gv j)
    have r3 : n.readLog j = f.ts.sys.net.readLog j := congrArg NetView.readLog (gv j)
    simp only [NetClock.step] at h2
    refine stay ?_
    cases hs : f.ts.sys.net.sender t with
    | flying p b =>
      rw [hs] at h2
      dsimp only at h2
      split at h2
      · injection h2 with h2; subst h2; simp [FSys.tv, r1, r2, r3]
      · cases h2
    | _ => rw [hs] at h2; injection h2 with h2; subst h2; simp [FSys.tv, r1, r2, r3]
  | take t =>
    obtain ⟨n, g1, g2, rfl⟩ := netAct_ok h5 hc
    obtain ⟨-, -, g3⟩ := net_act_cases g1
    obtain ⟨src, x, rest, g4, -, rfl⟩ := view_take g3
    simp only [NetClock.step] at h2
    rw [g4] at h2
    injection h2 with h2
    subst h2
    by_cases hj : j = t
    · subst hj
      have := TVStep.take (lat := cfg.dataMemLat.toNat) (cores := cfg.cores) (v := f.tv j) src x g4
      simpa [FSys.tv, upd_same, updAt_here] using this
    · exact stay (by simp [FSys.tv, upd_ne _ _ _ _ hj, updAt_other _ _ _ hj])

/-- Any action but the passing of time. -/
theorem tv_act {a : FAct} (hI : TSI cfg l i f.ts) (hS : NetStop f.ts.sys.net) (h : f.act cfg l a = some f')
    (ha : a ≠ .t .tick) (hc : f'.ts.sys.crashed = none) (j : Nat) :
    TVStep cfg.dataMemLat.toNat cfg.cores (f.tv j) (f'.tv j) := by
  unfold FSys.act at h
  split at h
  · cases h
  rename_i hc0
  have hc0 : f.ts.sys.crashed = none := by simpa using hc0
  cases a with
  | t b =>
    dsimp only at h
    split at h
    · exact absurd rfl ha
    · exact tv_other hS h hc j
    · rename_i hb1 hb2
      rw [Option.map_eq_some_iff] at h
      obtain ⟨ts, h1, rfl⟩ := h
      exact tv_core hI hc0 h1 (fun b e => hb2 b e) (fun e => hb1 e) hc j
  | recheck t =>
    dsimp only at h
    split at h
    · rw [Option.map_eq_some_iff] at h
      obtain ⟨k, h1, rfl⟩ := h
      have e : ({ f with clk := k } : FSys).tv j = f.tv j := by
        unfold NetClock.recheck at h1
        split at h1
        · split at h1
          · injection h1 with h1; subst h1; rfl
          · cases h1
        · cases h1
      rw [e]
      exact .ctrl _ (.rfl' _)
    · cases h
  | monitor =>
    dsimp only at h
    rw [Option.map_eq_some_iff] at h
    obtain ⟨k, h1, rfl⟩ := h
    have e : ({ f with clk := k } : FSys).tv j = f.tv j := by
      unfold NetClock.monitor at h1
      split at h1
      · injection h1 with h1; subst h1; rfl
      · cases h1
    rw [e]
    exact .ctrl _ (.rfl' _)

/-! ## Time passes -/

theorem other_some {t : Nat} {s' : Sys} {k : NetClock} (hc : f.ts.sys.crashed = none) (ht : t < cfg.net.tiles)
    (h1 : f.ts.sys.tileStep cfg t = some s') (h2 : f.netPart cfg (.tile t) = some k) :
    (f.other cfg l (.tile t)).isSome = true := by
  unfold FSys.other
  have : f.ts.act cfg l (.other (.tile t)) = some { f.ts with sys := s' } := by
    unfold TSys.act Sys.act
    rw [if_neg (by rw [hc]; simp)]
    dsimp only
    rw [if_neg (by rw [hc]; simp), if_pos ht, h1]
    rfl
  rw [this, h2]
  dsimp only
  split <;> rfl

/-- A core whose pipeline is done is about to return. -/
theorem done_halting (hI : TSI cfg l i f.ts) (hc0 : f.ts.sys.crashed = none) {t k : Nat} (hk : cfg.hasCore t k = true)
    (hd : (f.ts.pipe t k).st.done = true) :
    ((f.ts.sys.tile t).core k).phase = .halting ∨ ((f.ts.sys.tile t).core k).phase = .halted := by
  have hp := hI.tinv hk
  have hm := hp.inv.fin hd
  have hcm := hp.inv.mon.2 2 (by omega)
  rw [hp.inv.comp 2 (by omega)] at hcm
  have hst := hp.inv.stop 2 (by omega) hcm
  have hf := (hI.core hc0 t k hk).free fun op e => by rw [hcm] at e; cases e
  have ha : ((f.ts.pipe t k).st.accepted 2).any isHlt = true := by
    obtain ⟨pre, op, e1, e2, -⟩ := hst
    rw [e1, List.any_append]
    simp [e2]
  rw [if_pos ha] at hf
  exact hf

theorem tv_quiet {prog : List TileOp} {t : Nat} {ts : TSys} (ht : t < cfg.net.tiles) (hI : TSI cfg l i f.ts)
    (hc0 : f.ts.sys.crashed = none) (hT : TileTimes cfg.dataMemLat.toNat cfg.cores prog (f.tv t))
    (hn : NetTimes cfg.net f.ts.now f.ts.sys.net f.clk) (hnc : f.ts.sys.net.crashed = none)
    (hcc : (f.ts.sys.tile t).ctrl.crashed = none) (hA : AddsOk cfg.dataMemLat f.ts.now f.ts.sys.net f.clk)
    (hq : f.quiet cfg l = true) (htick : f.ts.tick cfg l = some ts) : TVQuiet cfg.cores (f.tv t) := by
  unfold FSys.quiet at hq
  rw [Bool.and_eq_true] at hq
  have hQ := netQuiet_of hn hnc hq.1
  have hno : ∀ {s' k}, f.ts.sys.tileStep cfg t = some s' → f.netPart cfg (.tile t) = some k → False := by
    intro s' k h1 h2
    have h3 := other_some (l := l) hc0 ht h1 h2
    have h4 := List.all_eq_true.1 hq.2 t (List.mem_range.2 ht)
    rw [Option.isNone_iff_eq_none] at h4
    rw [h4] at h3
    cases h3
  have hctrl : ∀ (a : CtrlAct) (g : Sys → Sys), (a = .stop ∨ ∃ x y z, a = .submit x y z) →
      ∃ s', f.ts.sys.ctrlAct cfg t a g = some s' := by
    intro a g ha
    unfold Sys.ctrlAct
    have : ∃ c, (f.ts.sys.tile t).ctrl.act cfg.edramLat a = some c := by
      unfold Ctrl.act
      rw [if_neg (by rw [hcc]; simp)]
      rcases ha with rfl | ⟨x, y, z, rfl⟩
      · dsimp only [Ctrl.stop]
        split
        · exact ⟨_, rfl⟩
        · split <;> exact ⟨_, rfl⟩
      · exact ⟨_, rfl⟩
    obtain ⟨c, e⟩ := this
    rw [e]
    exact ⟨_, rfl⟩
  have hnet : ∀ (a : NetAct) (n : Net) (g : Sys → Sys), f.ts.sys.net.act cfg.net a = some n →
      ∃ s', f.ts.sys.netAct cfg a g = some s' := by
    intro a n g ha
    unfold Sys.netAct
    rw [ha]
    exact ⟨_, rfl⟩
  constructor
  · intro hp
    have hp : (f.ts.sys.tile t).phase = .ready := hp
    change (f.ts.sys.tile t).ops = []
    by_contra hne
    obtain ⟨op, rest, ho⟩ := List.exists_cons_of_ne_nil hne
    have e : f.ts.sys.tileStep cfg t = f.ts.sys.tileStart cfg t op rest := by
      unfold Sys.tileStep; dsimp only; rw [hp, ho]
    have e2 : f.netPart cfg (.tile t) = some f.clk := by
      unfold FSys.netPart Sys.netOf; dsimp only; rw [hp]
    have : ∃ s', f.ts.sys.tileStart cfg t op rest = some s' := by
      unfold Sys.tileStart
      dsimp only
      split
      · exact hctrl _ _ (.inr ⟨_, _, _, rfl⟩)
      · split <;> exact ⟨_, rfl⟩
      · exact ⟨_, rfl⟩
    obtain ⟨s', e3⟩ := this
    exact hno (e.trans e3) e2
  · intro id addr target width vec hp
    have hp : (f.ts.sys.tile t).phase = _ := hp
    change readAnswer id (f.ts.sys.tile t).ctrl.answers = none
    by_contra hne
    obtain ⟨data, hd⟩ := Option.ne_none_iff_exists'.1 hne
    have e2 : f.netPart cfg (.tile t) = some f.clk := by
      unfold FSys.netPart Sys.netOf; dsimp only; rw [hp]
    have e : ∃ s', f.ts.sys.tileStep cfg t = some s' := by
      unfold Sys.tileStep; dsimp only; rw [hp]; dsimp only; rw [hd]; dsimp only
      split <;> exact ⟨_, rfl⟩
    obtain ⟨s', e⟩ := e
    exact hno e e2
  · intro target rows hp
    have hst := hT.stopper (by rw [hp]; simp)
    have hp : (f.ts.sys.tile t).phase = _ := hp
    cases rows with
    | nil =>
      have e2 : f.netPart cfg (.tile t) = some f.clk := by
        unfold FSys.netPart Sys.netOf; dsimp only; rw [hp]
      have e : ∃ s', f.ts.sys.tileStep cfg t = some s' := by
        unfold Sys.tileStep; dsimp only; rw [hp]; exact ⟨_, rfl⟩
      obtain ⟨s', e⟩ := e
      exact hno e e2
    | cons row rows =>
      by_cases hl : cfg.dataMemLat < 0
      · have e2 : f.netPart cfg (.tile t) = some f.clk := by
          unfold FSys.netPart Sys.netOf; dsimp only; rw [hp]; dsimp only; rw [if_pos hl]
        have e : ∃ s', f.ts.sys.tileStep cfg t = some s' := by
          unfold Sys.tileStep; dsimp only; rw [hp]; dsimp only [badDelay]; rw [if_pos hl]; exact ⟨_, rfl⟩
        obtain ⟨s', e⟩ := e
        exact hno e e2
      · have e2 : ∃ k, f.netPart cfg (.tile t) = some k := by
          unfold FSys.netPart Sys.netOf; dsimp only; rw [hp]; dsimp only; rw [if_neg hl]
          exact ⟨_, rfl⟩
        obtain ⟨k, e2⟩ := e2
        have e3 : f.ts.sys.net.act cfg.net (.send t target row) = some (f.ts.sys.net.send t target row) := by
          unfold Net.act
          rw [if_neg (by rw [hnc]; simp [NetAct.tile, ht])]
          dsimp only [Net.sendIf]
          rcases hst with hst | hst <;> rw [show f.ts.sys.net.stopper t = _ from hst]
        have e : ∃ s', f.ts.sys.tileStep cfg t = some s' := by
          unfold Sys.tileStep; dsimp only; rw [hp]; dsimp only [badDelay]; rw [if_neg hl]
          exact hnet _ _ _ e3
        obtain ⟨s', e⟩ := e
        exact hno e e2
  · exact adds_head hn hQ (hA t)
  · intro addr source width vec got hp
    have hrd := hT.reader (by rw [hp]; simp)
    have hrd : f.ts.sys.net.reader t = .idle := hrd
    have hp : (f.ts.sys.tile t).phase = _ := hp
    by_cases hl : (got.length : Int) < vec
    · have e2 : ∃ k, f.netPart cfg (.tile t) = some k := by
        unfold FSys.netPart Sys.netOf; dsimp only; rw [hp]; dsimp only; rw [if_pos hl]
        exact ⟨_, rfl⟩
      obtain ⟨k, e2⟩ := e2
      have e3 : ∃ n, f.ts.sys.net.act cfg.net (.startRead t source) = some n := by
        unfold Net.act
        rw [if_neg (by rw [hnc]; simp [NetAct.tile, ht])]
        dsimp only [Net.startRead]
        rw [hrd]
        dsimp only
        split <;> exact ⟨_, rfl⟩
      obtain ⟨n, e3⟩ := e3
      have e : ∃ s', f.ts.sys.tileStep cfg t = some s' := by
        unfold Sys.tileStep; dsimp only; rw [hp]; dsimp only; rw [if_pos hl]
        exact hnet _ _ _ e3
      obtain ⟨s', e⟩ := e
      exact hno e e2
    · have e2 : f.netPart cfg (.tile t) = some f.clk := by
        unfold FSys.netPart Sys.netOf; dsimp only; rw [hp]; dsimp only; rw [if_neg hl]
      have e : ∃ s', f.ts.sys.tileStep cfg t = some s' := by
        unfold Sys.tileStep; dsimp only; rw [hp]; dsimp only; rw [if_neg hl]
        exact hctrl _ _ (.inr ⟨_, _, _, rfl⟩)
      obtain ⟨s', e⟩ := e
      exact hno e e2
  · intro addr source width vec got src data hp hr
    exact hQ.got t src data hr
  · intro id hp
    have hp : (f.ts.sys.tile t).phase = _ := hp
    change wroteAnswer id (f.ts.sys.tile t).ctrl.answers = false
    cases hw : wroteAnswer id (f.ts.sys.tile t).ctrl.answers with
    | false => rfl
    | true =>
      exfalso
      have e2 : f.netPart cfg (.tile t) = some f.clk := by
        unfold FSys.netPart Sys.netOf; dsimp only; rw [hp]
      have e : ∃ s', f.ts.sys.tileStep cfg t = some s' := by
        unfold Sys.tileStep; dsimp only; rw [hp]; dsimp only; rw [if_pos hw]; exact ⟨_, rfl⟩
      obtain ⟨s', e⟩ := e
      exact hno e e2
  · intro hp
    have hst := hT.stopper (by rw [hp]; simp)
    have hp : (f.ts.sys.tile t).phase = _ := hp
    by_contra hall
    have hh : f.ts.sys.coresHalted cfg t = true := by
      unfold Sys.coresHalted
      refine List.all_eq_true.2 fun k hk => ?_
      cases hb : ((f.ts.sys.tile t).core k).phase.isHalted with
      | true => rfl
      | false => exact absurd ⟨k, List.mem_range.1 hk, hb⟩ hall
    rcases hst with hst | hst
    · have hst : f.ts.sys.net.stopper t = .running := hst
      have e2 : ∃ k, f.netPart cfg (.tile t) = some k := by
        unfold FSys.netPart Sys.netOf; dsimp only; rw [hp]; dsimp only; rw [hst]; dsimp only; rw [if_pos hh]
        exact ⟨_, rfl⟩
      obtain ⟨k, e2⟩ := e2
      have e3 : ∃ n, f.ts.sys.net.act cfg.net (.halt t) = some n := by
        unfold Net.act
        rw [if_neg (by rw [hnc]; simp [NetAct.tile, ht])]
        dsimp only [Net.halt]
        rw [hst]
        exact ⟨_, rfl⟩
      obtain ⟨n, e3⟩ := e3
      have e : ∃ s', f.ts.sys.tileStep cfg t = some s' := by
        unfold Sys.tileStep; dsimp only; rw [hp]; dsimp only; rw [if_pos hh, hst]
        exact hnet _ _ _ e3
      obtain ⟨s', e⟩ := e
      exact hno e e2
    · have hst : f.ts.sys.net.stopper t = .stopped := hst
      have e2 : ∃ k, f.netPart cfg (.tile t) = some k := by
        unfold FSys.netPart Sys.netOf; dsimp only; rw [hp]; dsimp only; rw [hst]
        exact ⟨_, rfl⟩
      obtain ⟨k, e2⟩ := e2
      have e : ∃ s', f.ts.sys.tileStep cfg t = some s' := by
        unfold Sys.tileStep; dsimp only; rw [hp]; dsimp only; rw [if_pos hh, hst]
        exact ⟨_, rfl⟩
      obtain ⟨s', e⟩ := e
      exact hno e e2
  · intro hp hst
    have hp : (f.ts.sys.tile t).phase = _ := hp
    have hst : f.ts.sys.net.stopper t = .stopped := hst
    have e2 : ∃ k, f.netPart cfg (.tile t) = some k := by
      unfold FSys.netPart Sys.netOf; dsimp only; rw [hp]; dsimp only; rw [hst]
      exact ⟨_, rfl⟩
    obtain ⟨k, e2⟩ := e2
    have e : ∃ s', f.ts.sys.tileStep cfg t = some s' := by
      unfold Sys.tileStep; dsimp only; rw [hp]; dsimp only; rw [hst]
      exact hctrl _ _ (.inl rfl)
    obtain ⟨s', e⟩ := e
    exact hno e e2
  · intro k hk hb
    have hb : ((f.ts.sys.tile t).core k).phase.isHalted = false := hb
    have hk' : cfg.hasCore t k = true := by unfold SysCfg.hasCore; simp [ht, hk]
    change (f.ts.pipe t k).doneAt = none
    obtain ⟨acts, hr⟩ := hI.pipes t k hk'
    refine run_doneAt acts hr (fun _ => rfl) ?_
    cases hd : (f.ts.pipe t k).st.done with
    | false => rfl
    | true =>
      exfalso
      rcases done_halting hI hc0 hk' hd with h1 | h1
      · unfold TSys.tick at htick
        split at htick
        swap
        · cases htick
        rename_i hall
        have h2 := List.all_eq_true.1 hall t (List.mem_range.2 ht)
        unfold TSys.tileQuiet at h2
        rw [Bool.and_eq_true] at h2
        have h3 := List.all_eq_true.1 h2.2 k (List.mem_range.2 hk)
        unfold TSys.coreQuiet at h3
        simp only [Bool.and_eq_true] at h3
        have h4 := h3.2
        rw [Option.isNone_iff_eq_none] at h4
        unfold TSys.ret at h4
        rw [h1] at h4
        dsimp only at h4
        rw [if_pos hd] at h4
        unfold Sys.coreStep at h4
        dsimp only at h4
        rw [h1] at h4
        cases h4
      · rw [h1] at hb
        cases hb

end

/-! ## Reachable states -/

structure FInv (cfg : SysCfg) (l : StageLat) (i : SysInit) (f : FSys) : Prop where
  run : ∃ bs, i.tstart.run cfg l bs = some f.ts
  net : ∃ as, TNet.run cfg.net cfg.dataMemLat {} as = some f.tnet
  times : NetTimes cfg.net f.ts.now f.ts.sys.net f.clk
  adds : AddsOk cfg.dataMemLat f.ts.now f.ts.sys.net f.clk
  tile : f.ts.sys.crashed = none → ∀ t, t < cfg.net.tiles →
    TileTimes cfg.dataMemLat.toNat cfg.cores (i.ops t) (f.tv t)
  rows : f.ts.sys.crashed = none → ∀ t, t < cfg.net.tiles → RowsInv (i.ops t) (f.tv t)
  ended : f.ts.sys.crashed = none → ∀ t, t < cfg.net.tiles → ∀ e ∈ f.ends t, e ≤ f.ts.now

theorem rowsInv_init {i : SysInit} (t : Nat) : RowsInv (i.ops t) (i.fstart.tv t) := by
  refine ⟨[], 0, rfl, fun src => ?_, fun src => rfl, fun m e a so w n h1 => ?_, rfl⟩
  · rw [readsFrom_zero]
    simp [FSys.tv, SysInit.fstart, readsFrom]
  · cases h1

theorem tileTimes_init {cfg : SysCfg} {i : SysInit} (t : Nat) :
    TileTimes cfg.dataMemLat.toNat cfg.cores (i.ops t) (i.fstart.tv t) := by
  constructor
  case cnow => rfl
  case time =>
    intro _
    rfl
  case active =>
    change (if (i.ops t).isEmpty = true then some 0 else none) = _
    cases h : (i.ops t).isEmpty <;> simp [FSys.tv, SysInit.fstart, SysInit.tstart, SysInit.start, TilePhase.isReady, h]
  all_goals simp [FSys.tv, SysInit.fstart, SysInit.tstart, SysInit.start, TilePhase.isReady, Timed.init, CorePhase.isHalted, packetsOf]

theorem tnet_run_snoc {c : NetConfig} {addLat : Int} {s' : TNet} {a : TNetAct} (as : List TNetAct) :
    ∀ {s0 s : TNet}, s0.run c addLat as = some s → s.act c addLat a = some s' → s0.run c addLat (as ++ [a]) = some s' := by
  induction as with
  | nil => intro s0 s h ha; cases h; simp [TNet.run, ha]
  | cons b as ih =>
    intro s0 s h ha
    simp only [TNet.run, Option.bind_eq_some_iff, List.cons_append] at h ⊢
    obtain ⟨u, hu, h⟩ := h
    exact ⟨u, hu, ih h ha⟩

theorem tsys_run_snoc {cfg : SysCfg} {l : StageLat} {s' : TSys} {a : TAct} (as : List TAct) :
    ∀ {s0 s : TSys}, s0.run cfg l as = some s → s.act cfg l a = some s' → s0.run cfg l (as ++ [a]) = some s' := by
  induction as with
  | nil => intro s0 s h ha; cases h; simp [TSys.run, ha]
  | cons b as ih =>
    intro s0 s h ha
    simp only [TSys.run, Option.bind_eq_some_iff, List.cons_append] at h ⊢
    obtain ⟨u, hu, h⟩ := h
    exact ⟨u, hu, ih h ha⟩

theorem finv_start {cfg : SysCfg} {l : StageLat} {i : SysInit} : FInv cfg l i i.fstart :=
  ⟨⟨[], rfl⟩, ⟨[], rfl⟩, netTimes_init cfg.net, addInv_init cfg.dataMemLat, fun _ t _ => tileTimes_init t,
    fun _ t _ => rowsInv_init t, fun _ t _ e he => absurd he (List.not_mem_nil)⟩

theorem fact_alive {cfg : SysCfg} {l : StageLat} {f f' : FSys} {a : FAct} (h : f.act cfg l a = some f') :
    f.ts.sys.crashed = none := by
  unfold FSys.act at h
  split at h
  · cases h
  · rename_i hc; simpa using hc

theorem FInv.both {cfg : SysCfg} {l : StageLat} {i : SysInit} {f : FSys} (h0 : ∀ t, GoodStart (i.mem t) (i.valid t))
    (h : FInv cfg l i f) : TSI cfg l i f.ts ∧ SysInv cfg i (f.ts.plain i) := by
  obtain ⟨bs, hb⟩ := h.run
  obtain ⟨h1, as, h2⟩ := tsys_run h0 bs (tsi_start cfg l i) ⟨[], rfl⟩ hb
  exact ⟨h1, sysInv_run h0 as _ h2⟩

theorem FInv.line {cfg : SysCfg} {l : StageLat} {i : SysInit} {f : FSys} (h0 : ∀ t, GoodStart (i.mem t) (i.valid t))
    (h : FInv cfg l i f) (t : Nat) : CtrlLine (f.ts.sys.tile t).ctrl :=
  (ctrlInv_of (h0 t) ((h.both h0).2.tile t).ctrl).line

theorem tvStep_ended {lat cores : Nat} {v v' : TV} (st : TVStep lat cores v v') (h : ∀ e ∈ v.ends, e ≤ v.now) :
    ∀ e ∈ v'.ends, e ≤ v'.now := by
  have h' : ∀ e ∈ v.ends ++ [v.now], e ≤ v.now := by
    intro e he
    rcases List.mem_append.1 he with he | he
    · exact h e he
    · rw [List.mem_singleton.1 he]
  cases st <;> first | exact h | exact h'

theorem finv_act {cfg : SysCfg} {l : StageLat} {i : SysInit} {f f' : FSys} {a : FAct}
    (h0 : ∀ t, GoodStart (i.mem t) (i.valid t)) (h : FInv cfg l i f) (ha : f.act cfg l a = some f') : FInv cfg l i f' := by
  obtain ⟨hI, hV⟩ := h.both h0
  have hc0 := fact_alive ha
  obtain ⟨hnc, hcc⟩ := hV.alive hc0
  have hnet := fact_net hnc ha
  have key : f'.ts.sys.crashed = none → ∀ t, t < cfg.net.tiles →
      TileTimes cfg.dataMemLat.toNat cfg.cores (i.ops t) (f'.tv t) ∧ RowsInv (i.ops t) (f'.tv t) ∧
        ∀ e ∈ (f'.tv t).ends, e ≤ (f'.tv t).now := by
    intro hc t ht
    have hT := h.tile hc0 t ht
    have hR := h.rows hc0 t ht
    have hline := h.line h0 t
    by_cases htick : a = .t .tick
    · subst htick
      unfold FSys.act at ha
      rw [if_neg (by rw [hc0]; simp)] at ha
      dsimp only at ha
      split at ha
      swap
      · cases ha
      rename_i hq
      rw [Option.map_eq_some_iff] at ha
      obtain ⟨ts, h1, rfl⟩ := ha
      unfold TSys.act at h1
      rw [if_neg (by rw [hc0]; simp)] at h1
      have hQ := tv_quiet ht hI hc0 hT h.times hnc (hcc t) h.adds hq h1
      dsimp only at h1
      unfold TSys.tick at h1
      split at h1
      swap
      · cases h1
      injection h1 with h1
      subst h1
      have g1 := tileTimes_tick hT hline hQ { (f.ts.sys.tile t).ctrl with now := (f.ts.sys.tile t).ctrl.now + 1 } rfl rfl rfl
      have g2 := rowsInv_tick hR { (f.ts.sys.tile t).ctrl with now := (f.ts.sys.tile t).ctrl.now + 1 } rfl rfl
      have e : (({ f with ts := { f.ts with
          sys := { f.ts.sys with tile := fun t => if t < cfg.net.tiles then (f.ts.sys.tile t).tick else f.ts.sys.tile t }
          pipe := fun t k => if cfg.hasCore t k then { f.ts.pipe t k with now := f.ts.now + 1 } else f.ts.pipe t k
          now := f.ts.now + 1 } } : FSys).tv t) =
          { f.tv t with now := f.ts.now + 1, ctrl := { (f.ts.sys.tile t).ctrl with now := (f.ts.sys.tile t).ctrl.now + 1 } } := by
        have e1 : ∀ k, (if cfg.hasCore t k then { f.ts.pipe t k with now := f.ts.now + 1 } else f.ts.pipe t k).doneAt =
            (f.ts.pipe t k).doneAt := by intro k; split <;> rfl
        simp [FSys.tv, ht, TileSt.tick, e1]
      rw [e]
      exact ⟨g1, g2, fun e he => Nat.le_succ_of_le (h.ended hc0 t ht e he)⟩
    · have st := tv_act hI h.times.stop ha htick hc t
      exact ⟨tileTimes_step hT hline st, rowsInv_step hT hline hR st, tvStep_ended st (h.ended hc0 t ht)⟩
  refine ⟨?_, ?_, ?_, ?_, fun hc t ht => ?_, fun hc t ht => ?_, fun hc t ht => ?_⟩
  · obtain ⟨bs, hb⟩ := h.run
    rcases fact_ts ha with ⟨b, -, hb'⟩ | ⟨-, hb'⟩
    · exact ⟨bs ++ [b], tsys_run_snoc bs hb hb'⟩
    · exact ⟨bs, by rw [hb']; exact hb⟩
  · obtain ⟨as, hb⟩ := h.net
    rcases hnet with ⟨b, hb'⟩ | hb'
    · exact ⟨as ++ [b], tnet_run_snoc as hb hb'⟩
    · exact ⟨as, by rw [hb']; exact hb⟩
  · rcases hnet with ⟨b, hb'⟩ | hb'
    · exact netTimes_tact (s := f.tnet) (s' := f'.tnet) h.times hb'
    · have := h.times
      change NetTimes cfg.net f'.tnet.now f'.tnet.net f'.tnet.clk
      rw [hb']; exact this
  · rcases hnet with ⟨b, hb'⟩ | hb'
    · exact addInv_tact (s := f.tnet) (s' := f'.tnet) h.times h.adds hb'
    · have := h.adds
      change AddsOk cfg.dataMemLat f'.tnet.now f'.tnet.net f'.tnet.clk
      rw [hb']; exact this
  · exact (key hc t ht).1
  · exact (key hc t ht).2.1
  · exact (key hc t ht).2.2

theorem finv_run {cfg : SysCfg} {l : StageLat} {i : SysInit} (h0 : ∀ t, GoodStart (i.mem t) (i.valid t)) (acts : List FAct) :
    ∀ {f f' : FSys}, FInv cfg l i f → f.run cfg l acts = some f' → FInv cfg l i f' := by
  induction acts with
  | nil => intro f f' h hr; cases hr; exact h
  | cons a as ih =>
    intro f f' h hr
    simp only [FSys.run, Option.bind_eq_some_iff] at hr
    obtain ⟨f1, h1, h2⟩ := hr
    exact ih (finv_act h0 h h1) h2

end Ramwich
