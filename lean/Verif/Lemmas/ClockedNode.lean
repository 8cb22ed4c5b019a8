import Verif.Model.ClockedNode
import Verif.Lemmas.TimedNetAdd
import Verif.Lemmas.TimedSysEnd

/-! # The node with one clock: its parts -/
namespace Ramwich

open Spec
open Pipeline (upd)

theorem ctrlAct_net {cfg : SysCfg} {s s' : Sys} {t : Nat} {a : CtrlAct} {g : Sys → Sys}
    (h : s.ctrlAct cfg t a g = some s') (hg : ∀ s, (g s).net = s.net) : s'.net = s.net := by
  unfold Sys.ctrlAct at h
  cases hc : (s.tile t).ctrl.act cfg.edramLat a with
  | none => rw [hc] at h; cases h
  | some c =>
    rw [hc] at h
    simp only [Option.map_some, Option.some.injEq] at h
    split at h <;> subst h
    · rfl
    · rw [hg]; rfl

theorem netAct_net {cfg : SysCfg} {s s' : Sys} {a : NetAct} {g : Sys → Sys} (hc : s.crashed = none)
    (h : s.netAct cfg a g = some s') (hg : ∀ s, (g s).net = s.net ∧ (g s).crashed = s.crashed) :
    s.net.act cfg.net a = some s'.net ∧ (s'.net.crashed.isSome = s'.crashed.isSome) := by
  unfold Sys.netAct at h
  cases hn : s.net.act cfg.net a with
  | none => rw [hn] at h; cases h
  | some n =>
    rw [hn] at h
    simp only [Option.map_some, Option.some.injEq] at h
    split at h <;> subst h
    · rename_i e he
      refine ⟨rfl, ?_⟩
      change n.crashed.isSome = _
      rw [he]; rfl
    · rename_i he
      rw [(hg _).1, (hg _).2]
      refine ⟨rfl, ?_⟩
      change n.crashed.isSome = s.crashed.isSome
      rw [he, hc]

theorem net_setPhase (s : Sys) (t : Nat) (p : TilePhase) : (s.setPhase t p).net = s.net ∧ (s.setPhase t p).crashed = s.crashed :=
  ⟨rfl, rfl⟩
theorem net_logPhase (s : Sys) (t : Nat) (e : TileEv) (p : TilePhase) :
    (s.logPhase t e p).net = s.net ∧ (s.logPhase t e p).crashed = s.crashed := ⟨rfl, rfl⟩

/-- `Sys.netOf` is what happens to the routers. -/
def NetPart (cfg : SysCfg) (s s' : Sys) (o : Option NetAct) : Prop :=
  match o with
  | none => s'.net = s.net
  | some na => s.net.act cfg.net na = some s'.net ∧ (s'.net.crashed.isSome = s'.crashed.isSome)

theorem tileStep_net {cfg : SysCfg} {s s' : Sys} {t : Nat} (hc : s.crashed = none) (h : s.tileStep cfg t = some s') :
    NetPart cfg s s' (s.netOf cfg (.tile t)) := by
  unfold Sys.tileStep at h
  unfold Sys.netOf
  dsimp only at h ⊢
  cases hp : (s.tile t).phase with
  | ready =>
    rw [hp] at h
    dsimp only at h ⊢
    split at h
    · cases h
    · unfold Sys.tileStart at h
      dsimp only at h
      split at h
      · exact ctrlAct_net h fun _ => rfl
      · split at h <;> (injection h with h; subst h; rfl)
      · injection h with h; subst h; rfl
  | sendWait id addr target width vec =>
    rw [hp] at h
    dsimp only at h ⊢
    split at h
    · cases h
    · split at h <;> (injection h with h; subst h; rfl)
  | sending target todo =>
    rw [hp] at h
    cases todo with
    | nil => dsimp only at h ⊢; injection h with h; subst h; rfl
    | cons row rows =>
      dsimp only [badDelay] at h ⊢
      by_cases hl : cfg.dataMemLat < 0
      · simp only [hl, if_true] at h ⊢
        injection h with h; subst h; rfl
      · simp only [hl, if_false] at h ⊢
        exact netAct_net hc h fun s => net_setPhase s _ _
  | adding target todo =>
    rw [hp] at h
    exact netAct_net hc h fun s => net_setPhase s _ _
  | recving addr source width vec got =>
    rw [hp] at h
    dsimp only at h ⊢
    by_cases hl : (got.length : Int) < vec
    · simp only [hl, if_true] at h ⊢
      exact netAct_net hc h fun s => net_setPhase s _ _
    · simp only [hl, if_false] at h ⊢
      exact ctrlAct_net h fun _ => rfl
  | recvWait addr source width vec got =>
    rw [hp] at h
    dsimp only at h ⊢
    cases hr : s.net.reader t with
    | got src data =>
      rw [hr] at h
      exact netAct_net hc h fun s => net_logPhase s _ _ _
    | idle => rw [hr] at h; cases h
    | waiting src => rw [hr] at h; cases h
  | recvWrite id =>
    rw [hp] at h
    dsimp only at h ⊢
    split at h
    · injection h with h; subst h; rfl
    · cases h
  | haltCores =>
    rw [hp] at h
    dsimp only at h ⊢
    by_cases hl : s.coresHalted cfg t = true
    · simp only [hl, if_true] at h ⊢
      cases hs : s.net.stopper t with
      | stopped => rw [hs] at h; dsimp only at h ⊢; injection h with h; subst h; rfl
      | running => rw [hs] at h; exact netAct_net hc h fun s => net_setPhase s _ _
      | checking => rw [hs] at h; exact netAct_net hc h fun s => net_setPhase s _ _
      | emptied => rw [hs] at h; exact netAct_net hc h fun s => net_setPhase s _ _
      | waiting => rw [hs] at h; exact netAct_net hc h fun s => net_setPhase s _ _
    · simp only [hl, if_false] at h
      cases h
  | haltRouter =>
    rw [hp] at h
    dsimp only at h ⊢
    cases hs : s.net.stopper t with
    | stopped => rw [hs] at h; exact ctrlAct_net h fun _ => rfl
    | running => rw [hs] at h; exact netAct_net hc h fun s => ⟨rfl, rfl⟩
    | checking => rw [hs] at h; exact netAct_net hc h fun s => ⟨rfl, rfl⟩
    | emptied => rw [hs] at h; exact netAct_net hc h fun s => ⟨rfl, rfl⟩
    | waiting => rw [hs] at h; exact netAct_net hc h fun s => ⟨rfl, rfl⟩

theorem coreStep_net {cfg : SysCfg} {s s' : Sys} {t k : Nat} (h : s.coreStep cfg t k = some s')
    (hnr : ((s.tile t).core k).phase ≠ .ready) : s'.net = s.net := by
  unfold Sys.coreStep at h
  dsimp only at h
  split at h
  · rename_i hp; exact absurd hp hnr
  · injection h with h; subst h; rfl
  · split at h
    · cases h
    · split at h <;> (injection h with h; subst h; rfl)
  · split at h <;> (injection h with h; subst h; rfl)
  · exact ctrlAct_net h fun _ => rfl
  · split at h
    · injection h with h; subst h; rfl
    · cases h
  · injection h with h; subst h; rfl
  · cases h

theorem coreStart_net {cfg : SysCfg} {s s' : Sys} {t k : Nat} {op : CoreOp} {rest : List CoreOp}
    (h : s.coreStart cfg t k op rest = some s') : s'.net = s.net := by
  unfold Sys.coreStart at h
  dsimp only at h
  repeat' split at h
  all_goals first
    | (injection h with h; subst h; rfl)
    | exact ctrlAct_net h fun _ => rfl

theorem sysAct_net {cfg : SysCfg} {s s' : Sys} {b : SysAct} (hb : ∀ t k, b ≠ .core t k) (h : s.act cfg b = some s') :
    NetPart cfg s s' (s.netOf cfg b) := by
  unfold Sys.act at h
  split at h
  · cases h
  rename_i hc
  have hc : s.crashed = none := by simpa using hc
  cases b with
  | core t k => exact absurd rfl (hb t k)
  | thread t => exact netAct_net hc h fun s => ⟨rfl, rfl⟩
  | take t => exact netAct_net hc h fun s => ⟨rfl, rfl⟩
  | tile t =>
    dsimp only at h
    split at h
    · exact tileStep_net hc h
    · cases h
  | ctrl t a =>
    change s'.net = s.net
    cases a <;> dsimp only at h <;> first
      | (cases h; done)
      | (split at h
         · exact ctrlAct_net h fun _ => rfl
         · cases h)

theorem tsAct_other {cfg : SysCfg} {l : StageLat} {s s' : TSys} {b : SysAct} (h : s.act cfg l (.other b) = some s') :
    s.sys.crashed = none ∧ (∀ t k, b ≠ .core t k) ∧ (∀ t, b ≠ .ctrl t .tick) ∧ ∃ sys, s.sys.act cfg b = some sys ∧
      s' = { s with sys := sys } := by
  unfold TSys.act at h
  split at h
  · cases h
  rename_i hc
  refine ⟨by simpa using hc, ?_⟩
  dsimp only at h
  split at h
  · cases h
  · cases h
  · rename_i h1 h2
    rw [Option.map_eq_some_iff] at h
    obtain ⟨sys, h3, h4⟩ := h
    exact ⟨fun t k e => h1 t k e, fun t e => h2 t e, sys, h3, h4.symm⟩

/-- The cores do nothing to the routers. -/
theorem tsAct_net {cfg : SysCfg} {l : StageLat} {s s' : TSys} {a : TAct} (ha : ∀ b, a ≠ .other b) (h : s.act cfg l a = some s') :
    s'.sys.net = s.sys.net ∧ (a ≠ .tick → s'.now = s.now) ∧ (a = .tick → s'.now = s.now + 1) := by
  unfold TSys.act at h
  split at h
  · cases h
  cases a with
  | other b => exact absurd rfl (ha b)
  | tick =>
    unfold TSys.tick at h
    dsimp only at h
    split at h
    · injection h with h; subst h; exact ⟨rfl, fun e => absurd rfl e, fun _ => rfl⟩
    · cases h
  | pipe t k a =>
    dsimp only at h
    split at h
    · unfold TSys.pipeAct at h
      split at h
      · cases h
      · cases h
      · rw [Option.map_eq_some_iff] at h
        obtain ⟨p, -, h⟩ := h
        subst h
        exact ⟨rfl, fun _ => rfl, fun e => by cases e⟩
    · cases h
  | exec t k =>
    dsimp only at h
    split at h
    · unfold TSys.exec at h
      split at h
      · rw [Option.map_eq_some_iff] at h
        obtain ⟨sys, h1, h⟩ := h
        have := coreStart_net h1
        split at h <;> subst h <;> exact ⟨this, fun _ => rfl, fun e => by cases e⟩
      · cases h
    · cases h
  | mid t k =>
    dsimp only at h
    split at h
    · unfold TSys.mid at h
      split at h
      · rename_i hph
        rw [Option.map_eq_some_iff] at h
        obtain ⟨sys, h1, h⟩ := h
        have := coreStep_net h1 (by rw [hph]; simp)
        split at h <;> subst h <;> exact ⟨this, fun _ => rfl, fun e => by cases e⟩
      · rename_i hph
        split at h
        · rw [Option.map_eq_some_iff] at h
          obtain ⟨sys, h1, h⟩ := h
          have := coreStep_net h1 (by rw [hph]; simp)
          split at h <;> subst h <;> exact ⟨this, fun _ => rfl, fun e => by cases e⟩
        · cases h
      · cases h
    · cases h
  | fin t k =>
    dsimp only at h
    split at h
    · unfold TSys.fin at h
      split at h
      · rename_i hph
        split at h
        · split at h
          · rename_i sys p h1 _
            have := coreStep_net h1 (by rw [hph]; simp)
            injection h with h
            split at h <;> subst h <;> exact ⟨this, fun _ => rfl, fun e => by cases e⟩
          · cases h
        · cases h
      · rename_i hph
        split at h
        · split at h
          · rename_i sys p h1 _
            have := coreStep_net h1 (by rw [hph]; simp)
            injection h with h
            split at h <;> subst h <;> exact ⟨this, fun _ => rfl, fun e => by cases e⟩
          · cases h
        · cases h
      · rename_i hph
        split at h
        · rename_i sys p h1 _
          have := coreStep_net h1 (by rw [hph]; simp)
          injection h with h
          split at h <;> subst h <;> exact ⟨this, fun _ => rfl, fun e => by cases e⟩
        · cases h
      · split at h
        · rw [Option.map_eq_some_iff] at h
          obtain ⟨p, -, h⟩ := h
          subst h
          exact ⟨rfl, fun _ => rfl, fun e => by cases e⟩
        · cases h
      · cases h
    · cases h
  | ret t k =>
    dsimp only at h
    split at h
    · unfold TSys.ret at h
      split at h
      · rename_i hph
        split at h
        · rw [Option.map_eq_some_iff] at h
          obtain ⟨sys, h1, h⟩ := h
          have := coreStep_net h1 (by rw [hph]; simp)
          subst h
          exact ⟨this, fun _ => rfl, fun e => by cases e⟩
        · cases h
      · cases h
    · cases h

/-! ## Runs of the parts -/

/-- The routers of the node with their clock. -/
def FSys.tnet (f : FSys) : TNet := ⟨f.ts.sys.net, f.clk, f.ts.now⟩

theorem mark_parts (f : FSys) (t : Nat) (x y : TileSt) : (f.mark t x y).ts = f.ts ∧ (f.mark t x y).clk = f.clk := by
  unfold FSys.mark
  split <;> exact ⟨rfl, rfl⟩

theorem other_cases {cfg : SysCfg} {l : StageLat} {f f' : FSys} {b : SysAct} (h : f.other cfg l b = some f') :
    ∃ ts k, f.ts.act cfg l (.other b) = some ts ∧ f.netPart cfg b = some k ∧ f'.ts = ts ∧
      (ts.sys.crashed.isSome = true ∧ f' = { f with ts := ts } ∨ ts.sys.crashed = none ∧ f'.clk = k ∧
        ((∃ t, b = .tile t ∧ f' = { f with ts := ts, clk := k }.mark t (f.ts.sys.tile t) (ts.sys.tile t)) ∨
          (∀ t, b ≠ .tile t) ∧ f' = { f with ts := ts, clk := k })) := by
  unfold FSys.other at h
  split at h
  swap
  · cases h
  rename_i ts k h1 h2
  split at h
  · rename_i hc
    injection h with h
    subst h
    exact ⟨ts, k, h1, h2, rfl, .inl ⟨hc, rfl⟩⟩
  · rename_i hc
    have hc : ts.sys.crashed = none := by simpa using hc
    dsimp only at h
    split at h
    · rename_i t
      injection h with h
      subst h
      exact ⟨ts, k, h1, h2, (mark_parts _ _ _ _).1, .inr ⟨hc, (mark_parts _ _ _ _).2, .inl ⟨t, rfl, rfl⟩⟩⟩
    · rename_i hb
      injection h with h
      subst h
      exact ⟨ts, k, h1, h2, rfl, .inr ⟨hc, rfl, .inr ⟨fun t e => hb t e, rfl⟩⟩⟩

/-- One action of the node is at most one action of the node without the clock of the routers. -/
theorem fact_ts {cfg : SysCfg} {l : StageLat} {f f' : FSys} {a : FAct} (h : f.act cfg l a = some f') :
    (∃ b, a = .t b ∧ f.ts.act cfg l b = some f'.ts) ∨ ((∀ b, a ≠ .t b) ∧ f'.ts = f.ts) := by
  unfold FSys.act at h
  split at h
  · cases h
  cases a with
  | t b =>
    left
    refine ⟨b, rfl, ?_⟩
    dsimp only at h
    split at h
    · split at h
      · rw [Option.map_eq_some_iff] at h
        obtain ⟨ts, h1, h⟩ := h
        subst h
        exact h1
      · cases h
    · obtain ⟨ts, k, h1, -, h2, -⟩ := other_cases h
      rw [h2]; exact h1
    · rw [Option.map_eq_some_iff] at h
      obtain ⟨ts, h1, h⟩ := h
      subst h
      exact h1
  | recheck i =>
    right
    refine ⟨fun b e => (by cases e), ?_⟩
    dsimp only at h
    split at h
    · rw [Option.map_eq_some_iff] at h
      obtain ⟨ts, h1, h⟩ := h
      subst h
      rfl
    · cases h
  | monitor =>
    right
    refine ⟨fun b e => (by cases e), ?_⟩
    dsimp only at h
    rw [Option.map_eq_some_iff] at h
    obtain ⟨ts, h1, h⟩ := h
    subst h
    rfl

theorem frun_ts {cfg : SysCfg} {l : StageLat} (acts : List FAct) : ∀ {f f' : FSys}, f.run cfg l acts = some f' →
    ∃ bs, f.ts.run cfg l bs = some f'.ts := by
  induction acts with
  | nil => intro f f' h; injection h with h; subst h; exact ⟨[], rfl⟩
  | cons a as ih =>
    intro f f' h
    simp only [FSys.run, Option.bind_eq_some_iff] at h
    obtain ⟨f1, h1, h2⟩ := h
    obtain ⟨bs, hbs⟩ := ih h2
    rcases fact_ts h1 with ⟨b, -, hb⟩ | ⟨-, hb⟩
    · exact ⟨b :: bs, by simp only [TSys.run, hb, Option.bind_some]; exact hbs⟩
    · exact ⟨bs, by rw [← hb]; exact hbs⟩

/-- One action of the node is at most one action of the routers. -/
theorem fact_net {cfg : SysCfg} {l : StageLat} {f f' : FSys} {a : FAct} (hn : f.ts.sys.net.crashed = none)
    (h : f.act cfg l a = some f') :
    (∃ b, f.tnet.act cfg.net cfg.dataMemLat b = some f'.tnet) ∨ f'.tnet = f.tnet := by
  have hn' : ¬ (f.tnet.net.crashed.isSome = true) := by
    change ¬ (f.ts.sys.net.crashed.isSome = true)
    rw [hn]; simp
  have hf := fact_ts h
  unfold FSys.act at h
  split at h
  · cases h
  cases a with
  | t b =>
    rcases hf with ⟨b', e, hts⟩ | ⟨e, -⟩
    swap
    · exact absurd rfl (e b)
    cases e
    dsimp only at h
    split at h
    · split at h
      · rename_i hq
        rw [Option.map_eq_some_iff] at h
        obtain ⟨ts, h1, h⟩ := h
        subst h
        left
        refine ⟨.tick, ?_⟩
        unfold FSys.quiet at hq
        rw [Bool.and_eq_true] at hq
        obtain ⟨e1, -, e2⟩ := tsAct_net (a := .tick) (by intro b e; cases e) h1
        unfold TNet.act
        rw [if_neg hn']
        change (if f.clk.quiet cfg.net cfg.dataMemLat f.ts.sys.net f.ts.now = true then _ else none) = _
        rw [if_pos hq.1]
        change some (TNet.mk f.ts.sys.net f.clk (f.ts.now + 1)) = some (TNet.mk ts.sys.net f.clk ts.now)
        rw [e1, e2 rfl]
      · cases h
    · rename_i b
      obtain ⟨ts, k, h1, h2, h3, h4⟩ := other_cases h
      obtain ⟨-, hb1, -, sys, h5, h6⟩ := tsAct_other h1
      have hp := sysAct_net hb1 h5
      have e1 : f'.tnet = ⟨sys.net, f'.clk, f.ts.now⟩ := by
        unfold FSys.tnet
        rw [h3, h6]
      unfold FSys.netPart at h2
      cases ho : f.ts.sys.netOf cfg b with
      | none =>
        rw [ho] at h2 hp
        injection h2 with h2
        right
        rw [e1]
        change sys.net = _ at hp
        rw [hp]
        rcases h4 with ⟨-, h4⟩ | ⟨-, h4, -⟩
        · rw [h4]; rfl
        · rw [h4, ← h2]; rfl
      | some na =>
        rw [ho] at h2 hp
        left
        refine ⟨.net na, ?_⟩
        unfold TNet.act
        rw [if_neg hn', e1]
        dsimp only [FSys.tnet] at h2 ⊢
        rw [hp.1, h2]
        dsimp only
        have hcl : f'.clk = if sys.net.crashed.isSome = true then f.clk else k := by
          rw [hp.2]
          rcases h4 with ⟨h4, h7⟩ | ⟨h4, h7, -⟩
          · rw [h6] at h4
            rw [if_pos h4, h7]
          · rw [h6] at h4
            have h4 : sys.crashed = none := h4
            rw [if_neg (by rw [h4]; simp), h7]
        rw [hcl]
    · rw [Option.map_eq_some_iff] at h
      rename_i b hb1 hb2
      obtain ⟨ts, h1, h⟩ := h
      subst h
      right
      obtain ⟨e1, e2, -⟩ := tsAct_net hb2 h1
      unfold FSys.tnet
      rw [show ts.now = f.ts.now from e2 (fun e => hb1 e), show ts.sys.net = f.ts.sys.net from e1]
  | recheck i =>
    dsimp only at h
    split at h
    · rename_i hi
      rw [Option.map_eq_some_iff] at h
      obtain ⟨k, h1, h⟩ := h
      subst h
      left
      refine ⟨.recheck i, ?_⟩
      unfold TNet.act
      rw [if_neg hn']
      dsimp only [FSys.tnet]
      rw [if_pos hi, h1]
      rfl
    · cases h
  | monitor =>
    dsimp only at h
    rw [Option.map_eq_some_iff] at h
    obtain ⟨k, h1, h⟩ := h
    subst h
    left
    refine ⟨.monitor, ?_⟩
    unfold TNet.act
    rw [if_neg hn']
    dsimp only [FSys.tnet]
    rw [h1]
    rfl

end Ramwich
