import Verif.Model.TimedSystem
import Verif.Lemmas.SysInv
import Verif.Lemmas.TimedPipeline

/-! # The node with pipelines and a clock refines the node without -/
namespace Ramwich

open Pipeline

/-- The node with other programs in the cores. -/
def Sys.withProg (P : Nat → Nat → List CoreOp) (s : Sys) : Sys :=
  { s with tile := fun t => { s.tile t with core := fun k => { (s.tile t).core k with prog := P t k } } }

theorem upd_fun {β γ : Type} (f : Nat → β) (i : Nat) (b : β) (g : Nat → β → γ) :
    (fun j => g j (upd f i b j)) = upd (fun j => g j (f j)) i (g i b) := by
  funext j
  by_cases h : j = i
  · subst h; rw [upd_same, upd_same]
  · rw [upd_ne _ _ _ _ h, upd_ne _ _ _ _ h]

theorem upd_upd {β : Type} (f : Nat → β) (i : Nat) (b c : β) : upd (upd f i b) i c = upd f i c := by
  funext j
  by_cases h : j = i
  · subst h; rw [upd_same, upd_same]
  · rw [upd_ne _ _ _ _ h, upd_ne _ _ _ _ h, upd_ne _ _ _ _ h]

theorem upd_eq {β : Type} (f : Nat → β) (i : Nat) : upd f i (f i) = f := by
  funext j
  by_cases h : j = i
  · subst h; rw [upd_same]
  · rw [upd_ne _ _ _ _ h]

/-- The tile with other programs. -/
def TileSt.withProg (P : Nat → List CoreOp) (x : TileSt) : TileSt :=
  { x with core := fun k => { x.core k with prog := P k } }

theorem withProg_tile (P : Nat → Nat → List CoreOp) (s : Sys) (t : Nat) :
    (s.withProg P).tile t = (s.tile t).withProg (P t) := rfl

theorem withProg_setTile (P : Nat → Nat → List CoreOp) (s : Sys) (t : Nat) (x : TileSt) :
    (s.setTile t x).withProg P = (s.withProg P).setTile t (x.withProg (P t)) := by
  unfold Sys.setTile Sys.withProg
  dsimp only
  congr 1
  exact upd_fun s.tile t x (fun j y => y.withProg (P j))

theorem withProg_crash (P : Nat → Nat → List CoreOp) (s : Sys) (e : PyErr) :
    (s.crash e).withProg P = (s.withProg P).crash e := rfl

theorem withProg_ctrlAct (cfg : SysCfg) (P Q : Nat → Nat → List CoreOp) (s : Sys) (t : Nat) (a : CtrlAct)
    (f g : Sys → Sys) (hP : ∀ c, (s.tile t).ctrl.act cfg.edramLat a = some c → c.crashed.isSome = true → P = Q)
    (h : ∀ c, (s.tile t).ctrl.act cfg.edramLat a = some c → c.crashed = none →
      (f (s.setTile t { s.tile t with ctrl := c })).withProg Q =
        g ((s.withProg P).setTile t { (s.tile t).withProg (P t) with ctrl := c })) :
    (s.withProg P).ctrlAct cfg t a g = (s.ctrlAct cfg t a f).map (Sys.withProg Q) := by
  unfold Sys.ctrlAct
  rw [withProg_tile]
  have : ((s.tile t).withProg (P t)).ctrl = (s.tile t).ctrl := rfl
  rw [this]
  cases hc : (s.tile t).ctrl.act cfg.edramLat a with
  | none => rfl
  | some c =>
    simp only [Option.map_some, Option.some.injEq]
    cases hcr : c.crashed with
    | none => exact (h c hc hcr).symm
    | some e =>
      have := hP c hc (by rw [hcr]; rfl)
      subst this
      dsimp only
      rw [withProg_crash, withProg_setTile]
      rfl

theorem withProg_netAct (cfg : SysCfg) (P : Nat → Nat → List CoreOp) (s : Sys) (a : NetAct)
    (f : Sys → Sys) (h : ∀ s' : Sys, (f s').withProg P = f (s'.withProg P)) :
    (s.withProg P).netAct cfg a f = (s.netAct cfg a f).map (Sys.withProg P) := by
  unfold Sys.netAct
  have : (s.withProg P).net = s.net := rfl
  rw [this]
  cases hc : s.net.act cfg.net a with
  | none => rfl
  | some n =>
    simp only [Option.map_some, Option.some.injEq]
    cases hcr : n.crashed with
    | none => exact (h { s with net := n }).symm
    | some e => rfl

theorem withProg_setPhase (P : Nat → Nat → List CoreOp) (s : Sys) (t : Nat) (p : TilePhase) :
    (s.setPhase t p).withProg P = (s.withProg P).setPhase t p := by
  unfold Sys.setPhase
  rw [withProg_setTile]
  rfl

theorem withProg_logPhase (P : Nat → Nat → List CoreOp) (s : Sys) (t : Nat) (e : TileEv) (p : TilePhase) :
    (s.logPhase t e p).withProg P = (s.withProg P).logPhase t e p := by
  unfold Sys.logPhase
  rw [withProg_setTile]
  rfl

/-- A controller action with a continuation that does not look at the programs. -/
theorem withProg_ctrlAct' (cfg : SysCfg) (P : Nat → Nat → List CoreOp) (s : Sys) (t : Nat) (a : CtrlAct)
    (f : Sys → Sys) (h : ∀ s' : Sys, (f s').withProg P = f (s'.withProg P)) :
    (s.withProg P).ctrlAct cfg t a f = (s.ctrlAct cfg t a f).map (Sys.withProg P) := by
  refine withProg_ctrlAct cfg P P s t a f f (fun _ _ _ => rfl) (fun c _ _ => ?_)
  rw [h, withProg_setTile]
  rfl

theorem withProg_tileStep (cfg : SysCfg) (P : Nat → Nat → List CoreOp) (s : Sys) (t : Nat) :
    (s.withProg P).tileStep cfg t = (s.tileStep cfg t).map (Sys.withProg P) := by
  unfold Sys.tileStep
  rw [withProg_tile]
  dsimp only [TileSt.withProg]
  cases hp : (s.tile t).phase with
  | ready =>
    dsimp only
    cases ho : (s.tile t).ops with
    | nil => rfl
    | cons op rest =>
      dsimp only
      unfold Sys.tileStart
      rw [withProg_tile]
      dsimp only [TileSt.withProg]
      cases op with
      | send addr target width vec =>
        dsimp only
        refine withProg_ctrlAct' cfg P s t _ _ (fun s' => ?_)
        rw [withProg_setTile]
        rfl
      | receive addr source width vec =>
        dsimp only
        split
        · rfl
        · simp only [Option.map_some, withProg_setTile]
          rfl
      | halt =>
        simp only [Option.map_some, withProg_setTile]
        rfl
  | sendWait id addr target width vec =>
    dsimp only
    split
    · rfl
    · split
      · rfl
      · simp only [Option.map_some, withProg_logPhase]
  | sending target todo =>
    dsimp only
    split
    · simp only [Option.map_some, withProg_setPhase]
    · split
      · rfl
      · exact withProg_netAct cfg P s _ _ (fun s' => withProg_setPhase P s' _ _)
  | adding target todo =>
    exact withProg_netAct cfg P s _ _ (fun s' => withProg_setPhase P s' _ _)
  | recving addr source width vec got =>
    dsimp only
    split
    · exact withProg_netAct cfg P s _ _ (fun s' => withProg_setPhase P s' _ _)
    · exact withProg_ctrlAct' cfg P s t _ _ (fun s' => withProg_logPhase P s' _ _ _)
  | recvWait addr source width vec got =>
    dsimp only
    have : (s.withProg P).net = s.net := rfl
    rw [this]
    split
    · exact withProg_netAct cfg P s _ _ (fun s' => withProg_logPhase P s' _ _ _)
    · rfl
  | recvWrite id =>
    dsimp only
    split
    · simp only [Option.map_some, withProg_setPhase]
    · rfl
  | haltCores =>
    dsimp only
    have h1 : (s.withProg P).coresHalted cfg t = s.coresHalted cfg t := rfl
    have h2 : (s.withProg P).net = s.net := rfl
    rw [h1, h2]
    split
    · split
      · simp only [Option.map_some, withProg_setPhase]
      · exact withProg_netAct cfg P s _ _ (fun s' => withProg_setPhase P s' _ _)
    · rfl
  | haltRouter =>
    dsimp only
    have h2 : (s.withProg P).net = s.net := rfl
    rw [h2]
    split
    · exact withProg_ctrlAct' cfg P s t _ _ (fun s' => withProg_logPhase P s' _ _ _)
    · exact withProg_netAct cfg P s _ _ (fun s' => rfl)

/-- Actions that are not of a core do not look at the programs. -/
theorem withProg_act (cfg : SysCfg) (P : Nat → Nat → List CoreOp) (s : Sys) (a : SysAct)
    (ha : ∀ t k, a ≠ .core t k) : (s.withProg P).act cfg a = (s.act cfg a).map (Sys.withProg P) := by
  unfold Sys.act
  have : (s.withProg P).crashed = s.crashed := rfl
  rw [this]
  split
  · rfl
  · cases a with
    | core t k => exact absurd rfl (ha t k)
    | ctrl t a =>
      cases a with
      | submit => rfl
      | stop => rfl
      | _ =>
        dsimp only
        split
        · exact withProg_ctrlAct' cfg P s t _ _ (fun s' => rfl)
        · rfl
    | thread t => exact withProg_netAct cfg P s _ _ (fun s' => rfl)
    | take t => exact withProg_netAct cfg P s _ _ (fun s' => rfl)
    | tile t =>
      dsimp only
      split
      · exact withProg_tileStep cfg P s t
      · rfl

theorem withProg_setCore (P : Nat → Nat → List CoreOp) (s : Sys) (t k : Nat) (x : CoreSt) :
    (s.setCore t k x).withProg P = (s.withProg P).setCore t k { x with prog := P t k } := by
  unfold Sys.setCore
  rw [withProg_setTile, withProg_tile]
  congr 1
  unfold TileSt.withProg
  dsimp only
  congr 1
  exact upd_fun (s.tile t).core k x (fun j (y : CoreSt) => { y with prog := P t j })

/-- Another program for one core. -/
theorem withProg_setCore_upd (P : Nat → Nat → List CoreOp) (s : Sys) (t k : Nat) (x : CoreSt) (q : List CoreOp) :
    (s.setCore t k x).withProg (upd2 P t k q) = (s.withProg P).setCore t k { x with prog := q } := by
  rw [withProg_setCore]
  unfold Sys.setCore Sys.setTile Sys.withProg
  dsimp only
  congr 1
  funext j
  by_cases h : j = t
  · subst h
    rw [upd_same, upd_same]
    congr 1
    funext i
    by_cases h' : i = k
    · subst h'
      rw [upd_same, upd_same]
      simp [upd2, upd_same]
    · rw [upd_ne _ _ _ _ h', upd_ne _ _ _ _ h']
      simp [upd2, upd_same, upd_ne _ _ _ _ h']
  · rw [upd_ne _ _ _ _ h, upd_ne _ _ _ _ h]
    simp [upd2, upd_ne _ _ _ _ h]

/-- A core that is not about to start an operation does not look at its program. -/
theorem withProg_coreStep (cfg : SysCfg) (P : Nat → Nat → List CoreOp) (s : Sys) (t k : Nat)
    (hp : ((s.tile t).core k).phase ≠ .ready) :
    (s.withProg P).coreStep cfg t k = (s.coreStep cfg t k).map (Sys.withProg P) := by
  unfold Sys.coreStep
  rw [withProg_tile]
  dsimp only [TileSt.withProg]
  cases hph : ((s.tile t).core k).phase with
  | ready => exact absurd hph hp
  | timing => simp only [Option.map_some, withProg_setCore]
  | loadWait id addr dest read width vec =>
    dsimp only
    split
    · rfl
    · split
      · rfl
      · simp only [Option.map_some, withProg_setCore]
  | loadGot dest data =>
    dsimp only
    split
    · rfl
    · simp only [Option.map_some, withProg_setCore]
  | storeDelay addr data rows =>
    dsimp only
    refine withProg_ctrlAct cfg P P s t _ _ _ (fun _ _ _ => rfl) (fun c _ _ => ?_)
    rw [withProg_setCore, withProg_setTile]
    rfl
  | storeWait id =>
    dsimp only
    by_cases h : wroteAnswer id (s.tile t).ctrl.answers = true
    · simp only [h, if_true, Option.map_some, withProg_setCore]
    · simp [h]
  | halting => simp only [Option.map_some, withProg_setCore]
  | halted => rfl

theorem setCore_crashed (s : Sys) (t k : Nat) (x : CoreSt) : (s.setCore t k x).crashed = s.crashed := rfl

/-- What an operation does when it starts does not depend on the program, which then lacks the operation. -/
theorem withProg_coreStart (cfg : SysCfg) (P : Nat → Nat → List CoreOp) (s : Sys) (hs : s.crashed = none) (t k : Nat)
    (op : CoreOp) (rest : List CoreOp) :
    (s.withProg P).coreStart cfg t k op rest =
      (s.coreStart cfg t k op []).map fun s' =>
        s'.withProg (if s'.crashed.isSome then P else upd2 P t k (if op = .hlt then [] else rest)) := by
  have core : ∀ (e : CoreEv) (c : Core) (ph : CorePhase) (q : List CoreOp),
      some ((s.withProg P).setCore t k { core := c, prog := q, phase := ph, log := ((s.tile t).core k).log ++ [e] }) =
        (some (s.setCore t k { core := c, prog := [], phase := ph, log := ((s.tile t).core k).log ++ [e] })).map
          fun s' => s'.withProg (if s'.crashed.isSome then P else upd2 P t k q) := by
    intro e c ph q
    simp only [Option.map_some, setCore_crashed, hs, Option.isSome_none]
    rw [if_neg (by decide), withProg_setCore_upd]
  have bad : ∀ (e : PyErr) (q : List CoreOp), some ((s.withProg P).crash e) =
      (some (s.crash e)).map fun s' => s'.withProg (if s'.crashed.isSome then P else upd2 P t k q) := by
    intro e q
    simp only [Option.map_some]
    rfl
  have simple : ∀ op : CoreOp, ((match ((s.tile t).core k).core.execute cfg.fl
        (cfg.noise t k ((s.tile t).core k).log.length) op with
      | (.error e, _) => some ((s.withProg P).crash e)
      | (.ok (), c) =>
        match badDelay (cfg.execLat op) with
        | some e => some ((s.withProg P).crash e)
        | none => some ((s.withProg P).setCore t k {
            core := c
            prog := if op = .hlt then [] else rest
            phase := if op = .hlt then .halting else .timing
            log := ((s.tile t).core k).log ++ [⟨op, 0, [], c⟩] })) : Option Sys) =
      ((match ((s.tile t).core k).core.execute cfg.fl
        (cfg.noise t k ((s.tile t).core k).log.length) op with
      | (.error e, _) => some (s.crash e)
      | (.ok (), c) =>
        match badDelay (cfg.execLat op) with
        | some e => some (s.crash e)
        | none => some (s.setCore t k {
            core := c
            prog := if op = .hlt then [] else []
            phase := if op = .hlt then .halting else .timing
            log := ((s.tile t).core k).log ++ [⟨op, 0, [], c⟩] })) : Option Sys).map fun s' =>
        s'.withProg (if s'.crashed.isSome then P else upd2 P t k (if op = .hlt then [] else rest)) := by
    intro op
    split
    · exact bad _ _
    · split
      · exact bad _ _
      · have : (if op = .hlt then ([] : List CoreOp) else []) = [] := by split <;> rfl
        rw [this]
        exact core _ _ _ _
  unfold Sys.coreStart
  rw [withProg_tile]
  dsimp only [TileSt.withProg]
  cases op with
  | load dest read width vec =>
    dsimp only
    rw [if_neg (by simp)]
    split
    · exact bad _ _
    · rename_i addr c hl
      unfold Sys.ctrlAct
      rw [withProg_tile]
      dsimp only [TileSt.withProg]
      cases hc : (s.tile t).ctrl.act cfg.edramLat (.submit k addr (.read width vec)) with
      | none => rfl
      | some c' =>
        simp only [Option.map_some, Option.some.injEq]
        cases hcr : c'.crashed with
        | some e =>
          dsimp only
          rw [if_pos (show ((s.setTile t _).crash e).crashed.isSome = true from rfl), withProg_crash, withProg_setTile]
          rfl
        | none =>
          dsimp only
          rw [setCore_crashed, if_neg (by simp [Sys.setTile, hs]), withProg_setCore_upd, withProg_setTile]
          rfl
  | store dest read width vec =>
    dsimp only
    rw [if_neg (by simp)]
    split
    · exact bad _ _
    · split
      · exact bad _ _
      · exact core _ _ _ _
  | set a b c => exact simple (.set a b c)
  | copy a b c => exact simple (.copy a b c)
  | vfu a b c d e => exact simple (.vfu a b c d e)
  | mvm a => exact simple (.mvm a)
  | hlt => exact simple .hlt

end Ramwich
