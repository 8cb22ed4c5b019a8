import Verif.Model.System
import Verif.Lemmas.NetHistory
import Verif.Lemmas.DramAnswers

/-! # The steps of a node, tile by tile -/
namespace Ramwich

open Pipeline (upd)
open Spec

/-- What tile `t` sees of the routers. -/
structure NetView where
  sent : List Packet
  readLog : Nat → List (List I32)
  reader : Reader
  stopper : Stopper

def Net.view (n : Net) (t : Nat) : NetView := ⟨n.sent t, n.readLog t, n.reader t, n.stopper t⟩

/-- Operations that use the DRAM. -/
def CoreOp.usesDram : CoreOp → Bool
  | .load .. => true
  | .store .. => true
  | _ => false

/-- The core process `k` changes. -/
def TileSt.setCore (x : TileSt) (k : Nat) (y : CoreSt) : TileSt := { x with core := upd x.core k y }

/-- The effective steps that concern tile `t`. -/
inductive TileStep (cfg : SysCfg) (t : Nat) (x : TileSt) (v : NetView) : TileSt → NetView → Prop
  | ctrl (a : CtrlAct) (c : Ctrl) (h : x.ctrl.act cfg.edramLat a = some c)
      (hs : c.submitted = x.ctrl.submitted) (hst : a = .stop → x.phase = .haltRouter) : TileStep cfg t x v { x with ctrl := c } v
  | take (src : Nat) (y : List I32) (h : v.reader = .waiting src) :
      TileStep cfg t x v x { v with reader := .got src y }
  | run (k : Nat) (op : CoreOp) (rest : List CoreOp) (c : Core) (hk : k < cfg.cores)
      (hp : (x.core k).phase = .ready) (hq : (x.core k).prog = op :: rest) (hop : op.usesDram = false)
      (he : (x.core k).core.execute cfg.fl (cfg.noise t k (x.core k).log.length) op = (.ok (), c)) :
      TileStep cfg t x v (x.setCore k {
        core := c
        prog := if op = .hlt then [] else rest
        phase := if op = .hlt then .halting else .timing
        log := (x.core k).log ++ [⟨op, 0, [], c⟩] }) v
  | timed (k : Nat) (hk : k < cfg.cores) (hp : (x.core k).phase = .timing) :
      TileStep cfg t x v (x.setCore k { x.core k with phase := .ready }) v
  | load (k : Nat) (dest read width vec : Int) (rest : List CoreOp) (addr : Int) (c : Core) (c' : Ctrl)
      (hk : k < cfg.cores) (hp : (x.core k).phase = .ready)
      (hq : (x.core k).prog = .load dest read width vec :: rest)
      (he : (x.core k).core.loadAddress read = (.ok addr, c))
      (hc : x.ctrl.act cfg.edramLat (.submit k addr (.read width vec)) = some c') (hn : c'.crashed = none) :
      TileStep cfg t x v (TileSt.setCore { x with ctrl := c' } k { x.core k with
        core := c, prog := rest
        phase := .loadWait x.ctrl.submitted.length addr dest read width vec }) v
  | loaded (k id : Nat) (addr dest read width vec : Int) (data : List I32) (hk : k < cfg.cores)
      (hp : (x.core k).phase = .loadWait id addr dest read width vec)
      (ha : readAnswer id x.ctrl.answers = some data) :
      TileStep cfg t x v (x.setCore k { x.core k with
        phase := .loadGot dest data
        log := (x.core k).log ++
          [⟨.load dest read width vec, addr, data, ((x.core k).core.loadFinish dest data).2⟩] }) v
  | loadDone (k : Nat) (dest : Int) (data : List I32) (c : Core) (hk : k < cfg.cores)
      (hp : (x.core k).phase = .loadGot dest data)
      (he : (x.core k).core.loadFinish dest data = (.ok (), c)) :
      TileStep cfg t x v (x.setCore k { x.core k with core := c, phase := .ready }) v
  | store (k : Nat) (dest read width vec : Int) (rest : List CoreOp) (addr : Int) (data : List I32) (c : Core)
      (hk : k < cfg.cores) (hp : (x.core k).phase = .ready)
      (hq : (x.core k).prog = .store dest read width vec :: rest)
      (he : (x.core k).core.storeRequest dest read width vec = (.ok (addr, data), c)) :
      TileStep cfg t x v (x.setCore k {
        core := c, prog := rest
        phase := .storeDelay addr data vec.toNat
        log := (x.core k).log ++ [⟨.store dest read width vec, addr, data, c⟩] }) v
  | stored (k : Nat) (addr : Int) (data : List I32) (rows : Nat) (c' : Ctrl) (hk : k < cfg.cores)
      (hp : (x.core k).phase = .storeDelay addr data rows)
      (hc : x.ctrl.act cfg.edramLat (.submit k addr (.write data rows)) = some c') (hn : c'.crashed = none) :
      TileStep cfg t x v (TileSt.setCore { x with ctrl := c' } k { x.core k with
        phase := .storeWait x.ctrl.submitted.length }) v
  | storeDone (k id : Nat) (hk : k < cfg.cores) (hp : (x.core k).phase = .storeWait id)
      (ha : wroteAnswer id x.ctrl.answers = true) :
      TileStep cfg t x v (x.setCore k { x.core k with phase := .ready }) v
  | halted (k : Nat) (hk : k < cfg.cores) (hp : (x.core k).phase = .halting) :
      TileStep cfg t x v (x.setCore k { x.core k with phase := .halted }) v
  | send (addr target width vec : Int) (rest : List TileOp) (c' : Ctrl) (hp : x.phase = .ready)
      (hq : x.ops = .send addr target width vec :: rest)
      (hc : x.ctrl.act cfg.edramLat (.submit (-1) addr (.read width vec)) = some c') (hn : c'.crashed = none) :
      TileStep cfg t x v { x with
        ctrl := c', ops := rest
        phase := .sendWait x.ctrl.submitted.length addr target width vec } v
  | sendGot (id : Nat) (addr target width vec : Int) (data : List I32)
      (hp : x.phase = .sendWait id addr target width vec)
      (ha : readAnswer id x.ctrl.answers = some data) (hw : 0 ≤ width) (hv : 0 ≤ vec) :
      TileStep cfg t x v { x with
        phase := .sending target (reshape vec.toNat width.toNat data)
        log := x.log ++ [.sent addr target width vec (reshape vec.toNat width.toNat data)] } v
  | sendRow (target : Int) (row : List I32) (rows : List (List I32))
      (hp : x.phase = .sending target (row :: rows)) :
      TileStep cfg t x v { x with phase := .adding target rows } { v with sent := v.sent ++ [⟨t, target, row⟩] }
  | sendEnd (target : Int) (hp : x.phase = .sending target []) :
      TileStep cfg t x v { x with phase := .ready } v
  | added (target : Int) (rows : List (List I32)) (hp : x.phase = .adding target rows) :
      TileStep cfg t x v { x with phase := .sending target rows } v
  | recv (addr source width vec : Int) (rest : List TileOp) (hp : x.phase = .ready)
      (hq : x.ops = .receive addr source width vec :: rest) (hw : 0 ≤ width) (hv : 0 ≤ vec) :
      TileStep cfg t x v { x with ops := rest, phase := .recving addr source width vec [] } v
  | recvRead (addr source width vec : Int) (got : List (List I32))
      (hp : x.phase = .recving addr source width vec got) (hg : got.length < vec) (hr : v.reader = .idle)
      (hb : cfg.net.hasBuffer t source = true) :
      TileStep cfg t x v { x with phase := .recvWait addr source width vec got }
        { v with reader := .waiting source.toNat }
  | recvRow (addr source width vec : Int) (got : List (List I32)) (src : Nat) (data : List I32)
      (hp : x.phase = .recvWait addr source width vec got) (hr : v.reader = .got src data) :
      TileStep cfg t x v { x with
        phase := if (data.length : Int) = width then .recving addr source width vec (got ++ [data]) else .ready
        log := x.log ++ [.row source data] }
        { v with reader := .idle, readLog := upd v.readLog src (v.readLog src ++ [data]) }
  | recvAll (addr source width vec : Int) (got : List (List I32)) (c' : Ctrl)
      (hp : x.phase = .recving addr source width vec got) (hg : ¬got.length < vec)
      (hc : x.ctrl.act cfg.edramLat (.submit (-1) addr (.write got.flatten vec.toNat)) = some c')
      (hn : c'.crashed = none) :
      TileStep cfg t x v { x with
        ctrl := c'
        phase := .recvWrite x.ctrl.submitted.length
        log := x.log ++ [.received addr source width vec got] } v
  | recvDone (id : Nat) (hp : x.phase = .recvWrite id) (ha : wroteAnswer id x.ctrl.answers = true) :
      TileStep cfg t x v { x with phase := .ready } v
  | halt (rest : List TileOp) (hp : x.phase = .ready) (hq : x.ops = .halt :: rest) :
      TileStep cfg t x v { x with ops := rest, phase := .haltCores } v
  | haltCores (st : Stopper) (hp : x.phase = .haltCores)
      (hh : (List.range cfg.cores).all (fun k => (x.core k).phase.isHalted) = true)
      (hs : v.stopper = .stopped ∧ st = .stopped ∨ v.stopper = .running ∧ st = .checking) :
      TileStep cfg t x v { x with phase := .haltRouter } { v with stopper := st }
  | stopStep (st : Stopper) (hp : x.phase = .haltRouter) (hs : v.stopper ≠ .running ∧ v.stopper ≠ .stopped)
      (hs' : st ≠ .running) :
      TileStep cfg t x v x { v with stopper := st }
  | haltEnd (c' : Ctrl) (hp : x.phase = .haltRouter) (hs : v.stopper = .stopped)
      (hc : x.ctrl.act cfg.edramLat .stop = some c') (hn : c'.crashed = none) :
      TileStep cfg t x v { x with ctrl := c', phase := .ready, log := x.log ++ [.halted] } v

/-! ## Actions of the routers seen from a tile -/

theorem view_thread {c : NetConfig} {n n' : Net} {i : Nat} (h : n.thread c i = some n') (t : Nat) :
    n'.view t = n.view t := by
  unfold Net.thread at h
  dsimp only at h
  repeat' split at h
  all_goals first
    | (injection h with h; subst h; rfl)
    | cases h

theorem view_added {n n' : Net} {i : Nat} (h : n.added i = some n') (t : Nat) : n'.view t = n.view t := by
  unfold Net.added at h
  split at h
  · cases h
  · injection h with h; subst h; rfl

theorem view_startRead {c : NetConfig} {n n' : Net} {i : Nat} {src : Int} (h : n.startRead c i src = some n') :
    (n'.crashed.isSome = true ∧ ∀ t, n'.view t = n.view t) ∨
    (n.reader i = .idle ∧ c.hasBuffer i src = true ∧
      n' = { n with reader := upd n.reader i (.waiting src.toNat) }) := by
  unfold Net.startRead at h
  split at h
  · split at h
    · injection h with h; subst h
      exact Or.inr ⟨by assumption, by assumption, rfl⟩
    · injection h with h; subst h
      exact Or.inl ⟨rfl, fun _ => rfl⟩
  · cases h

theorem view_take {n n' : Net} {i : Nat} (h : n.take i = some n') :
    ∃ src x rest, n.reader i = .waiting src ∧ n.buf i src = x :: rest ∧ n' = { n with
        buf := upd n.buf i (upd (n.buf i) src rest)
        reader := upd n.reader i (.got src x) } := by
  unfold Net.take at h
  split at h
  · split at h
    · cases h
    · injection h with h; subst h
      exact ⟨_, _, _, by assumption, by assumption, rfl⟩
  · cases h

theorem view_readDone {n n' : Net} {i : Nat} {y : List I32} (h : n.readDone i = some (n', y)) :
    ∃ src, n.reader i = .got src y ∧ n' = { n with
      reader := upd n.reader i .idle
      stats := upd n.stats i { n.stats i with read := (n.stats i).read + 1 }
      readLog := upd n.readLog i (upd (n.readLog i) src (n.readLog i src ++ [y])) } := by
  unfold Net.readDone at h
  split at h
  · injection h with h
    injection h with h1 h2
    subst h1 h2
    exact ⟨_, by assumption, rfl⟩
  · cases h

theorem view_halt {n n' : Net} {i : Nat} (h : n.halt i = some n') :
    n.stopper i = .running ∧ n' = { n with stopper := upd n.stopper i .checking } := by
  unfold Net.halt at h
  split at h
  · injection h with h; subst h
    exact ⟨by assumption, rfl⟩
  · cases h

theorem view_stopStep {n n' : Net} {i : Nat} (h : n.stopStep i = some n') :
    n.stopper i ≠ .running ∧ n.stopper i ≠ .stopped ∧
    ∃ st, st ≠ .running ∧ n' = { n with stopper := upd n.stopper i st } := by
  unfold Net.stopStep at h
  split at h
  · rename_i hk
    rw [hk]
    split at h
    · injection h with h; subst h
      exact ⟨by simp, by simp, _, by simp, rfl⟩
    · cases h
  · rename_i hk
    rw [hk]
    split at h
    · cases h
    · split at h
      · injection h with h; subst h
        exact ⟨by simp, by simp, _, by simp, rfl⟩
      · injection h with h; subst h
        exact ⟨by simp, by simp, _, by simp, rfl⟩
  · rename_i hk
    rw [hk]
    split at h
    · injection h with h; subst h
      exact ⟨by simp, by simp, _, by simp, rfl⟩
    · cases h
  · cases h
  · cases h

/-! ## The steps of the node -/

/-- What a step of the node does to the routers and to every tile. -/
structure SysStep (cfg : SysCfg) (s s' : Sys) : Prop where
  alive : s.crashed = none
  net : s'.net = s.net ∨ ∃ a, s.net.act cfg.net a = some s'.net ∧
    ∀ i target row, a = .send i target row → ∃ rows, (s.tile i).phase = .sending target (row :: rows)
  tile : ∀ t, (s'.tile t = s.tile t ∧ s'.net.view t = s.net.view t) ∨
    (t < cfg.net.tiles ∧ TileStep cfg t (s.tile t) (s.net.view t) (s'.tile t) (s'.net.view t))
  ok : s'.crashed = none → (s'.net.crashed = none ∨ s'.net = s.net) ∧
    ∀ t, (s'.tile t).ctrl.crashed = none ∨ (s'.tile t).ctrl = (s.tile t).ctrl

theorem sysStep_crash (cfg : SysCfg) (s : Sys) (e : PyErr) (ha : s.crashed = none) : SysStep cfg s (s.crash e) :=
  ⟨ha, Or.inl rfl, fun _ => Or.inl ⟨rfl, rfl⟩, fun h => by cases h⟩

/-- Only tile `t` changes. -/
theorem sysStep_tile (cfg : SysCfg) (s : Sys) (t : Nat) (x : TileSt) (ht : t < cfg.net.tiles)
    (ha : s.crashed = none) (h : TileStep cfg t (s.tile t) (s.net.view t) x (s.net.view t))
    (hx : x.ctrl.crashed = none ∨ x.ctrl = (s.tile t).ctrl := by exact Or.inr rfl) :
    SysStep cfg s (s.setTile t x) := by
  refine ⟨ha, Or.inl rfl, fun j => ?_, fun _ => ⟨Or.inr rfl, fun j => ?_⟩⟩
  · by_cases hj : j = t
    · subst hj
      refine Or.inr ⟨ht, ?_⟩
      rw [show (s.setTile j x).tile j = x from upd_same _ _ _]
      exact h
    · exact Or.inl ⟨upd_ne _ _ _ _ hj, rfl⟩
  · by_cases hj : j = t
    · subst hj
      rw [show (s.setTile j x).tile j = x from upd_same _ _ _]
      exact hx
    · exact Or.inr (congrArg TileSt.ctrl (upd_ne _ _ _ _ hj))

/-- An action of a controller. -/
theorem sysStep_ctrl (cfg : SysCfg) (s s' : Sys) (t : Nat) (a : CtrlAct) (f : TileSt → TileSt) (g : Sys → Sys)
    (ht : t < cfg.net.tiles) (ha : s.crashed = none)
    (hg : ∀ c : Ctrl, g (s.setTile t { s.tile t with ctrl := c }) = s.setTile t (f { s.tile t with ctrl := c }))
    (hq : ∀ c : Ctrl, (s.tile t).ctrl.act cfg.edramLat a = some c → c.crashed ≠ none →
      c.submitted = (s.tile t).ctrl.submitted)
    (hst : a = .stop → (s.tile t).phase = .haltRouter)
    (hf : ∀ c : Ctrl, (s.tile t).ctrl.act cfg.edramLat a = some c → c.crashed = none →
      TileStep cfg t (s.tile t) (s.net.view t) (f { s.tile t with ctrl := c }) (s.net.view t))
    (h : s.ctrlAct cfg t a g = some s') (hfc : ∀ x, (f x).ctrl = x.ctrl := by intro x; rfl) :
    SysStep cfg s s' := by
  unfold Sys.ctrlAct at h
  cases hc : (s.tile t).ctrl.act cfg.edramLat a with
  | none => rw [hc] at h; cases h
  | some c =>
    rw [hc] at h
    simp only [Option.map_some, Option.some.injEq] at h
    cases hcr : c.crashed with
    | some e =>
      rw [hcr] at h
      dsimp only at h
      subst h
      refine ⟨ha, Or.inl rfl, fun j => ?_, fun h => by cases h⟩
      by_cases hj : j = t
      · subst hj
        refine Or.inr ⟨ht, ?_⟩
        rw [show ((s.setTile j { s.tile j with ctrl := c }).crash e).tile j = { s.tile j with ctrl := c }
          from upd_same _ _ _]
        exact .ctrl a c hc (hq c hc (by simp [hcr])) hst
      · exact Or.inl ⟨upd_ne _ _ _ _ hj, rfl⟩
    | none =>
      rw [hcr] at h
      dsimp only at h
      rw [hg c] at h
      subst h
      exact sysStep_tile cfg s t _ ht ha (hf c hc hcr) (Or.inl (by rw [hfc]; exact hcr))

/-- An action of the routers. -/
theorem sysStep_net (cfg : SysCfg) (s s' : Sys) (t : Nat) (a : NetAct) (f : TileSt → TileSt) (g : Sys → Sys)
    (ht : a.tile = t) (ha : s.crashed = none)
    (hg : ∀ n : Net, g { s with net := n } = Sys.setTile { s with net := n } t (f (s.tile t)))
    (hs : ∀ i target row, a = .send i target row → ∃ rows, (s.tile i).phase = .sending target (row :: rows))
    (hf : ∀ n : Net, s.net.act cfg.net a = some n → n.crashed = none →
      (∀ j, j ≠ t → n.view j = s.net.view j) ∧ ((f (s.tile t) = s.tile t ∧ n.view t = s.net.view t) ∨
        TileStep cfg t (s.tile t) (s.net.view t) (f (s.tile t)) (n.view t)))
    (hq : ∀ n : Net, s.net.act cfg.net a = some n → n.crashed ≠ none → ∀ j, n.view j = s.net.view j)
    (h : s.netAct cfg a g = some s') (hfc : ∀ x, (f x).ctrl = x.ctrl := by intro x; rfl) :
    SysStep cfg s s' := by
  unfold Sys.netAct at h
  cases hc : s.net.act cfg.net a with
  | none => rw [hc] at h; cases h
  | some n =>
    rw [hc] at h
    simp only [Option.map_some, Option.some.injEq] at h
    cases hcr : n.crashed with
    | some e =>
      rw [hcr] at h
      dsimp only at h
      subst h
      exact ⟨ha, Or.inr ⟨a, hc, hs⟩, fun j => Or.inl ⟨rfl, hq n hc (by simp [hcr]) j⟩,
        fun h => by cases h⟩
    | none =>
      rw [hcr] at h
      dsimp only at h
      rw [hg n] at h
      subst h
      obtain ⟨h1, h2⟩ := hf n hc hcr
      refine ⟨ha, Or.inr ⟨a, hc, hs⟩, fun j => ?_, fun _ => ⟨Or.inl hcr, fun j => Or.inr ?_⟩⟩
      · by_cases hj : j = t
        · subst hj
          rw [show (Sys.setTile { s with net := n } j (f (s.tile j))).tile j = f (s.tile j) from upd_same _ _ _]
          rcases h2 with h2 | h2
          · exact Or.inl h2
          · exact Or.inr ⟨ht ▸ (net_act_cases hc).2.1, h2⟩
        · exact Or.inl ⟨upd_ne _ _ _ _ hj, h1 j hj⟩
      · by_cases hj : j = t
        · subst hj
          rw [show (Sys.setTile { s with net := n } j (f (s.tile j))).tile j = f (s.tile j) from upd_same _ _ _, hfc]
        · exact congrArg TileSt.ctrl (upd_ne _ _ _ _ hj)

theorem submit_crash {lat : Int} {c c' : Ctrl} {core start : Int} {kind : ReqKind}
    (h : c.act lat (.submit core start kind) = some c') (hn : c'.crashed ≠ none) :
    c'.submitted = c.submitted := by
  unfold Ctrl.act at h
  split at h
  · cases h
  · rename_i hc
    dsimp only at h
    injection h with h
    subst h
    unfold Ctrl.submit at hn ⊢
    split
    · rfl
    · rename_i hr
      exfalso
      rw [if_neg hr] at hn
      exact hn (by simpa using hc)

theorem act_submitted {lat : Int} {c c' : Ctrl} {a : CtrlAct} (h : c.act lat a = some c')
    (hn : ∀ core start kind, a ≠ .submit core start kind) : c'.submitted = c.submitted := by
  have st := act_step lat c c' a h
  cases st <;> first | rfl | exact absurd rfl (hn _ _ _)

theorem setCore_eq (s : Sys) (t k : Nat) (y : CoreSt) :
    s.setCore t k y = s.setTile t ((s.tile t).setCore k y) := rfl

theorem setTile_setTile (s : Sys) (t : Nat) (x y : TileSt) : (s.setTile t x).setTile t y = s.setTile t y := by
  unfold Sys.setTile
  congr 1
  funext j
  by_cases hj : j = t
  · subst hj; rw [upd_same, upd_same]
  · rw [upd_ne _ _ _ _ hj, upd_ne _ _ _ _ hj]; exact upd_ne _ _ _ _ hj

theorem setTile_tile (s : Sys) (t : Nat) (x : TileSt) : (s.setTile t x).tile t = x := upd_same _ _ _

theorem setTile_self (s : Sys) (t : Nat) : s.setTile t (s.tile t) = s := by
  unfold Sys.setTile
  rw [upd_self]

theorem sysStep_coreStart (cfg : SysCfg) (s s' : Sys) (t k : Nat) (op : CoreOp) (rest : List CoreOp)
    (ht : t < cfg.net.tiles) (hk : k < cfg.cores) (ha : s.crashed = none)
    (hp : ((s.tile t).core k).phase = .ready) (hq : ((s.tile t).core k).prog = op :: rest)
    (h : s.coreStart cfg t k op rest = some s') : SysStep cfg s s' := by
  have plain : op.usesDram = false →
      (match ((s.tile t).core k).core.execute cfg.fl (cfg.noise t k ((s.tile t).core k).log.length) op with
      | (.error e, _) => some (s.crash e)
      | (.ok (), c) =>
        match badDelay (cfg.execLat op) with
        | some e => some (s.crash e)
        | none => some (s.setCore t k {
            core := c
            prog := if op = .hlt then [] else rest
            phase := if op = .hlt then .halting else .timing
            log := ((s.tile t).core k).log ++ [⟨op, 0, [], c⟩] })) = some s' → SysStep cfg s s' := by
    intro hop h
    split at h
    · injection h with h; subst h; exact sysStep_crash cfg s _ ha
    · rename_i c he
      split at h
      · injection h with h; subst h; exact sysStep_crash cfg s _ ha
      · injection h with h; subst h
        rw [setCore_eq]
        exact sysStep_tile cfg s t _ ht ha (.run k op rest c hk hp hq hop he)
  unfold Sys.coreStart at h
  dsimp only at h
  cases op with
  | load dest read width vec =>
    dsimp only at h
    split at h
    · injection h with h; subst h; exact sysStep_crash cfg s _ ha
    · rename_i addr c he
      refine sysStep_ctrl cfg s s' t _ (fun x => x.setCore k { (s.tile t).core k with
          core := c, prog := rest
          phase := .loadWait (s.tile t).ctrl.submitted.length addr dest read width vec }) _ ht ha ?_ ?_ (by simp [*]) ?_ h
      · intro c'
        dsimp only
        rw [setCore_eq, setTile_tile, setTile_setTile]
      · intro c' hc hn; exact submit_crash hc hn
      · intro c' hc hn
        exact .load k dest read width vec rest addr c c' hk hp hq he hc hn
  | store dest read width vec =>
    dsimp only at h
    split at h
    · injection h with h; subst h; exact sysStep_crash cfg s _ ha
    · rename_i addr data c he
      split at h
      · injection h with h; subst h; exact sysStep_crash cfg s _ ha
      · injection h with h; subst h
        rw [setCore_eq]
        exact sysStep_tile cfg s t _ ht ha (.store k dest read width vec rest addr data c hk hp hq he)
  | set dest imm vec => exact plain rfl h
  | copy dest read vec => exact plain rfl h
  | mvm xbar => exact plain rfl h
  | vfu opcode dest r1 r2 vec => exact plain rfl h
  | hlt => exact plain rfl h

theorem sysStep_core (cfg : SysCfg) (s s' : Sys) (t k : Nat)
    (ht : t < cfg.net.tiles) (hk : k < cfg.cores) (ha : s.crashed = none)
    (h : s.coreStep cfg t k = some s') : SysStep cfg s s' := by
  unfold Sys.coreStep at h
  dsimp only at h
  split at h
  · rename_i hp
    split at h
    · cases h
    · rename_i op rest hq
      exact sysStep_coreStart cfg s s' t k op rest ht hk ha hp hq h
  · rename_i hp
    injection h with h; subst h
    rw [setCore_eq]
    exact sysStep_tile cfg s t _ ht ha (.timed k hk hp)
  · rename_i id addr dest read width vec hp
    split at h
    · cases h
    · rename_i data hd
      split at h
      · injection h with h; subst h; exact sysStep_crash cfg s _ ha
      · injection h with h; subst h
        rw [setCore_eq]
        exact sysStep_tile cfg s t _ ht ha (.loaded k id addr dest read width vec data hk hp hd)
  · rename_i dest data hp
    split at h
    · injection h with h; subst h; exact sysStep_crash cfg s _ ha
    · rename_i c he
      injection h with h; subst h
      rw [setCore_eq]
      exact sysStep_tile cfg s t _ ht ha (.loadDone k dest data c hk hp he)
  · rename_i addr data rows hp
    refine sysStep_ctrl cfg s s' t _ (fun x => x.setCore k { (s.tile t).core k with
        phase := .storeWait (s.tile t).ctrl.submitted.length }) _ ht ha ?_ ?_ (by simp [*]) ?_ h
    · intro c'
      dsimp only
      rw [setCore_eq, setTile_tile, setTile_setTile]
    · intro c' hc hn; exact submit_crash hc hn
    · intro c' hc hn
      exact .stored k addr data rows c' hk hp hc hn
  · rename_i id hp
    split at h
    · rename_i hw
      injection h with h; subst h
      rw [setCore_eq]
      exact sysStep_tile cfg s t _ ht ha (.storeDone k id hk hp hw)
    · cases h
  · rename_i hp
    injection h with h; subst h
    rw [setCore_eq]
    exact sysStep_tile cfg s t _ ht ha (.halted k hk hp)
  · cases h

/-- A crash of the routers changes no view. -/
theorem net_crash_view {c : NetConfig} {n n' : Net} {a : NetAct} (h : n.act c a = some n')
    (hn : n'.crashed ≠ none) (j : Nat) : n'.view j = n.view j := by
  obtain ⟨hc, -, h⟩ := net_act_cases h
  cases a with
  | send i tg data =>
    dsimp only at h
    obtain ⟨rfl, -⟩ := sendIf_send h
    exact absurd hc hn
  | added i => exact view_added h j
  | thread i => exact view_thread h j
  | startRead i src =>
    rcases view_startRead h with h | ⟨-, -, rfl⟩
    · exact h.2 j
    · exact absurd hc hn
  | take i => obtain ⟨_, _, _, -, -, rfl⟩ := view_take h; exact absurd hc hn
  | readDone i => obtain ⟨y, h⟩ := h; obtain ⟨_, -, rfl⟩ := view_readDone h; exact absurd hc hn
  | halt i => obtain ⟨-, rfl⟩ := view_halt h; exact absurd hc hn
  | stopStep i => obtain ⟨-, -, st, -, rfl⟩ := view_stopStep h; exact absurd hc hn

theorem sysStep_tileStart (cfg : SysCfg) (s s' : Sys) (t : Nat) (op : TileOp) (rest : List TileOp)
    (ht : t < cfg.net.tiles) (ha : s.crashed = none)
    (hp : (s.tile t).phase = .ready) (hq : (s.tile t).ops = op :: rest)
    (h : s.tileStart cfg t op rest = some s') : SysStep cfg s s' := by
  unfold Sys.tileStart at h
  dsimp only at h
  split at h
  · rename_i addr target width vec
    refine sysStep_ctrl cfg s s' t _ (fun x => { x with
        ops := rest, phase := .sendWait (s.tile t).ctrl.submitted.length addr target width vec }) _ ht ha ?_ ?_ (by simp [*]) ?_ h
    · intro c'
      dsimp only
      rw [setTile_tile, setTile_setTile]
    · intro c' hc hn; exact submit_crash hc hn
    · intro c' hc hn
      exact .send addr target width vec rest c' hp hq hc hn
  · rename_i addr source width vec
    split at h
    · injection h with h; subst h; exact sysStep_crash cfg s _ ha
    · rename_i hn
      injection h with h; subst h
      exact sysStep_tile cfg s t _ ht ha (.recv addr source width vec rest hp hq (by omega) (by omega))
  · injection h with h; subst h
    exact sysStep_tile cfg s t _ ht ha (.halt rest hp hq)

theorem sysStep_tileStep (cfg : SysCfg) (s s' : Sys) (t : Nat)
    (ht : t < cfg.net.tiles) (ha : s.crashed = none)
    (h : s.tileStep cfg t = some s') : SysStep cfg s s' := by
  have hquiet : ∀ a : NetAct, ∀ n : Net, s.net.act cfg.net a = some n → n.crashed ≠ none →
      ∀ j, n.view j = s.net.view j := fun a n hc hn j => net_crash_view hc hn j
  unfold Sys.tileStep at h
  dsimp only at h
  split at h
  · rename_i hp
    split at h
    · cases h
    · rename_i op rest hq
      exact sysStep_tileStart cfg s s' t op rest ht ha hp hq h
  · rename_i id addr target width vec hp
    split at h
    · cases h
    · rename_i data hd
      split at h
      · injection h with h; subst h; exact sysStep_crash cfg s _ ha
      · rename_i hn
        injection h with h; subst h
        exact sysStep_tile cfg s t _ ht ha (.sendGot id addr target width vec data hp hd (by omega) (by omega))
  · rename_i target todo hp
    split at h
    · injection h with h; subst h
      exact sysStep_tile cfg s t _ ht ha (.sendEnd target hp)
    · rename_i row rows
      split at h
      · injection h with h; subst h; exact sysStep_crash cfg s _ ha
      refine sysStep_net cfg s s' t _ (fun x => { x with phase := .adding target rows }) _ rfl ha
        (fun n => rfl) ?_ ?_ (hquiet _) h
      · intro i tg r he
        injection he with h1 h2 h3
        subst h1 h2 h3
        exact ⟨rows, hp⟩
      · intro n hc hn
        obtain ⟨-, -, hc⟩ := net_act_cases hc
        dsimp only at hc
        obtain ⟨rfl, -⟩ := sendIf_send hc
        refine ⟨fun j hj => ?_, Or.inr ?_⟩
        · simp only [Net.view, Net.send]
          rw [upd_ne _ _ _ _ hj]
        · have := TileStep.sendRow (cfg := cfg) (t := t) (x := s.tile t) (v := s.net.view t) target row rows hp
          simp only [Net.view, Net.send] at this ⊢
          rw [upd_same]
          exact this
  · rename_i target todo hp
    refine sysStep_net cfg s s' t _ (fun x => { x with phase := .sending target todo }) _ rfl ha
      (fun n => rfl) (by simp) ?_ (hquiet _) h
    intro n hc hn
    obtain ⟨-, -, hc⟩ := net_act_cases hc
    refine ⟨fun j _ => view_added hc j, Or.inr ?_⟩
    rw [view_added hc t]
    exact .added target todo hp
  · rename_i addr source width vec got hp
    split at h
    · rename_i hg
      refine sysStep_net cfg s s' t _ (fun x => { x with phase := .recvWait addr source width vec got }) _ rfl ha
        (fun n => rfl) (by simp) ?_ (hquiet _) h
      intro n hc hn
      obtain ⟨-, -, hc⟩ := net_act_cases hc
      rcases view_startRead hc with hcr | ⟨h1, h2, rfl⟩
      · exfalso
        rw [hn] at hcr
        exact absurd hcr.1 (by simp)
      · refine ⟨fun j hj => ?_, Or.inr ?_⟩
        · simp only [Net.view]
          rw [upd_ne _ _ _ _ hj]
        · have := TileStep.recvRead (cfg := cfg) (t := t) (x := s.tile t) (v := s.net.view t)
            addr source width vec got hp hg h1 h2
          simp only [Net.view] at this ⊢
          rw [upd_same]
          exact this
    · rename_i hg
      refine sysStep_ctrl cfg s s' t _ (fun x => { x with
          phase := .recvWrite (s.tile t).ctrl.submitted.length
          log := (s.tile t).log ++ [.received addr source width vec got] }) _ ht ha ?_ ?_ (by simp [*]) ?_ h
      · intro c'
        dsimp only [Sys.logPhase]
        rw [setTile_tile, setTile_setTile]
      · intro c' hc hn; exact submit_crash hc hn
      · intro c' hc hn
        exact .recvAll addr source width vec got c' hp hg hc hn
  · rename_i addr source width vec got hp
    split at h
    · rename_i src data hr
      refine sysStep_net cfg s s' t _ (fun x => { x with
          phase := if (data.length : Int) = width then .recving addr source width vec (got ++ [data]) else .ready
          log := x.log ++ [.row source data] }) _ rfl ha
        (fun n => rfl) (by simp) ?_ (hquiet _) h
      intro n hc hn
      obtain ⟨-, -, y, hc⟩ := net_act_cases hc
      obtain ⟨src', h1, rfl⟩ := view_readDone hc
      rw [hr] at h1
      injection h1 with h1 h2
      subst h1 h2
      refine ⟨fun j hj => ?_, Or.inr ?_⟩
      · simp only [Net.view]
        rw [upd_ne _ _ _ _ hj, upd_ne _ _ _ _ hj]
      · have := TileStep.recvRow (cfg := cfg) (t := t) (x := s.tile t) (v := s.net.view t)
          addr source width vec got src data hp hr
        simp only [Net.view] at this ⊢
        rw [upd_same, upd_same]
        exact this
    · cases h
  · rename_i id hp
    split at h
    · rename_i hw
      injection h with h; subst h
      exact sysStep_tile cfg s t _ ht ha (.recvDone id hp hw)
    · cases h
  · rename_i hp
    split at h
    · rename_i hh
      split at h
      · rename_i hs
        injection h with h; subst h
        refine sysStep_tile cfg s t _ ht ha ?_
        have := TileStep.haltCores (cfg := cfg) (t := t) (x := s.tile t) (v := s.net.view t) .stopped hp hh
          (Or.inl ⟨hs, rfl⟩)
        rw [show ({ s.net.view t with stopper := .stopped } : NetView) = s.net.view t by
          simp only [Net.view]; rw [hs]] at this
        exact this
      · refine sysStep_net cfg s s' t _ (fun x => { x with phase := .haltRouter }) _ rfl ha
          (fun n => rfl) (by simp) ?_ (hquiet _) h
        intro n hc hn
        obtain ⟨-, -, hc⟩ := net_act_cases hc
        obtain ⟨h1, rfl⟩ := view_halt hc
        refine ⟨fun j hj => ?_, Or.inr ?_⟩
        · simp only [Net.view]
          rw [upd_ne _ _ _ _ hj]
        · have := TileStep.haltCores (cfg := cfg) (t := t) (x := s.tile t) (v := s.net.view t) .checking hp hh
            (Or.inr ⟨h1, rfl⟩)
          simp only [Net.view] at this ⊢
          rw [upd_same]
          exact this
    · cases h
  · rename_i hp
    split at h
    · rename_i hs
      refine sysStep_ctrl cfg s s' t _ (fun x => { x with
          phase := .ready, log := (s.tile t).log ++ [.halted] }) _ ht ha ?_ ?_ (by simp [*]) ?_ h
      · intro c'
        dsimp only [Sys.logPhase]
        rw [setTile_tile, setTile_setTile]
      · intro c' hc hn; exact act_submitted hc (by simp)
      · intro c' hc hn
        exact .haltEnd c' hp hs hc hn
    · refine sysStep_net cfg s s' t _ id _ rfl ha
        (fun n => (setTile_self { s with net := n } t).symm) (by simp) ?_ (hquiet _) h
      intro n hc hn
      obtain ⟨-, -, hc⟩ := net_act_cases hc
      obtain ⟨h1, h2, st, h3, rfl⟩ := view_stopStep hc
      refine ⟨fun j hj => ?_, Or.inr ?_⟩
      · simp only [Net.view]
        rw [upd_ne _ _ _ _ hj]
      · have := TileStep.stopStep (cfg := cfg) (t := t) (x := s.tile t) (v := s.net.view t) st hp ⟨h1, h2⟩ h3
        simp only [Net.view] at this ⊢
        rw [upd_same]
        exact this

theorem sys_step {cfg : SysCfg} {s s' : Sys} {a : SysAct} (h : s.act cfg a = some s') : SysStep cfg s s' := by
  unfold Sys.act at h
  split at h
  · cases h
  rename_i ha
  replace ha : s.crashed = none := by simpa using ha
  have hquiet : ∀ a : NetAct, ∀ n : Net, s.net.act cfg.net a = some n → n.crashed ≠ none →
      ∀ j, n.view j = s.net.view j := fun a n hc hn j => net_crash_view hc hn j
  cases a with
  | ctrl t a =>
    have key : ∀ b : CtrlAct, (∀ core start kind, b ≠ .submit core start kind) → b ≠ .stop →
        (if t < cfg.net.tiles then s.ctrlAct cfg t b id else none) = some s' → SysStep cfg s s' := by
      intro b hb hb' h
      split at h
      · rename_i ht
        refine sysStep_ctrl cfg s s' t b id id ht ha (fun c => rfl) ?_ (fun h => absurd h hb') ?_ h
        · intro c hc _; exact act_submitted hc hb
        · intro c hc _; exact .ctrl b c hc (act_submitted hc hb) (fun h => absurd h hb')
      · cases h
    dsimp only at h
    cases a with
    | submit => cases h
    | stop => cases h
    | pick => exact key .pick (by simp) (by simp) h
    | dispatch => exact key .dispatch (by simp) (by simp) h
    | grant => exact key .grant (by simp) (by simp) h
    | complete => exact key .complete (by simp) (by simp) h
    | tick => exact key .tick (by simp) (by simp) h
  | thread t =>
    dsimp only at h
    refine sysStep_net cfg s s' t _ id id rfl ha (fun n => (setTile_self { s with net := n } t).symm)
      (by simp) ?_ (hquiet _) h
    intro n hc hn
    obtain ⟨-, -, hc⟩ := net_act_cases hc
    exact ⟨fun j _ => view_thread hc j, Or.inl ⟨rfl, view_thread hc t⟩⟩
  | take t =>
    dsimp only at h
    refine sysStep_net cfg s s' t _ id id rfl ha (fun n => (setTile_self { s with net := n } t).symm)
      (by simp) ?_ (hquiet _) h
    intro n hc hn
    obtain ⟨-, -, hc⟩ := net_act_cases hc
    obtain ⟨src, x, rest, h1, h2, rfl⟩ := view_take hc
    refine ⟨fun j hj => ?_, Or.inr ?_⟩
    · simp only [Net.view]
      rw [upd_ne _ _ _ _ hj]
    · have := TileStep.take (cfg := cfg) (t := t) (x := s.tile t) (v := s.net.view t) src x h1
      simp only [Net.view] at this ⊢
      rw [upd_same]
      exact this
  | core t k =>
    dsimp only at h
    split at h
    · rename_i hb
      exact sysStep_core cfg s s' t k hb.1 hb.2 ha h
    · cases h
  | tile t =>
    dsimp only at h
    split at h
    · rename_i ht
      exact sysStep_tileStep cfg s s' t ht ha h
    · cases h

/-- Properties kept by every step hold after every run. -/
theorem sys_run_induction {cfg : SysCfg} {P : Sys → Prop}
    (hstep : ∀ s s', P s → SysStep cfg s s' → P s') :
    ∀ (as : List SysAct) (s s' : Sys), P s → s.run cfg as = some s' → P s' := by
  intro as
  induction as with
  | nil => intro s s' hp h; simp only [Sys.run, Option.some.injEq] at h; subst h; exact hp
  | cons a as ih =>
    intro s s' hp h
    simp only [Sys.run] at h
    cases ha : s.act cfg a with
    | none => rw [ha] at h; cases h
    | some s1 =>
      rw [ha] at h
      exact ih s1 s' (hstep s s1 hp (sys_step ha)) h

end Ramwich
