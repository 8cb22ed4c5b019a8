import Verif.Lemmas.SysRest
import Verif.Spec.SysWork

/-! # The work of a node ends -/
namespace Ramwich

open Pipeline (upd)
open Spec

/-! ## Sums -/

theorem sum_range_upd (n t : Nat) (ht : t < n) (f g : Nat → Nat) (h : ∀ j, j ≠ t → g j = f j) :
    ((List.range n).map g).sum + f t = ((List.range n).map f).sum + g t := by
  induction n with
  | zero => omega
  | succ n ih =>
    simp only [List.range_succ, List.map_append, List.sum_append, List.map_cons, List.map_nil, List.sum_cons,
      List.sum_nil]
    by_cases hn : t = n
    · subst hn
      have : ((List.range t).map g) = ((List.range t).map f) :=
        List.map_congr_left fun j hj => h j (by have := List.mem_range.1 hj; omega)
      rw [this]
      omega
    · have := ih (by omega)
      rw [h n (fun hh => hn hh.symm)]
      omega

/-! ## What is left to do -/

def reqDetour (valid : List Bool) (r : Req) : Nat := if r.isWrite = true ∨ ready valid r = true then 0 else 2

/-- Actions left for a controller. -/
def ctrlWork (c : Ctrl) : Nat :=
  (c.queue.map fun r => 4 + reqDetour c.valid r).sum
    + (c.handed.toList.map fun r => 3 + reqDetour c.valid r).sum
    + 4 * c.pending.length
    + (2 * c.bus.length - if c.deadline.isSome then 1 else 0)

def corePhaseWork : CorePhase → Nat
  | .ready => 0
  | .timing => 1
  | .loadWait .. => 2
  | .loadGot .. => 1
  | .storeDelay .. => 8
  | .storeWait _ => 1
  | .halting => 1
  | .halted => 0

def coreWork (x : CoreSt) : Nat := (x.prog.map coreOpWork).sum + corePhaseWork x.phase

def tilePhaseWork : TilePhase → Nat
  | .ready => 0
  | .sendWait _ _ _ _ vec => 2 + 8 * vec.toNat
  | .sending _ todo => 1 + 8 * todo.length
  | .adding _ todo => 2 + 8 * todo.length
  | .recving _ _ _ vec got => 8 + 3 * (vec.toNat - got.length)
  | .recvWait _ _ _ vec got => 9 + 3 * (vec.toNat - got.length - 1)
  | .recvWrite _ => 1
  | .haltCores => 5
  | .haltRouter => 1

def senderWork : Sender → Nat
  | .idle => 0
  | .handed _ => 5
  | .flying .. => 4
  | .putting .. => 3
  | .deposited .. => 2
  | .delivered .. => 1

def readerWork : Reader → Nat
  | .waiting _ => 1
  | _ => 0

def stopperWork : Stopper → Nat
  | .running => 0
  | .checking => 3
  | .emptied => 2
  | .waiting _ => 1
  | .stopped => 0

/-- Actions left for a tile with its cores, controller and router. -/
def tileWork (cfg : SysCfg) (x : TileSt) (q : List Packet) (sd : Sender) (rd : Reader) (st : Stopper) : Nat :=
  ctrlWork x.ctrl + ((List.range cfg.cores).map fun k => coreWork (x.core k)).sum
    + ((x.ops.map tileOpWork).sum + tilePhaseWork x.phase)
    + 6 * q.length + senderWork sd + readerWork rd + stopperWork st

def sysTileWork (cfg : SysCfg) (s : Sys) (t : Nat) : Nat :=
  tileWork cfg (s.tile t) (s.net.queue t) (s.net.sender t) (s.net.reader t) (s.net.stopper t)

def sysWork (cfg : SysCfg) (s : Sys) : Nat := ((List.range cfg.net.tiles).map (sysTileWork cfg s)).sum

theorem sysWork_lt {cfg : SysCfg} {s s' : Sys} {t : Nat} (ht : t < cfg.net.tiles)
    (h : ∀ j, j ≠ t → sysTileWork cfg s' j = sysTileWork cfg s j) (hlt : sysTileWork cfg s' t < sysTileWork cfg s t) :
    sysWork cfg s' < sysWork cfg s := by
  have := sum_range_upd cfg.net.tiles t ht (sysTileWork cfg s) (sysTileWork cfg s') h
  unfold sysWork
  omega

/-! ## The controller -/

theorem ctrlWork_submit {lat : Int} {c c' : Ctrl} {core start : Int} {kind : ReqKind}
    (h : c.act lat (.submit core start kind) = some c') (hn : c'.crashed = none) : ctrlWork c' ≤ ctrlWork c + 6 := by
  have hst := act_step lat c c' _ h
  cases hst with
  | crash e => cases hn
  | submit _ _ _ hr =>
    unfold ctrlWork
    simp only [List.map_append, List.sum_append, List.map_cons, List.map_nil, List.sum_cons, List.sum_nil]
    have : reqDetour c.valid (c.newReq core start kind) ≤ 2 := by unfold reqDetour; split <;> omega
    omega

theorem ctrlWork_stop {lat : Int} {c c' : Ctrl} (h : c.act lat .stop = some c') (hn : c'.crashed = none) :
    ctrlWork c' = ctrlWork c := by
  have hst := act_step lat c c' _ h
  cases hst with
  | crash e => cases hn
  | stopped h => rfl
  | stop cr => rfl

theorem ctrlWork_tick {lat : Int} {c c' : Ctrl} (h : c.act lat .tick = some c') (hn : c'.crashed = none) :
    ctrlWork c' = ctrlWork c := by
  have hst := act_step lat c c' _ h
  cases hst with
  | crash e => cases hn
  | tick h => rfl

theorem ctrlWork_act {lat : Int} {m0 : Memory} {v0 : List Bool} {t0 : Nat} {c c' : Ctrl} {a : CtrlAct}
    (hi : CtrlInv lat m0 v0 t0 c) (ha : a.internal = true) (hne : a ≠ .tick)
    (h : c.act lat a = some c') (hn : c'.crashed = none) : ctrlWork c' < ctrlWork c := by
  have hst := act_step lat c c' a h
  clear h
  cases hst with
  | crash _ e => cases hn
  | submit => exact absurd ha (by simp [CtrlAct.internal])
  | stopped => exact absurd ha (by simp [CtrlAct.internal])
  | stop => exact absurd ha (by simp [CtrlAct.internal])
  | tick hq => exact absurd rfl hne
  | pick r rest h1 h2 =>
    simp only [ctrlWork, h1, h2, List.map_cons, List.sum_cons, Option.toList_some,
      Option.toList_none, List.map_nil, List.sum_nil]
    omega
  | toBus r h1 h2 =>
    simp only [ctrlWork, h1, List.map_cons, List.sum_cons, Option.toList_some, List.length_append, List.length_cons,
      List.length_nil, Option.toList_none, List.map_nil, List.sum_nil]
    cases hd : c.deadline with
    | none => simp; omega
    | some d =>
      obtain ⟨r', rest, hb, -⟩ := hi.time.serving d hd
      rw [hb]
      simp; omega
  | toPending r h1 h2 h3 =>
    have hd : reqDetour c.valid r = 2 := if_neg (by simp [h2, h3])
    simp only [ctrlWork, h1, List.map_cons, List.sum_cons, Option.toList_some, List.length_append, List.length_cons,
      List.length_nil, Option.toList_none, List.map_nil, List.sum_nil, hd]
    omega
  | grant r rest h1 h2 h3 =>
    simp only [ctrlWork, h1, h2, List.length_cons, Option.isSome_some, Option.isSome_none, if_true,
      Bool.false_eq_true, if_false]
    omega
  | read r rest mem data h1 h2 h3 h4 =>
    simp only [ctrlWork, h1, h2, List.length_cons, Option.isSome_some, Option.isSome_none, if_true,
      Bool.false_eq_true, if_false]
    omega
  | write r rest mem data rows h1 h2 h3 h4 =>
    have hm := hi.mem
    obtain ⟨hs0, hs1, -, -⟩ := mem_write_inv h4
    have hb' : r.start.toNat + data.length ≤ c.valid.length := by
      have := hm.vlen; have := hm.size; omega
    rw [updateReady_release _ _ (pending_nodup c hi.line)]
    generalize hv : pySliceSet c.valid r.start.toNat (List.replicate data.length true) = v'
    have hmono : ∀ a, c.valid.getD a false = true → v'.getD a false = true := by
      intro a ha
      rw [← hv]
      exact valid_mono _ _ _ hb' a ha
    have hvl : v'.length = c.valid.length := by
      rw [← hv, pySliceSet_length _ _ _ (by rw [List.length_replicate]; exact hb')]
    have hdet : ∀ x, reqDetour v' x ≤ reqDetour c.valid x := by
      intro x
      unfold reqDetour
      by_cases hx : x.isWrite = true ∨ ready c.valid x = true
      · rw [if_pos hx, if_pos (hx.imp id (ready_mono c.valid v' x hvl hmono))]
      · rw [if_neg hx]; split <;> omega
    have hperm := (release_perm (ready v') c.pending).length_eq
    have hrdy := release_ready (ready v') c.pending
    generalize release (ready v') c.pending = u at hperm hrdy ⊢
    rw [List.length_append] at hperm
    have hq := sum_map_le c.queue (fun r => 4 + reqDetour v' r)
      (fun r => 4 + reqDetour c.valid r) (fun x _ => by have := hdet x; omega)
    have hh := sum_map_le c.handed.toList (fun r => 3 + reqDetour v' r)
      (fun r => 3 + reqDetour c.valid r) (fun x _ => by have := hdet x; omega)
    have hu : (u.1.map fun r => 4 + reqDetour v' r).sum = 4 * u.1.length := by
      clear hperm
      generalize u.1 = l at hrdy
      induction l with
      | nil => rfl
      | cons x l ih =>
        have h5 : reqDetour v' x = 0 := if_pos (Or.inr (hrdy x (by simp)))
        simp only [List.map_cons, List.sum_cons, List.length_cons, h5, ih (fun y hy => hrdy y (by simp [hy]))]
        omega
    simp only [ctrlWork, h1, h2, List.map_append, List.sum_append, List.length_cons, hu, Option.isSome_some,
      Option.isSome_none, if_true, Bool.false_eq_true, if_false]
    omega

/-! ## The rest -/

/-- Tile `t` changes and nothing of the routers but its own part. -/
theorem sysWork_tile {cfg : SysCfg} {s : Sys} {t : Nat} (ht : t < cfg.net.tiles) (n : Net) (x : TileSt)
    (hn : ∀ j, j ≠ t → n.queue j = s.net.queue j ∧ n.sender j = s.net.sender j ∧ n.reader j = s.net.reader j ∧
      n.stopper j = s.net.stopper j)
    (hlt : tileWork cfg x (n.queue t) (n.sender t) (n.reader t) (n.stopper t) < sysTileWork cfg s t) :
    sysWork cfg ({ s with net := n }.setTile t x) < sysWork cfg s := by
  refine sysWork_lt ht (fun j hj => ?_) ?_
  · have h0 : (Sys.setTile { s with net := n } t x).tile j = s.tile j := upd_ne s.tile t j x hj
    obtain ⟨h1, h2, h3, h4⟩ := hn j hj
    unfold sysTileWork
    rw [h0]
    unfold Sys.setTile
    dsimp only
    rw [h1, h2, h3, h4]
  · have h0 : (Sys.setTile { s with net := n } t x).tile t = x := upd_same s.tile t x
    unfold sysTileWork at hlt ⊢
    rw [h0]
    unfold Sys.setTile
    exact hlt

theorem sysWork_self {cfg : SysCfg} {s : Sys} {t : Nat} (ht : t < cfg.net.tiles) (x : TileSt)
    (hlt : tileWork cfg x (s.net.queue t) (s.net.sender t) (s.net.reader t) (s.net.stopper t) < sysTileWork cfg s t) :
    sysWork cfg (s.setTile t x) < sysWork cfg s :=
  sysWork_tile (s := s) ht s.net x (fun _ _ => ⟨rfl, rfl, rfl, rfl⟩) hlt

/-- Core `k` changes, and the controller. -/
theorem sysWork_core {cfg : SysCfg} {s : Sys} {t k : Nat} (ht : t < cfg.net.tiles) (hk : k < cfg.cores) (c : Ctrl)
    (y : CoreSt) (hlt : ctrlWork c + coreWork y < ctrlWork (s.tile t).ctrl + coreWork ((s.tile t).core k)) :
    sysWork cfg (s.setTile t { s.tile t with ctrl := c, core := upd (s.tile t).core k y }) < sysWork cfg s := by
  refine sysWork_self ht _ ?_
  have h1 := sum_range_upd cfg.cores k hk (fun j => coreWork ((s.tile t).core j))
    (fun j => coreWork (upd (s.tile t).core k y j)) (fun j hj => by rw [upd_ne _ _ _ _ hj])
  simp only [upd_same] at h1
  unfold sysTileWork tileWork
  dsimp only
  omega

theorem coreStep_work {cfg : SysCfg} {s s' : Sys} {t k : Nat} (ht : t < cfg.net.tiles) (hk : k < cfg.cores)
    (h : s.coreStep cfg t k = some s') (hn : s'.crashed = none) : sysWork cfg s' < sysWork cfg s := by
  have hself : ∀ y : CoreSt, coreWork y < coreWork ((s.tile t).core k) → sysWork cfg (s.setCore t k y) < sysWork cfg s :=
    fun y hy => sysWork_core ht hk (s.tile t).ctrl y (by omega)
  have hsub : ∀ (u v : Int) (w : ReqKind) (y : CoreSt), coreWork y + 6 < coreWork ((s.tile t).core k) →
      s.ctrlAct cfg t (.submit u v w) (fun s' => s'.setCore t k y) = some s' → sysWork cfg s' < sysWork cfg s := by
    intro u v w y hy h
    obtain ⟨c, hc, rfl⟩ := ctrlAct_some h hn
    have hcn : c.crashed = none := by
      unfold Sys.ctrlAct at h
      rw [hc] at h
      simp only [Option.map_some, Option.some.injEq] at h
      split at h
      · rw [← h] at hn; cases hn
      · assumption
    have := ctrlWork_submit hc hcn
    have h2 : (s.setTile t { s.tile t with ctrl := c }).setCore t k y =
        s.setTile t { s.tile t with ctrl := c, core := upd (s.tile t).core k y } := by
      unfold Sys.setCore
      rw [setTile_tile, setTile_setTile]
    rw [h2]
    exact sysWork_core ht hk c y (by omega)
  unfold Sys.coreStep at h
  dsimp only at h
  split at h
  · rename_i hp
    split at h
    · cases h
    · rename_i op rest hq
      unfold Sys.coreStart at h
      dsimp only at h
      have hw : coreWork ((s.tile t).core k) = coreOpWork op + (rest.map coreOpWork).sum := by
        simp [coreWork, hp, hq, corePhaseWork]
      split at h
      · split at h
        · injection h with h; subst h; cases hn
        · exact hsub _ _ _ _ (by rw [hw]; simp only [coreWork, corePhaseWork, coreOpWork]; omega) h
      · split at h
        · injection h with h; subst h; cases hn
        · split at h
          · injection h with h; subst h; cases hn
          · injection h with h; subst h
            exact hself _ (by rw [hw]; simp only [coreWork, corePhaseWork, coreOpWork]; omega)
      · have hge : 2 ≤ coreOpWork op := by unfold coreOpWork; split <;> omega
        split at h
        · injection h with h; subst h; cases hn
        · split at h
          · injection h with h; subst h; cases hn
          · injection h with h; subst h
            refine hself _ ?_
            rw [hw]
            unfold coreWork
            dsimp only
            split
            · simp only [List.map_nil, List.sum_nil, corePhaseWork]; omega
            · simp only [corePhaseWork]; omega
  · rename_i hp
    injection h with h; subst h
    exact hself _ (by simp only [coreWork, hp, corePhaseWork]; omega)
  · rename_i hp
    split at h
    · cases h
    · split at h
      · injection h with h; subst h; cases hn
      · injection h with h; subst h
        exact hself _ (by simp only [coreWork, hp, corePhaseWork]; omega)
  · rename_i hp
    split at h
    · injection h with h; subst h; cases hn
    · injection h with h; subst h
      exact hself _ (by simp only [coreWork, hp, corePhaseWork]; omega)
  · rename_i hp
    exact hsub _ _ _ _ (by simp only [coreWork, hp, corePhaseWork]; omega) h
  · rename_i hp
    split at h
    · injection h with h; subst h
      exact hself _ (by simp only [coreWork, hp, corePhaseWork]; omega)
    · cases h
  · rename_i hp
    injection h with h; subst h
    exact hself _ (by simp only [coreWork, hp, corePhaseWork]; omega)
  · cases h

theorem ctrlAct_alive {cfg : SysCfg} {s s' : Sys} {t : Nat} {a : CtrlAct} {g : Sys → Sys}
    (h : s.ctrlAct cfg t a g = some s') (hn : s'.crashed = none) :
    ∃ c, (s.tile t).ctrl.act cfg.edramLat a = some c ∧ c.crashed = none ∧
      s' = g (s.setTile t { s.tile t with ctrl := c }) := by
  obtain ⟨c, hc, rfl⟩ := ctrlAct_some h hn
  refine ⟨c, hc, ?_, rfl⟩
  unfold Sys.ctrlAct at h
  rw [hc] at h
  simp only [Option.map_some, Option.some.injEq] at h
  split at h
  · rw [← h] at hn; cases hn
  · assumption

theorem tileStep_work {cfg : SysCfg} {s s' : Sys} {t : Nat} (ht : t < cfg.net.tiles)
    (h : s.tileStep cfg t = some s') (hn : s'.crashed = none) : sysWork cfg s' < sysWork cfg s := by
  -- the tile process goes on
  have hself : ∀ (x : TileSt), x.ctrl = (s.tile t).ctrl → x.core = (s.tile t).core →
      (x.ops.map tileOpWork).sum + tilePhaseWork x.phase <
        ((s.tile t).ops.map tileOpWork).sum + tilePhaseWork (s.tile t).phase →
      sysWork cfg (s.setTile t x) < sysWork cfg s := by
    intro x h1 h2 h3
    refine sysWork_self ht x ?_
    unfold sysTileWork tileWork
    rw [h1, h2]
    omega
  -- it submits a request or stops the controller
  have hsub : ∀ (a : CtrlAct) (f : Sys → Sys) (x : Ctrl → TileSt), ((∃ u v w, a = .submit u v w) ∨ a = .stop) →
      (∀ c, f (s.setTile t { s.tile t with ctrl := c }) = s.setTile t (x c) ∧ (x c).ctrl = c ∧
        (x c).core = (s.tile t).core ∧
        ((x c).ops.map tileOpWork).sum + tilePhaseWork (x c).phase + (if a = .stop then 0 else 6) <
          ((s.tile t).ops.map tileOpWork).sum + tilePhaseWork (s.tile t).phase) →
      s.ctrlAct cfg t a f = some s' → sysWork cfg s' < sysWork cfg s := by
    intro a f x ha hf h
    obtain ⟨c, hc, hcn, rfl⟩ := ctrlAct_alive h hn
    obtain ⟨h1, h2, h3, h4⟩ := hf c
    rw [h1]
    refine sysWork_self ht (x c) ?_
    have hw : ctrlWork c ≤ ctrlWork (s.tile t).ctrl + (if a = .stop then 0 else 6) := by
      rcases ha with ⟨u, v, w, rfl⟩ | rfl
      · exact ctrlWork_submit hc hcn
      · exact (ctrlWork_stop hc hcn).le
    unfold sysTileWork tileWork
    rw [h2, h3]
    omega
  -- the router of the tile acts
  have hnet : ∀ (a : NetAct) (f : Sys → Sys) (x : TileSt), a.tile = t → (∀ u, a ≠ .take u) →
      (∀ n, f { s with net := n } = Sys.setTile { s with net := n } t x) → x.ctrl = (s.tile t).ctrl →
      x.core = (s.tile t).core →
      (∀ n, s.net.act cfg.net a = some n →
        (x.ops.map tileOpWork).sum + tilePhaseWork x.phase + 6 * (n.queue t).length + senderWork (n.sender t) +
          readerWork (n.reader t) + stopperWork (n.stopper t) <
        ((s.tile t).ops.map tileOpWork).sum + tilePhaseWork (s.tile t).phase + 6 * (s.net.queue t).length +
          senderWork (s.net.sender t) + readerWork (s.net.reader t) + stopperWork (s.net.stopper t) ∧
        ∀ j, j ≠ t → n.queue j = s.net.queue j ∧ n.sender j = s.net.sender j ∧ n.reader j = s.net.reader j ∧
          n.stopper j = s.net.stopper j) →
      s.netAct cfg a f = some s' → sysWork cfg s' < sysWork cfg s := by
    intro a f x _ _ hf h1 h2 h3 h
    obtain ⟨n, hc, -, rfl⟩ := netAct_some h hn
    obtain ⟨h4, h5⟩ := h3 n hc
    rw [hf]
    refine sysWork_tile ht n x h5 ?_
    unfold sysTileWork tileWork
    rw [h1, h2]
    omega
  have hu : ∀ {β : Type} (f : Nat → β) (b : β) (j : Nat), j ≠ t → upd f t b j = f j := fun f b j hj => upd_ne f t j b hj
  unfold Sys.tileStep at h
  dsimp only at h
  split at h
  · rename_i hp
    split at h
    · cases h
    · rename_i op rest hq
      unfold Sys.tileStart at h
      dsimp only at h
      split at h
      · rename_i addr target width vec
        refine hsub _ _ (fun c => { s.tile t with
          ctrl := c, ops := rest
          phase := .sendWait (s.tile t).ctrl.submitted.length addr target width vec }) (Or.inl ⟨_, _, _, rfl⟩)
          (fun c => ⟨?_, rfl, rfl, ?_⟩) h
        · dsimp only; rw [setTile_tile, setTile_setTile]
        · rw [hp, hq]
          simp [tilePhaseWork, tileOpWork]
          omega
      · split at h
        · injection h with h; subst h; cases hn
        · injection h with h; subst h
          refine hself _ rfl rfl ?_
          rw [hp, hq]
          simp [tilePhaseWork, tileOpWork]
          omega
      · injection h with h; subst h
        refine hself _ rfl rfl ?_
        rw [hp, hq]
        simp [tilePhaseWork, tileOpWork]
        omega
  · rename_i id addr target width vec hp
    split at h
    · cases h
    · split at h
      · injection h with h; subst h; cases hn
      · injection h with h; subst h
        refine hself _ rfl rfl ?_
        rw [hp]
        simp [tilePhaseWork, reshape]
  · rename_i target todo hp
    split at h
    · injection h with h; subst h
      refine hself _ rfl rfl ?_
      rw [hp]
      simp [tilePhaseWork]
    · rename_i row rows
      split at h
      · injection h with h; subst h; cases hn
      · refine hnet _ _ { s.tile t with phase := .adding target rows } rfl (by simp) (fun n => rfl) rfl rfl ?_ h
        intro n hna
        obtain ⟨-, -, h2⟩ := net_act_cases hna
        obtain ⟨rfl, -⟩ := sendIf_send h2
        refine ⟨?_, fun j hj => ⟨?_, rfl, rfl, rfl⟩⟩
        · rw [hp]
          simp [tilePhaseWork, Net.send, upd_same]
          omega
        · exact hu _ _ j hj
  · rename_i target todo hp
    refine hnet _ _ { s.tile t with phase := .sending target todo } rfl (by simp) (fun n => rfl) rfl rfl ?_ h
    intro n hna
    obtain ⟨-, -, h2⟩ := net_act_cases hna
    dsimp only at h2
    unfold Net.added at h2
    split at h2
    · cases h2
    · injection h2 with h2; subst h2
      refine ⟨?_, fun j hj => ⟨rfl, rfl, rfl, rfl⟩⟩
      rw [hp]
      simp [tilePhaseWork]
  · rename_i addr source width vec got hp
    split at h
    · rename_i hg
      refine hnet _ _ { s.tile t with phase := .recvWait addr source width vec got } rfl (by simp) (fun n => rfl) rfl rfl
        ?_ h
      intro n hna
      obtain ⟨-, -, h2⟩ := net_act_cases hna
      dsimp only at h2
      unfold Net.startRead at h2
      split at h2
      · rename_i hr
        split at h2
        · injection h2 with h2; subst h2
          refine ⟨?_, fun j hj => ⟨rfl, rfl, hu _ _ j hj, rfl⟩⟩
          rw [hp, hr]
          simp only [tilePhaseWork, upd_same, readerWork]
          omega
        · injection h2 with h2; subst h2
          refine ⟨?_, fun j hj => ⟨rfl, rfl, rfl, rfl⟩⟩
          rw [hp]
          simp only [tilePhaseWork, Net.crash]
          omega
      · cases h2
    · refine hsub _ _ (fun c => { s.tile t with
          ctrl := c
          phase := .recvWrite (s.tile t).ctrl.submitted.length
          log := (s.tile t).log ++ [.received addr source width vec got] }) (Or.inl ⟨_, _, _, rfl⟩)
          (fun c => ⟨?_, rfl, rfl, ?_⟩) h
      · dsimp only [Sys.logPhase]; rw [setTile_tile, setTile_setTile]
      · rw [hp]
        simp [tilePhaseWork]
        omega
  · rename_i addr source width vec got hp
    split at h
    · rename_i src data hr
      refine hnet _ _ { s.tile t with
        phase := if (data.length : Int) = width then .recving addr source width vec (got ++ [data]) else .ready
        log := (s.tile t).log ++ [.row source data] } rfl (by simp) (fun n => rfl) rfl rfl ?_ h
      intro n hna
      obtain ⟨-, -, y, h2⟩ := net_act_cases hna
      obtain ⟨_, -, rfl⟩ := view_readDone h2
      refine ⟨?_, fun j hj => ⟨rfl, rfl, hu _ _ j hj, rfl⟩⟩
      rw [hp, hr]
      dsimp only
      rw [upd_same]
      split
      · simp only [tilePhaseWork, readerWork, List.length_append, List.length_cons, List.length_nil]
        omega
      · simp only [tilePhaseWork, readerWork]
        omega
    · cases h
  · rename_i id hp
    split at h
    · injection h with h; subst h
      refine hself _ rfl rfl ?_
      rw [hp]
      simp [tilePhaseWork]
    · cases h
  · rename_i hp
    split at h
    · split at h
      · injection h with h; subst h
        refine hself _ rfl rfl ?_
        rw [hp]
        simp [tilePhaseWork]
      · refine hnet _ _ { s.tile t with phase := .haltRouter } rfl (by simp) (fun n => rfl) rfl rfl ?_ h
        intro n hna
        obtain ⟨-, -, h2⟩ := net_act_cases hna
        obtain ⟨h3, rfl⟩ := view_halt h2
        refine ⟨?_, fun j hj => ⟨rfl, rfl, rfl, hu _ _ j hj⟩⟩
        rw [hp]
        simp only [tilePhaseWork, upd_same, stopperWork]
        omega
    · cases h
  · rename_i hp
    split at h
    · refine hsub _ _ (fun c => { s.tile t with
          ctrl := c, phase := .ready, log := (s.tile t).log ++ [.halted] }) (Or.inr rfl)
          (fun c => ⟨?_, rfl, rfl, ?_⟩) h
      · dsimp only [Sys.logPhase]; rw [setTile_tile, setTile_setTile]
      · rw [hp]
        simp [tilePhaseWork]
    · refine hnet _ _ (s.tile t) rfl (by simp)
        (fun n => (setTile_self { s with net := n } t).symm) rfl rfl ?_ h
      intro n hna
      obtain ⟨-, -, h2⟩ := net_act_cases hna
      dsimp only at h2
      unfold Net.stopStep at h2
      cases hst : s.net.stopper t <;> simp only [hst] at h2 <;> repeat' split at h2
      all_goals first
        | (cases h2; done)
        | (injection h2 with h2; subst h2
           refine ⟨?_, fun j hj => ⟨rfl, rfl, rfl, hu _ _ j hj⟩⟩
           simp only [upd_same, stopperWork]
           omega)

/-! ## One action -/

theorem net_thread_work {cfg : SysCfg} {s : Sys} {t : Nat} {n : Net} (h : s.net.thread cfg.net t = some n)
    (hn : n.crashed = none) (ht : t < cfg.net.tiles) : sysWork cfg { s with net := n } < sysWork cfg s := by
  have hu : ∀ {β : Type} (f : Nat → β) (b : β) (j : Nat), j ≠ t → upd f t b j = f j := fun f b j hj => upd_ne f t j b hj
  have key : (∀ j, j ≠ t → n.queue j = s.net.queue j ∧ n.sender j = s.net.sender j) → n.reader = s.net.reader →
      n.stopper = s.net.stopper →
      6 * (n.queue t).length + senderWork (n.sender t) < 6 * (s.net.queue t).length + senderWork (s.net.sender t) →
      sysWork cfg { s with net := n } < sysWork cfg s := by
    intro h1 h2 h3 h4
    have := sysWork_tile (cfg := cfg) (s := s) ht n (s.tile t)
      (fun j hj => ⟨(h1 j hj).1, (h1 j hj).2, by rw [h2], by rw [h3]⟩) (by
        unfold sysTileWork tileWork
        rw [h2, h3]
        omega)
    rw [show Sys.setTile { s with net := n } t (s.tile t) = { s with net := n } from
      setTile_self { s with net := n } t] at this
    exact this
  unfold Net.thread at h
  split at h
  · cases h
  cases hs : s.net.sender t <;> simp only [hs] at h <;> repeat' split at h
  all_goals first
    | (cases h; done)
    | (injection h with h; subst h; cases hn; done)
    | (injection h with h; subst h
       refine key (fun j hj => ⟨?_, ?_⟩) rfl rfl ?_
       · first | rfl | exact hu _ _ j hj
       · first | rfl | exact hu _ _ j hj
       · simp only [upd_same, hs, senderWork]
         omega)
    | (injection h with h; subst h
       rename_i hq
       refine key (fun j hj => ⟨hu _ _ j hj, hu _ _ j hj⟩) rfl rfl ?_
       simp only [upd_same, hs, senderWork, hq, List.length_cons]
       omega)

theorem act_work {cfg : SysCfg} {i : SysInit} {s s' : Sys} {a : SysAct} (h0 : ∀ t, GoodStart (i.mem t) (i.valid t))
    (hinv : SysInv cfg i s) (h : s.act cfg a = some s') (hn : s'.crashed = none) :
    sysWork cfg s' + (if a.isWork then 1 else 0) ≤ sysWork cfg s := by
  have hc := crashed_act h
  unfold Sys.act at h
  rw [if_neg (by simp [hc])] at h
  cases a with
  | ctrl t a =>
    have key : ∀ a : CtrlAct, (if t < cfg.net.tiles then s.ctrlAct cfg t a id else none) = some s' → t < cfg.net.tiles ∧
        ∃ c, (s.tile t).ctrl.act cfg.edramLat a = some c ∧ c.crashed = none ∧
          s' = s.setTile t { s.tile t with ctrl := c } := by
      intro a h
      split at h
      · rename_i ht
        obtain ⟨c, h1, h2, h3⟩ := ctrlAct_alive h hn
        exact ⟨ht, c, h1, h2, h3⟩
      · cases h
    have hint : ∀ a : CtrlAct, a.internal = true → a ≠ .tick →
        (if t < cfg.net.tiles then s.ctrlAct cfg t a id else none) = some s' → sysWork cfg s' + 1 ≤ sysWork cfg s := by
      intro a h1 h2 h3
      obtain ⟨ht, c, h4, h5, rfl⟩ := key a h3
      refine sysWork_self ht _ ?_
      have := ctrlWork_act (ctrlInv_of (h0 t) (hinv.tile t).ctrl) h1 h2 h4 h5
      unfold sysTileWork tileWork
      dsimp only
      omega
    cases a with
    | submit => cases h
    | stop => cases h
    | pick => exact hint _ rfl (by simp) h
    | dispatch => exact hint _ rfl (by simp) h
    | grant => exact hint _ rfl (by simp) h
    | complete => exact hint _ rfl (by simp) h
    | tick =>
      obtain ⟨ht, c, h4, h5, rfl⟩ := key _ h
      have h1 := ctrlWork_tick h4 h5
      have h2 := sum_range_upd cfg.net.tiles t ht (sysTileWork cfg s)
        (sysTileWork cfg (s.setTile t { s.tile t with ctrl := c })) (fun j hj => by
          unfold sysTileWork
          rw [show (s.setTile t { s.tile t with ctrl := c }).tile j = s.tile j from upd_ne _ _ _ _ hj]
          rfl)
      have h3 : sysTileWork cfg (s.setTile t { s.tile t with ctrl := c }) t = sysTileWork cfg s t := by
        unfold sysTileWork
        rw [setTile_tile]
        unfold tileWork Sys.setTile
        dsimp only
        rw [h1]
      have h6 : sysWork cfg (s.setTile t { s.tile t with ctrl := c }) = sysWork cfg s := by
        unfold sysWork
        rw [h3] at h2
        exact Nat.add_right_cancel h2
      exact h6.le
  | thread t =>
    obtain ⟨n, h1, h2, rfl⟩ := netAct_some h hn
    obtain ⟨-, ht, h3⟩ := net_act_cases h1
    exact net_thread_work h3 h2 ht
  | take t =>
    obtain ⟨n, h1, h2, rfl⟩ := netAct_some h hn
    obtain ⟨-, ht, h3⟩ := net_act_cases h1
    obtain ⟨src, x, rest, h4, h5, rfl⟩ := view_take h3
    have := sysWork_tile (cfg := cfg) (s := s) (t := t) ht
      { s.net with
        buf := upd s.net.buf t (upd (s.net.buf t) src rest)
        reader := upd s.net.reader t (.got src x) } (s.tile t)
      (fun j hj => ⟨rfl, rfl, upd_ne _ _ _ _ hj, rfl⟩) (by
        unfold sysTileWork tileWork
        dsimp only
        rw [upd_same, h4]
        simp only [readerWork]
        omega)
    rw [setTile_self { s with net := _ } t] at this
    exact this
  | core t k =>
    dsimp only at h
    split at h
    · rename_i hb; exact coreStep_work hb.1 hb.2 h hn
    · cases h
  | tile t =>
    dsimp only at h
    split at h
    · rename_i hb; exact tileStep_work hb h hn
    · cases h

theorem sysWork_start (cfg : SysCfg) (i : SysInit) : sysWork cfg i.start = programWork cfg i := by
  unfold sysWork programWork
  congr 1
  refine List.map_congr_left fun t _ => ?_
  unfold sysTileWork tileWork
  simp [SysInit.start, ctrlWork, Ctrl.started, coreWork, corePhaseWork, tilePhaseWork, senderWork, readerWork, stopperWork]
  omega

theorem run_work {cfg : SysCfg} {i : SysInit} (h0 : ∀ t, GoodStart (i.mem t) (i.valid t)) :
    ∀ (bs as : List SysAct) (s s' : Sys), i.start.run cfg as = some s → s.run cfg bs = some s' → s'.crashed = none →
      sysWork cfg s' + (bs.filter SysAct.isWork).length ≤ sysWork cfg s := by
  intro bs
  induction bs with
  | nil => intro as s s' _ h _; simp only [Sys.run, Option.some.injEq] at h; subst h; simp
  | cons b bs ih =>
    intro as s s' hr h hn
    simp only [Sys.run] at h
    cases hb : s.act cfg b with
    | none => rw [hb] at h; cases h
    | some s1 =>
      rw [hb] at h
      have hn1 : s1.crashed = none := by
        cases bs with
        | nil => simp only [Option.bind_some, Sys.run, Option.some.injEq] at h; rw [h]; exact hn
        | cons c bs =>
          simp only [Option.bind_some, Sys.run] at h
          cases hc : s1.act cfg c with
          | none => rw [hc] at h; cases h
          | some s2 => exact crashed_act hc
      have h1 := act_work h0 (sysInv_run h0 as s hr) hb hn1
      have h2 := ih (as ++ [b]) s1 s' (sys_run_snoc as hr hb) h hn
      rw [List.filter_cons]
      split <;> rename_i hw
      · rw [if_pos hw] at h1
        rw [List.length_cons]; omega
      · rw [if_neg hw] at h1; omega

end Ramwich
