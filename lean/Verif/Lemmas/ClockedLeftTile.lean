import Verif.Lemmas.ClockedLeftCore

/-! # The time that a tile process and a router still need -/
namespace Ramwich

open Spec Pipeline

section
variable {cfg : SysCfg} {l : StageLat} {i : SysInit} {f f' : FSys}

/-- What a tile without its cores still needs. -/
def FSys.procPart (cfg : SysCfg) (f : FSys) (t : Nat) : Nat :=
  ((f.ts.sys.tile t).ops.map (tileOpCycles cfg)).sum + procLeft cfg (f.ts.sys.tile t).phase +
    ((f.clk.adds t).map fun d => d - f.ts.now).sum

def FSys.routerPart (cfg : SysCfg) (f : FSys) (t : Nat) : Nat :=
  (f.ts.sys.net.queue t).length * cfg.net.lat +
    senderLeft cfg.net.lat f.ts.now (f.ts.sys.net.sender t) (f.clk.flight t)

def FSys.stopPart (f : FSys) (t : Nat) : Nat :=
  stopLeft f.ts.now (f.ts.sys.net.stopper t) (f.ts.sys.net.queue t) (f.clk.check t)

/-- Only one tile changes, and not its cores. -/
theorem left_tile {t : Nat} (ht : t < cfg.net.tiles) (hnow : f'.ts.now = f.ts.now) (hp : f'.ts.pipe = f.ts.pipe)
    (hd : f'.ts.due = f.ts.due)
    (hj : ∀ j, j ≠ t → f'.ts.sys.tile j = f.ts.sys.tile j ∧ f'.ts.sys.net.queue j = f.ts.sys.net.queue j ∧
      f'.ts.sys.net.sender j = f.ts.sys.net.sender j ∧ f'.ts.sys.net.stopper j = f.ts.sys.net.stopper j ∧
      f'.clk.adds j = f.clk.adds j ∧ f'.clk.flight j = f.clk.flight j ∧ f'.clk.check j = f.clk.check j)
    (hc : (f'.ts.sys.tile t).core = (f.ts.sys.tile t).core)
    (hle : ctrlLeft cfg.edramLat (f'.ts.sys.tile t).ctrl + f'.procPart cfg t + f'.routerPart cfg t + f'.stopPart t ≤
      ctrlLeft cfg.edramLat (f.ts.sys.tile t).ctrl + f.procPart cfg t + f.routerPart cfg t + f.stopPart t) :
    f'.left cfg l i ≤ f.left cfg l i := by
  refine left_le ht (fun j h => ?_) ?_
  · obtain ⟨h1, h2, h3, h4, h5, h6, h7⟩ := hj j h
    exact tileLeft_congr h1 (by rw [hp]) (by rw [hd]) hnow h2 h3 h4 h5 h6 h7
  · unfold FSys.procPart FSys.routerPart FSys.stopPart at hle
    unfold FSys.tileLeft
    rw [hc, hp, hd]
    omega

/-- What a step of a send thread does to the time. -/
theorem rmove_left {lat now : Nat} {v v' : RV} (h : RMove lat now v v') :
    (∃ p, v'.sent = v.sent ++ [p]) ∨
    (v'.queue.length * lat + senderLeft lat now v'.sender v'.flight ≤
      v.queue.length * lat + senderLeft lat now v.sender v.flight ∧ (v.queue = [] → v'.queue = [])) := by
  cases h with
  | send p => exact .inl ⟨p, rfl⟩
  | take p rest h hs hq =>
    right
    simp only [hq, h, senderLeft, List.length_cons, Nat.succ_mul]
    exact ⟨by omega, by simp⟩
  | fly p b h => right; simp only [h, senderLeft]; exact ⟨by omega, id⟩
  | arrive p b h hf => right; simp only [h, senderLeft]; exact ⟨by omega, id⟩
  | put p b h => right; simp only [h, senderLeft]; exact ⟨by omega, id⟩
  | deposit p b h => right; simp only [h, senderLeft]; exact ⟨by omega, id⟩
  | finish p b h => right; simp only [h, senderLeft]; exact ⟨by omega, id⟩
  | stop h => right; exact ⟨le_refl _, id⟩

theorem thread_keeps {c : NetConfig} {n n' : Net} {t : Nat} (h : n.thread c t = some n') (hc : n'.crashed = none) :
    n'.sent = n.sent ∧ n'.stopper = n.stopper := by
  unfold Net.thread at h
  split at h
  · cases h
  cases hs : n.sender t <;> simp only [hs] at h <;> repeat' split at h
  all_goals first
    | (cases h; done)
    | (injection h with h; subst h; cases hc; done)
    | (injection h with h; subst h; exact ⟨rfl, rfl⟩)

theorem stopLeft_shorter {now ck : Nat} {st : Stopper} {q q' : List Packet} (hq : q = [] → q' = [])
    (hck : st = .checking → ck ≤ now + 1) : stopLeft now st q' ck ≤ stopLeft now st q ck := by
  unfold stopLeft
  split
  · have := hck rfl
    by_cases h1 : q = []
    · rw [if_pos h1, if_pos (hq h1)]
    · rw [if_neg h1]
      split <;> omega
  · omega

theorem check_le (h : FInv cfg l i f) {t : Nat} (hs : f.ts.sys.net.stopper t = .checking) : f.clk.check t ≤ f.ts.now + 1 := by
  rcases (h.times.halt t).check hs with ⟨h1, -⟩ | ⟨h1, -⟩ <;> omega

/-- A step of a send thread. -/
theorem thread_left {t : Nat} (h : FInv cfg l i f) (ha : f.other cfg l (.thread t) = some f')
    (hn : f'.ts.sys.crashed = none) : f'.left cfg l i ≤ f.left cfg l i := by
  obtain ⟨ts, k, h1, h2, h3, h4⟩ := other_cases ha
  rw [h3] at hn
  rcases h4 with ⟨h4, -⟩ | ⟨-, hk, h4⟩
  · rw [hn] at h4; cases h4
  obtain ⟨hc0, -, -, sys, h5, rfl⟩ := tsAct_other h1
  unfold Sys.act at h5
  rw [if_neg (by rw [hc0]; simp)] at h5
  dsimp only at h5 hn
  obtain ⟨n, g1, g2, rfl⟩ := netAct_ok h5 hn
  unfold FSys.netPart Sys.netOf at h2
  dsimp only at h2
  obtain ⟨-, ht, g3⟩ := net_act_cases g1
  have ht : t < cfg.net.tiles := ht
  dsimp only at g3
  obtain ⟨e1, e2⟩ := router_thread h.times.inv ht g3 g2 h2
  obtain ⟨e3, e4⟩ := thread_keeps g3 g2
  have hstep : k.adds = f.clk.adds ∧ k.check = f.clk.check := by
    unfold NetClock.step at h2
    dsimp only at h2
    split at h2 <;> try (injection h2 with h2; subst h2; exact ⟨rfl, rfl⟩)
    split at h2
    · injection h2 with h2; subst h2; exact ⟨rfl, rfl⟩
    · cases h2
  refine left_tile (t := t) ht (by rw [h3]) (by rw [h3]) (by rw [h3]) (fun j hj => ?_) (by rw [h3]; rfl) ?_
  · rw [h3, hk]
    have := e1 j hj
    have hq : n.queue j = f.ts.sys.net.queue j := congrArg RV.queue this
    have hs : n.sender j = f.ts.sys.net.sender j := congrArg RV.sender this
    have hf : k.flight j = f.clk.flight j := congrArg RV.flight this
    exact ⟨rfl, hq, hs, by show n.stopper j = _; rw [e4], by rw [hstep.1], hf, by rw [hstep.2]⟩
  · unfold FSys.procPart FSys.routerPart FSys.stopPart
    rw [h3, hk]
    dsimp only [id]
    rw [hstep.1, hstep.2, e4]
    rcases rmove_left e2 with ⟨p, hp⟩ | ⟨e5, e6⟩
    · have hp : n.sent t = f.ts.sys.net.sent t ++ [p] := hp
      rw [e3] at hp
      exact absurd hp (by simp)
    · have e5 : (n.queue t).length * cfg.net.lat + senderLeft cfg.net.lat f.ts.now (n.sender t) (k.flight t) ≤
        (f.ts.sys.net.queue t).length * cfg.net.lat + senderLeft cfg.net.lat f.ts.now (f.ts.sys.net.sender t) (f.clk.flight t) := e5
      have e7 := stopLeft_shorter (now := f.ts.now) (ck := f.clk.check t) (st := f.ts.sys.net.stopper t)
        (q := f.ts.sys.net.queue t) (q' := n.queue t) e6
        fun hs => check_le h hs
      omega

/-- A pending `get` takes a packet. -/
theorem take_left {t : Nat} (ha : f.other cfg l (.take t) = some f')
    (hn : f'.ts.sys.crashed = none) : f'.left cfg l i ≤ f.left cfg l i := by
  obtain ⟨ts, k, h1, h2, h3, h4⟩ := other_cases ha
  rw [h3] at hn
  rcases h4 with ⟨h4, -⟩ | ⟨-, hk, h4⟩
  · rw [hn] at h4; cases h4
  obtain ⟨hc0, -, -, sys, h5, rfl⟩ := tsAct_other h1
  unfold Sys.act at h5
  rw [if_neg (by rw [hc0]; simp)] at h5
  dsimp only at h5 hn
  obtain ⟨n, g1, g2, rfl⟩ := netAct_ok h5 hn
  unfold FSys.netPart Sys.netOf at h2
  dsimp only at h2
  obtain ⟨-, ht, g3⟩ := net_act_cases g1
  have ht : t < cfg.net.tiles := ht
  have hstep : k.adds = f.clk.adds ∧ k.check = f.clk.check ∧ k.flight = f.clk.flight := by
    unfold NetClock.step at h2
    dsimp only at h2
    split at h2 <;> (injection h2 with h2; subst h2; exact ⟨rfl, rfl, rfl⟩)
  have hnet : n.queue = f.ts.sys.net.queue ∧ n.sender = f.ts.sys.net.sender ∧ n.stopper = f.ts.sys.net.stopper := by
    dsimp only at g3
    unfold Net.take at g3
    repeat' split at g3
    all_goals first
      | (cases g3; done)
      | (injection g3 with g3; subst g3; exact ⟨rfl, rfl, rfl⟩)
  refine left_tile (t := t) ht (by rw [h3]) (by rw [h3]) (by rw [h3]) (fun j hj => ?_) (by rw [h3]; rfl) ?_
  · rw [h3, hk, hstep.1, hstep.2.1, hstep.2.2]
    dsimp only [id]
    rw [hnet.1, hnet.2.1, hnet.2.2]
    exact ⟨rfl, rfl, rfl, rfl, rfl, rfl, rfl⟩
  · unfold FSys.procPart FSys.routerPart FSys.stopPart
    rw [h3, hk]
    dsimp only [id]
    rw [hstep.1, hstep.2.1, hstep.2.2, hnet.1, hnet.2.1, hnet.2.2]

/-- A step of a controller. -/
theorem ctrl_left {t : Nat} {a : CtrlAct} (h0 : ∀ t, GoodStart (i.mem t) (i.valid t)) (h : FInv cfg l i f)
    (ha : f.other cfg l (.ctrl t a) = some f') (hn : f'.ts.sys.crashed = none) : f'.left cfg l i ≤ f.left cfg l i := by
  obtain ⟨ts, k, h1, h2, h3, h4⟩ := other_cases ha
  rw [h3] at hn
  rcases h4 with ⟨h4, -⟩ | ⟨-, hk, h4⟩
  · rw [hn] at h4; cases h4
  obtain ⟨hc0, -, hnt, sys, h5, rfl⟩ := tsAct_other h1
  unfold Sys.act at h5
  rw [if_neg (by rw [hc0]; simp)] at h5
  dsimp only at hn
  unfold FSys.netPart Sys.netOf at h2
  injection h2 with h2
  subst h2
  have hci := ctrlInv_of (h0 t) ((h.both h0).2.tile t).ctrl
  have key : t < cfg.net.tiles → ∀ {c : Ctrl}, sys = f.ts.sys.setTile t { f.ts.sys.tile t with ctrl := c } →
      ctrlLeft cfg.edramLat c ≤ ctrlLeft cfg.edramLat (f.ts.sys.tile t).ctrl → f'.left cfg l i ≤ f.left cfg l i := by
    intro ht c e hle
    subst e
    refine left_tile (t := t) ht (by rw [h3]) (by rw [h3]) (by rw [h3]) (fun j hj => ?_) ?_ ?_
    · rw [h3, hk]
      exact ⟨upd_ne _ _ _ _ hj, rfl, rfl, rfl, rfl, rfl, rfl⟩
    · rw [h3]
      dsimp only
      rw [setTile_tile]
    · unfold FSys.procPart FSys.routerPart FSys.stopPart
      rw [h3, hk]
      dsimp only
      rw [setTile_tile]
      unfold Sys.setTile
      dsimp only
      omega
  have go : ∀ a : CtrlAct, a.internal = true → a ≠ .tick →
      (if t < cfg.net.tiles then f.ts.sys.ctrlAct cfg t a id else none) = some sys → f'.left cfg l i ≤ f.left cfg l i := by
    intro a e1 e2 e3
    split at e3
    · rename_i ht
      obtain ⟨c, g1, g2, g3⟩ := ctrlAct_ok e3 hn
      exact key ht g3 (ctrlLeft_act hci e1 e2 g1 g2)
    · cases e3
  cases a with
  | submit => cases h5
  | stop => cases h5
  | tick => exact absurd rfl (hnt t)
  | pick => exact go _ rfl (by simp) h5
  | dispatch => exact go _ rfl (by simp) h5
  | grant => exact go _ rfl (by simp) h5
  | complete => exact go _ rfl (by simp) h5

/-- `check_queue` and the monitor. -/
theorem poll_left {a : FAct} (h : f.act cfg l a = some f') (ha : ∀ b, a ≠ .t b) :
    f'.left cfg l i ≤ f.left cfg l i := by
  have hc := fact_alive h
  unfold FSys.act at h
  rw [if_neg (by rw [hc]; simp)] at h
  cases a with
  | t b => exact absurd rfl (ha b)
  | recheck t =>
    dsimp only at h
    split at h
    · rename_i ht
      rw [Option.map_eq_some_iff] at h
      obtain ⟨k, hk, rfl⟩ := h
      unfold NetClock.recheck at hk
      split at hk
      · rename_i hs
        split at hk
        · rename_i hq
          injection hk with hk
          subst hk
          refine left_tile ht rfl rfl rfl (fun j hj => ⟨rfl, rfl, rfl, rfl, rfl, rfl, upd_ne _ _ _ _ hj⟩) rfl ?_
          unfold FSys.procPart FSys.routerPart FSys.stopPart stopLeft
          dsimp only
          rw [hs]
          simp only [if_neg hq.2]
          omega
        · cases hk
      · cases hk
    · cases h
  | monitor =>
    dsimp only at h
    rw [Option.map_eq_some_iff] at h
    obtain ⟨k, hk, rfl⟩ := h
    unfold NetClock.monitor at hk
    split at hk
    · injection hk with hk
      subst hk
      exact le_refl _
    · cases hk

theorem adds_sum {d now : Nat} (l : List Nat) :
    ((l ++ [now + d]).map fun x => x - now).sum = (l.map fun x => x - now).sum + d := by
  simp

/-- A step of a tile process. -/
theorem tileProc_left {t : Nat} (h : FInv cfg l i f)
    (ha : f.other cfg l (.tile t) = some f') (hn : f'.ts.sys.crashed = none) : f'.left cfg l i ≤ f.left cfg l i := by
  obtain ⟨ts, k, h1, h2, h3, h4⟩ := other_cases ha
  rw [h3] at hn
  rcases h4 with ⟨h4, -⟩ | ⟨-, hk, -⟩
  · rw [hn] at h4; cases h4
  obtain ⟨hc0, -, hnt, sys, h5, rfl⟩ := tsAct_other h1
  unfold Sys.act at h5
  rw [if_neg (by rw [hc0]; simp)] at h5
  dsimp only at hn h5
  unfold FSys.netPart Sys.netOf at h2
  dsimp only at h2
  split at h5
  swap
  · cases h5
  rename_i ht
  have hT := h.tile hc0 t ht
  have hstop : (f.ts.sys.tile t).phase ≠ .haltRouter →
      f.ts.sys.net.stopper t = .running ∨ f.ts.sys.net.stopper t = .stopped := hT.stopper
  have key : ∀ {n : Net} {x : TileSt}, sys = Sys.setTile { f.ts.sys with net := n } t x →
      x.core = (f.ts.sys.tile t).core →
      (∀ j, j ≠ t → n.queue j = f.ts.sys.net.queue j ∧
        n.sender j = f.ts.sys.net.sender j ∧ n.stopper j = f.ts.sys.net.stopper j ∧
        k.adds j = f.clk.adds j ∧ k.flight j = f.clk.flight j ∧ k.check j = f.clk.check j) →
      ctrlLeft cfg.edramLat x.ctrl +
        ((x.ops.map (tileOpCycles cfg)).sum + procLeft cfg x.phase + ((k.adds t).map fun d => d - f.ts.now).sum) +
        ((n.queue t).length * cfg.net.lat + senderLeft cfg.net.lat f.ts.now (n.sender t) (k.flight t)) +
        stopLeft f.ts.now (n.stopper t) (n.queue t) (k.check t) ≤
      ctrlLeft cfg.edramLat (f.ts.sys.tile t).ctrl +
        (((f.ts.sys.tile t).ops.map (tileOpCycles cfg)).sum + procLeft cfg (f.ts.sys.tile t).phase +
          ((f.clk.adds t).map fun d => d - f.ts.now).sum) +
        ((f.ts.sys.net.queue t).length * cfg.net.lat +
          senderLeft cfg.net.lat f.ts.now (f.ts.sys.net.sender t) (f.clk.flight t)) +
        stopLeft f.ts.now (f.ts.sys.net.stopper t) (f.ts.sys.net.queue t) (f.clk.check t) →
      f'.left cfg l i ≤ f.left cfg l i := by
    intro n x e hx hj hle
    subst e
    refine left_tile (t := t) ht (by rw [h3]) (by rw [h3]) (by rw [h3]) (fun j e => ?_) ?_ ?_
    · rw [h3, hk]
      exact ⟨upd_ne _ _ _ _ e, hj j e⟩
    · rw [h3]
      dsimp only
      rw [setTile_tile, hx]
    · unfold FSys.procPart FSys.routerPart FSys.stopPart
      rw [h3, hk]
      dsimp only
      rw [setTile_tile]
      exact hle
  have same : ∀ {n : Net} {j : Nat}, n = f.ts.sys.net → k = f.clk → n.queue j = f.ts.sys.net.queue j ∧
        n.sender j = f.ts.sys.net.sender j ∧ n.stopper j = f.ts.sys.net.stopper j ∧
        k.adds j = f.clk.adds j ∧ k.flight j = f.clk.flight j ∧ k.check j = f.clk.check j := by
    intro n j e1 e2
    rw [e1, e2]
    exact ⟨rfl, rfl, rfl, rfl, rfl, rfl⟩
  -- the tile process goes on
  have hself : k = f.clk → ∀ (x : TileSt), sys = f.ts.sys.setTile t x → x.ctrl = (f.ts.sys.tile t).ctrl →
      x.core = (f.ts.sys.tile t).core →
      (x.ops.map (tileOpCycles cfg)).sum + procLeft cfg x.phase ≤
        ((f.ts.sys.tile t).ops.map (tileOpCycles cfg)).sum + procLeft cfg (f.ts.sys.tile t).phase →
      f'.left cfg l i ≤ f.left cfg l i := by
    intro e1 x e2 e3 e4 e5
    refine key (n := f.ts.sys.net) (x := x) e2 e4 (fun j _ => same rfl e1) ?_
    rw [e1, e3]
    omega
  -- it submits a request
  have hsub : k = f.clk → ∀ (start : Int) (kind : ReqKind) (g : Sys → Sys) (x : Ctrl → TileSt),
      (∀ c, g (f.ts.sys.setTile t { f.ts.sys.tile t with ctrl := c }) = f.ts.sys.setTile t (x c) ∧ (x c).ctrl = c ∧
        (x c).core = (f.ts.sys.tile t).core ∧
        ((x c).ops.map (tileOpCycles cfg)).sum + procLeft cfg (x c).phase +
            reqCycles cfg.edramLat ((f.ts.sys.tile t).ctrl.newReq (-1) start kind) ≤
          ((f.ts.sys.tile t).ops.map (tileOpCycles cfg)).sum + procLeft cfg (f.ts.sys.tile t).phase) →
      f.ts.sys.ctrlAct cfg t (.submit (-1) start kind) g = some sys → f'.left cfg l i ≤ f.left cfg l i := by
    intro e1 start kind g x hf e
    obtain ⟨c, hc, hcn, hs⟩ := ctrlAct_ok e hn
    obtain ⟨g1, g2, g3, g4⟩ := hf c
    refine key (n := f.ts.sys.net) (x := x c) (hs.trans g1) g3 (fun j _ => same rfl e1) ?_
    rw [e1, g2, ctrlLeft_submit hc hcn]
    omega
  unfold Sys.tileStep at h5
  dsimp only at h5
  split at h5
  · rename_i hp
    rw [hp] at h2
    injection h2 with h2
    split at h5
    · cases h5
    · rename_i op rest hq
      unfold Sys.tileStart at h5
      dsimp only at h5
      split at h5
      · rename_i addr target width vec
        refine hsub h2.symm _ _ _ (fun c => { f.ts.sys.tile t with
          ctrl := c, ops := rest
          phase := .sendWait (f.ts.sys.tile t).ctrl.submitted.length addr target width vec })
          (fun c => ⟨?_, rfl, rfl, ?_⟩) h5
        · dsimp only; rw [setTile_tile, setTile_setTile]
        · rw [hp, hq]
          simp only [procLeft, List.map_cons, List.sum_cons, tileOpCycles, reqCycles, Ctrl.newReq, Req.numBatches]
          omega
      · split at h5
        · injection h5 with h5; subst h5; cases hn
        · injection h5 with h5
          refine hself h2.symm _ h5.symm rfl rfl ?_
          rw [hp, hq]
          simp only [procLeft, List.map_cons, List.sum_cons, tileOpCycles]
          omega
      · injection h5 with h5
        refine hself h2.symm _ h5.symm rfl rfl ?_
        rw [hp, hq]
        simp only [procLeft, List.map_cons, List.sum_cons, tileOpCycles]
        omega
  · rename_i id addr target width vec hp
    rw [hp] at h2
    injection h2 with h2
    split at h5
    · cases h5
    · split at h5
      · injection h5 with h5; subst h5; cases hn
      · injection h5 with h5
        refine hself h2.symm _ h5.symm rfl rfl ?_
        rw [hp]
        simp [procLeft, reshape]
  · rename_i target todo hp
    rw [hp] at h2
    split at h5
    · injection h2 with h2
      injection h5 with h5
      refine hself h2.symm _ h5.symm rfl rfl ?_
      rw [hp]
      simp [procLeft]
    · rename_i row rows
      dsimp only at h2
      split at h5
      · injection h5 with h5; subst h5; cases hn
      · rename_i hb
        have hd : ¬ cfg.dataMemLat < 0 := by
          intro hd
          simp [badDelay, hd] at hb
        rw [if_neg hd] at h2
        injection h2 with h2
        obtain ⟨n, hc, -, hs⟩ := netAct_ok h5 hn
        obtain ⟨-, -, g1⟩ := net_act_cases hc
        obtain ⟨rfl, -⟩ := sendIf_send g1
        refine key (n := f.ts.sys.net.send t target row) (x := { f.ts.sys.tile t with phase := .adding target rows })
          hs rfl (fun j hj => ?_) ?_
        · rw [← h2]
          exact ⟨upd_ne _ _ _ _ hj, rfl, rfl, upd_ne _ _ _ _ hj, rfl, rfl⟩
        · rw [← h2, hp]
          have hst := hstop (by rw [hp]; simp)
          have e1 : (f.ts.sys.net.send t target row).stopper t = f.ts.sys.net.stopper t := rfl
          have e2 : (f.ts.sys.net.send t target row).sender t = f.ts.sys.net.sender t := rfl
          have e3 : ((f.ts.sys.net.send t target row).queue t).length = (f.ts.sys.net.queue t).length + 1 := by
            simp [Net.send, upd_same]
          rw [e1, e2, e3]
          dsimp only
          rw [upd_same, adds_sum]
          simp only [procLeft, List.length_cons, Nat.succ_mul]
          rcases hst with hst | hst <;> rw [hst] <;> simp only [stopLeft] <;> omega
  · rename_i target todo hp
    rw [hp] at h2
    obtain ⟨n, hc, -, hs⟩ := netAct_ok h5 hn
    obtain ⟨-, -, g1⟩ := net_act_cases hc
    dsimp only at g1 h2
    unfold Net.added at g1
    split at g1
    · cases g1
    injection g1 with g1
    unfold NetClock.step at h2
    dsimp only at h2
    split at h2
    · cases h2
    rename_i d rest hadd
    split at h2
    swap
    · cases h2
    rename_i hd
    injection h2 with h2
    refine key (n := n) (x := { f.ts.sys.tile t with phase := .sending target todo })
      hs rfl (fun j hj => ?_) ?_
    · rw [← h2, ← g1]
      exact ⟨rfl, rfl, rfl, upd_ne _ _ _ _ hj, rfl, rfl⟩
    · rw [← h2, ← g1, hp, hadd]
      dsimp only
      rw [upd_same]
      simp only [procLeft, List.map_cons, List.sum_cons]
      omega
  · rename_i addr source width vec got hp
    rw [hp] at h2
    dsimp only at h2
    split at h5
    · rename_i hg
      rw [if_pos hg] at h2
      injection h2 with h2
      obtain ⟨n, hc, hcn, hs⟩ := netAct_ok h5 hn
      obtain ⟨-, -, g1⟩ := net_act_cases hc
      dsimp only at g1
      have hnet : n.queue = f.ts.sys.net.queue ∧ n.sender = f.ts.sys.net.sender ∧ n.stopper = f.ts.sys.net.stopper := by
        unfold Net.startRead at g1
        repeat' split at g1
        all_goals first
          | (cases g1; done)
          | (injection g1 with g1; subst g1; exact ⟨rfl, rfl, rfl⟩)
      refine key (n := n) (x := { f.ts.sys.tile t with phase := .recvWait addr source width vec got })
        hs rfl (fun j hj => ?_) ?_
      · rw [← h2, hnet.1, hnet.2.1, hnet.2.2]
        exact ⟨rfl, rfl, rfl, rfl, rfl, rfl⟩
      · rw [← h2, hnet.1, hnet.2.1, hnet.2.2, hp]
        dsimp only
        simp only [procLeft]
        omega
    · rename_i hg
      rw [if_neg hg] at h2
      injection h2 with h2
      refine hsub h2.symm _ _ _ (fun c => { f.ts.sys.tile t with
          ctrl := c
          phase := .recvWrite (f.ts.sys.tile t).ctrl.submitted.length
          log := (f.ts.sys.tile t).log ++ [.received addr source width vec got] })
          (fun c => ⟨?_, rfl, rfl, ?_⟩) h5
      · dsimp only [Sys.logPhase]; rw [setTile_tile, setTile_setTile]
      · rw [hp]
        simp only [procLeft, reqCycles, Ctrl.newReq, Req.numBatches]
        omega
  · rename_i addr source width vec got hp
    rw [hp] at h2
    dsimp only at h2
    split at h5
    swap
    · cases h5
    rename_i src data hr
    rw [hr] at h2
    injection h2 with h2
    obtain ⟨n, hc, -, hs⟩ := netAct_ok h5 hn
    obtain ⟨-, -, y, g1⟩ := net_act_cases hc
    obtain ⟨_, -, g2⟩ := view_readDone g1
    refine key (n := n) (x := { f.ts.sys.tile t with
        phase := if (data.length : Int) = width then .recving addr source width vec (got ++ [data]) else .ready
        log := (f.ts.sys.tile t).log ++ [.row source data] }) hs rfl (fun j hj => ?_) ?_
    · rw [← h2, g2]
      exact ⟨rfl, rfl, rfl, rfl, rfl, rfl⟩
    · rw [← h2, g2, hp]
      dsimp only
      split <;> simp only [procLeft] <;> omega
  · rename_i id hp
    rw [hp] at h2
    injection h2 with h2
    split at h5
    · injection h5 with h5
      refine hself h2.symm _ h5.symm rfl rfl ?_
      rw [hp]
      simp [procLeft]
    · cases h5
  · rename_i hp
    rw [hp] at h2
    dsimp only at h2
    split at h5
    swap
    · cases h5
    rename_i hh
    split at h5
    · rename_i hst
      rw [hst] at h2
      injection h2 with h2
      injection h5 with h5
      refine hself h2.symm _ h5.symm rfl rfl ?_
      rw [hp]
      simp [procLeft]
    · rename_i hst
      obtain ⟨n, hc, -, hs⟩ := netAct_ok h5 hn
      obtain ⟨-, -, g1⟩ := net_act_cases hc
      obtain ⟨g2, g3⟩ := view_halt g1
      rw [g2, if_pos hh] at h2
      injection h2 with h2
      refine key (n := n) (x := { f.ts.sys.tile t with phase := .haltRouter }) hs rfl (fun j hj => ?_) ?_
      · rw [← h2, g3]
        exact ⟨rfl, rfl, upd_ne _ _ _ _ hj, rfl, rfl, upd_ne _ _ _ _ hj⟩
      · rw [← h2, g3, hp]
        dsimp only
        rw [upd_same, upd_same, g2]
        simp only [procLeft, stopLeft]
        split <;> omega
  · rename_i hp
    rw [hp] at h2
    dsimp only at h2
    split at h5
    · rename_i hst
      rw [hst] at h2
      injection h2 with h2
      obtain ⟨c, hc, hcn, hs⟩ := ctrlAct_ok h5 hn
      refine key (n := f.ts.sys.net) (x := { f.ts.sys.tile t with
          ctrl := c, phase := .ready, log := (f.ts.sys.tile t).log ++ [.halted] }) ?_ rfl (fun j _ => same rfl h2.symm) ?_
      · rw [hs]
        dsimp only [Sys.logPhase]
        rw [setTile_tile, setTile_setTile]
      · rw [← h2, hp]
        dsimp only
        rw [ctrlLeft_stop hc hcn]
        simp only [procLeft]
        omega
    · rename_i hst
      obtain ⟨n, hc, -, hs⟩ := netAct_ok h5 hn
      obtain ⟨-, -, g1⟩ := net_act_cases hc
      dsimp only at g1
      have hs' : sys = Sys.setTile { f.ts.sys with net := n } t (f.ts.sys.tile t) := by
        rw [hs]
        exact (setTile_self { f.ts.sys with net := n } t).symm
      refine key (n := n) (x := f.ts.sys.tile t) hs' rfl ?_ ?_
      all_goals
        unfold Net.stopStep at g1
        unfold NetClock.step at h2
        cases hst : f.ts.sys.net.stopper t <;> simp only [hst] at g1 h2 <;> repeat' split at g1
        all_goals first
          | (cases g1; done)
          | (injection g1 with g1; subst g1
             repeat' split at h2
             all_goals first
               | (cases h2; done)
               | (injection h2 with h2; subst h2
                  first
                    | exact fun j hj => ⟨rfl, rfl, upd_ne _ _ _ _ hj, rfl, rfl, rfl⟩
                    | (dsimp only
                       rw [upd_same]
                       simp only [stopLeft]
                       omega)))

end
end Ramwich
