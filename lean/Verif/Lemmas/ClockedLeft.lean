import Verif.Spec.ClockedTime
import Verif.Lemmas.ClockedBound

/-! # The time that the programs of a node still need -/
namespace Ramwich

open Spec Pipeline

/-! ## The controllers -/

def reqCycles (lat : Int) (r : Req) : Nat := (lat * r.numBatches).toNat

def busLeft (lat : Int) (now : Nat) : List Req → Option Nat → Nat
  | [], _ => 0
  | _ :: rest, some d => (d - now) + (rest.map (reqCycles lat)).sum
  | bus, none => (bus.map (reqCycles lat)).sum

def ctrlLeft (lat : Int) (c : Ctrl) : Nat :=
  (c.queue.map (reqCycles lat)).sum + (c.handed.toList.map (reqCycles lat)).sum +
    (c.pending.map (reqCycles lat)).sum + busLeft lat c.now c.bus c.deadline

theorem busLeft_none (lat : Int) (now : Nat) (bus : List Req) : busLeft lat now bus none = (bus.map (reqCycles lat)).sum := by
  cases bus <;> rfl

theorem ctrlLeft_submit {lat : Int} {c c' : Ctrl} {core start : Int} {kind : ReqKind}
    (h : c.act lat (.submit core start kind) = some c') (hn : c'.crashed = none) :
    ctrlLeft lat c' = ctrlLeft lat c + reqCycles lat (c.newReq core start kind) := by
  have hst := act_step lat c c' _ h
  cases hst with
  | crash e => cases hn
  | submit _ _ _ hr =>
    unfold ctrlLeft
    simp only [List.map_append, List.sum_append, List.map_cons, List.map_nil, List.sum_cons, List.sum_nil]
    omega

theorem ctrlLeft_stop {lat : Int} {c c' : Ctrl} (h : c.act lat .stop = some c') (hn : c'.crashed = none) :
    ctrlLeft lat c' = ctrlLeft lat c := by
  have hst := act_step lat c c' _ h
  cases hst with
  | crash e => cases hn
  | stopped h => rfl
  | stop cr => rfl

theorem ctrlLeft_act {lat : Int} {m0 : Memory} {v0 : List Bool} {t0 : Nat} {c c' : Ctrl} {a : CtrlAct}
    (hi : CtrlInv lat m0 v0 t0 c) (ha : a.internal = true) (hne : a ≠ .tick)
    (h : c.act lat a = some c') (hn : c'.crashed = none) : ctrlLeft lat c' ≤ ctrlLeft lat c := by
  have hst := act_step lat c c' a h
  clear h
  cases hst with
  | crash _ e => cases hn
  | submit => exact absurd ha (by simp [CtrlAct.internal])
  | stopped => exact absurd ha (by simp [CtrlAct.internal])
  | stop => exact absurd ha (by simp [CtrlAct.internal])
  | tick hq => exact absurd rfl hne
  | pick r rest h1 h2 =>
    simp only [ctrlLeft, h1, h2, List.map_cons, List.sum_cons, Option.toList_some,
      Option.toList_none, List.map_nil, List.sum_nil]
    omega
  | toBus r h1 h2 =>
    simp only [ctrlLeft, h1, List.map_cons, List.sum_cons, Option.toList_some, 
      Option.toList_none, List.map_nil, List.sum_nil]
    cases hd : c.deadline with
    | none => simp only [busLeft_none, List.map_append, List.sum_append, List.map_cons, List.sum_cons, List.map_nil, List.sum_nil]; omega
    | some d =>
      obtain ⟨r', rest, hb, -⟩ := hi.time.serving d hd
      rw [hb]
      simp only [busLeft, List.cons_append, List.map_append, List.sum_append, List.map_cons, List.sum_cons, List.map_nil, List.sum_nil]
      omega
  | toPending r h1 h2 h3 =>
    simp only [ctrlLeft, h1, List.map_cons, List.sum_cons, Option.toList_some, List.map_append, List.sum_append,
      Option.toList_none, List.map_nil, List.sum_nil]
    omega
  | grant r rest h1 h2 h3 =>
    simp only [ctrlLeft, h1, h2, busLeft, List.map_cons, List.sum_cons, reqCycles]
    omega
  | read r rest mem data h1 h2 h3 h4 =>
    simp only [ctrlLeft, h1, h2, busLeft_none]
    simp only [busLeft]
    omega
  | write r rest mem data rows h1 h2 h3 h4 =>
    rw [updateReady_release _ _ (pending_nodup c hi.line)]
    generalize pySliceSet c.valid r.start.toNat (List.replicate data.length true) = v'
    have hperm := ((release_perm (ready v') c.pending).map (reqCycles lat)).sum_eq
    rw [List.map_append, List.sum_append] at hperm
    simp only [ctrlLeft, h1, h2, busLeft_none, List.map_append, List.sum_append]
    simp only [busLeft]
    omega

/-! ## The cores -/

/-- The time that a stage in a `timeout` still needs. -/
def stageRem (p : Timed CoreOp) (j : Nat) : Nat :=
  match p.st.ctl j, p.deadline j with
  | .busy _, some d => d - p.now
  | _, _ => 0

/-- Of a program, what a stage has not started. -/
def toStart (prog : List CoreOp) (p : Timed CoreOp) (j : Nat) : List CoreOp :=
  (upToHlt prog).drop (p.st.accepted j).length

def phaseLeft (cfg : SysCfg) (now : Nat) (ph : CorePhase) (due : Option Nat) : Nat :=
  match ph with
  | .timing | .halting | .loadGot .. => due.getD 0 - now
  | .loadWait _ _ _ _ _ vec => (cfg.dataMemLat * vec).toNat
  | .storeDelay _ _ rows => due.getD 0 - now + (cfg.edramLat * rows).toNat
  | _ => 0

/-- The time that a core still needs. -/
def coreLeft (cfg : SysCfg) (l : StageLat) (prog : List CoreOp) (p : Timed CoreOp) (ph : CorePhase) (due : Option Nat) : Nat :=
  ((toStart prog p 0).length * l.fetch + stageRem p 0) + ((toStart prog p 1).length * l.decode + stageRem p 1) +
    (((toStart prog p 2).map (coreOpCycles cfg)).sum + phaseLeft cfg p.now ph due)

theorem prefix_upToHlt (prog : List CoreOp) : ∀ acc : List CoreOp, acc <+: prog → (∀ x ∈ acc.dropLast, isHlt x = false) →
    acc <+: upToHlt prog := by
  induction prog with
  | nil => intro acc h _; rw [List.prefix_nil.1 h]; exact List.nil_prefix
  | cons op ops ih =>
    intro acc h hq
    cases acc with
    | nil => exact List.nil_prefix
    | cons a acc =>
      obtain ⟨rfl, h2⟩ := List.cons_prefix_cons.1 h
      unfold upToHlt
      cases acc with
      | nil => split <;> simp [List.cons_prefix_cons]
      | cons b acc =>
        have ha : isHlt a = false := hq a (by simp)
        rw [ha]
        simp only [Bool.false_eq_true, if_false]
        rw [List.cons_prefix_cons]
        exact ⟨rfl, ih _ h2 fun x hx => hq x (by simp [hx])⟩

section
variable {cfg : SysCfg} {l : StageLat} {prog : List CoreOp} {lat : Nat → Nat → Option Nat} {t0 : Nat}

theorem acc_prefix_prog {s : State CoreOp} (h : Inv isHlt 3 prog s) : ∀ j, j < 3 →
    s.accepted j ++ (s.ctl j).taken <+: prog := by
  intro j
  induction j with
  | zero => intro _; exact ⟨s.buf 0 ++ s.feed, by rw [h.feed]; simp [List.append_assoc]⟩
  | succ j ih =>
    intro hj
    have h1 := h.link j (by omega)
    have h2 := ih (by omega)
    refine List.IsPrefix.trans ⟨s.buf (j + 1) ++ (s.ctl j).held, ?_⟩ ((List.prefix_append (s.accepted j) _).trans h2)
    rw [h1]; simp [List.append_assoc]

/-- The operation that a stage starts is the next one of the program. -/
theorem toStart_start {p p' : Timed CoreOp} {j : Nat} {op : CoreOp} (h : Inv isHlt 3 prog p.st) (hj : j < 3)
    (hg : p.st.ctl j = .got op) (ha : p'.st.accepted j = p.st.accepted j ++ [op]) :
    toStart prog p j = op :: toStart prog p' j := by
  have h1 := acc_prefix_prog h j hj
  rw [hg] at h1
  have h2 := prefix_upToHlt prog _ h1 (by
    simp only [Ctl.taken, List.dropLast_concat]
    exact h.quiet j hj (.inr ⟨op, hg⟩))
  obtain ⟨r, hr⟩ := h2
  unfold toStart
  rw [ha, ← hr]
  simp [Ctl.taken]

end

/-! ## The tile processes and the routers -/

def procLeft (cfg : SysCfg) : TilePhase → Nat
  | .sendWait _ _ _ _ vec => vec.toNat * (cfg.dataMemLat.toNat + cfg.net.lat)
  | .sending _ todo => todo.length * (cfg.dataMemLat.toNat + cfg.net.lat)
  | .adding _ todo => todo.length * (cfg.dataMemLat.toNat + cfg.net.lat)
  | .recving _ _ _ vec _ => (cfg.edramLat * vec.toNat).toNat
  | .recvWait _ _ _ vec _ => (cfg.edramLat * vec.toNat).toNat
  | .haltCores => 1
  | _ => 0

def senderLeft (lat now : Nat) (sd : Sender) (flight : Nat) : Nat :=
  match sd with
  | .handed _ => lat
  | .flying .. => flight - now
  | _ => 0

def stopLeft (now : Nat) (st : Stopper) (q : List Packet) (check : Nat) : Nat :=
  match st with
  | .checking => if q = [] then check - now else 1
  | _ => 0

/-- The time that tile `t` still needs. -/
def FSys.tileLeft (cfg : SysCfg) (l : StageLat) (i : SysInit) (f : FSys) (t : Nat) : Nat :=
  ctrlLeft cfg.edramLat (f.ts.sys.tile t).ctrl +
    ((List.range cfg.cores).map fun k =>
      coreLeft cfg l (i.prog t k) (f.ts.pipe t k) ((f.ts.sys.tile t).core k).phase (f.ts.due t k)).sum +
    (((f.ts.sys.tile t).ops.map (tileOpCycles cfg)).sum + procLeft cfg (f.ts.sys.tile t).phase +
      ((f.clk.adds t).map fun d => d - f.ts.now).sum) +
    ((f.ts.sys.net.queue t).length * cfg.net.lat +
      senderLeft cfg.net.lat f.ts.now (f.ts.sys.net.sender t) (f.clk.flight t)) +
    stopLeft f.ts.now (f.ts.sys.net.stopper t) (f.ts.sys.net.queue t) (f.clk.check t)

/-- The time that a node still needs. -/
def FSys.left (cfg : SysCfg) (l : StageLat) (i : SysInit) (f : FSys) : Nat :=
  ((List.range cfg.net.tiles).map (f.tileLeft cfg l i)).sum

section
variable {cfg : SysCfg} {l : StageLat} {i : SysInit} {f f' : FSys}

theorem left_le {t : Nat} (ht : t < cfg.net.tiles) (h : ∀ j, j ≠ t → f'.tileLeft cfg l i j = f.tileLeft cfg l i j)
    (hle : f'.tileLeft cfg l i t ≤ f.tileLeft cfg l i t) : f'.left cfg l i ≤ f.left cfg l i := by
  have := sum_range_upd cfg.net.tiles t ht (f.tileLeft cfg l i) (f'.tileLeft cfg l i) h
  unfold FSys.left
  omega

theorem tileLeft_congr {j : Nat} (h1 : f'.ts.sys.tile j = f.ts.sys.tile j) (h2 : f'.ts.pipe j = f.ts.pipe j)
    (h3 : f'.ts.due j = f.ts.due j) (h4 : f'.ts.now = f.ts.now) (h5 : f'.ts.sys.net.queue j = f.ts.sys.net.queue j)
    (h6 : f'.ts.sys.net.sender j = f.ts.sys.net.sender j) (h7 : f'.ts.sys.net.stopper j = f.ts.sys.net.stopper j)
    (h8 : f'.clk.adds j = f.clk.adds j) (h9 : f'.clk.flight j = f.clk.flight j) (h10 : f'.clk.check j = f.clk.check j) :
    f'.tileLeft cfg l i j = f.tileLeft cfg l i j := by
  unfold FSys.tileLeft
  rw [h1, h2, h3, h4, h5, h6, h7, h8, h9, h10]

end
end Ramwich
