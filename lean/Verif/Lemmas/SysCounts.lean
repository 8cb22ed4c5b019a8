import Verif.Lemmas.SysRest

/-! # The DRAM requests of a tile, counted from what its processes have done -/
namespace Ramwich

open Pipeline (upd)
open Spec

/-! ## Requests and logs -/

/-- The request that an operation of a core has made. -/
def coreEvW (w : Int → ReqKind → Int) (e : CoreEv) : Int :=
  match e.op with
  | .load _ _ width vec => w e.addr (.read width vec)
  | .store _ _ _ vec => w e.addr (.write e.data vec.toNat)
  | _ => 0

/-- What the log of a core does not show yet, or shows too early. -/
def corePhaseW (w : Int → ReqKind → Int) : CorePhase → Int
  | .loadWait _ a _ _ width vec => w a (.read width vec)
  | .storeDelay a data rows => - w a (.write data rows)
  | _ => 0

def tileEvW (w : Int → ReqKind → Int) : TileEv → Int
  | .sent a _ width vec _ => w a (.read width vec)
  | .received a _ _ vec rows => w a (.write rows.flatten vec.toNat)
  | _ => 0

def tilePhaseW (w : Int → ReqKind → Int) : TilePhase → Int
  | .sendWait _ a _ width vec => w a (.read width vec)
  | _ => 0

def coreW (w : Int → ReqKind → Int) (x : CoreSt) : Int := (x.log.map (coreEvW w)).sum + corePhaseW w x.phase

def reqW (w : Int → ReqKind → Int) (rs : List Req) : Int := (rs.map fun r => w r.start r.kind).sum

/-- The requests of a tile are those of its processes. -/
def Balance (cfg : SysCfg) (w : Int → ReqKind → Int) (x : TileSt) : Prop :=
  reqW w x.ctrl.submitted =
    ∑ k ∈ Finset.range cfg.cores, coreW w (x.core k) + ((x.log.map (tileEvW w)).sum + tilePhaseW w x.phase)

theorem sum_upd_int {β : Type} (n : Nat) (f : Nat → β) (g : β → Int) (i : Nat) (b : β) (hi : i < n) :
    (∑ j ∈ Finset.range n, g (upd f i b j)) = (∑ j ∈ Finset.range n, g (f j)) - g (f i) + g b := by
  induction n with
  | zero => omega
  | succ n ih =>
    rw [Finset.sum_range_succ, Finset.sum_range_succ]
    by_cases h : i = n
    · subst h
      rw [upd_same]
      have : ∑ j ∈ Finset.range i, g (upd f i b j) = ∑ j ∈ Finset.range i, g (f j) := by
        apply Finset.sum_congr rfl
        intro j hj
        rw [upd_ne _ _ _ _ (by have := Finset.mem_range.1 hj; omega)]
      omega
    · rw [upd_ne _ _ _ _ (fun h' => h h'.symm)]
      have := ih (by omega)
      omega

theorem reqW_submit {lat : Int} {c c' : Ctrl} {core start : Int} {kind : ReqKind}
    (h : c.act lat (.submit core start kind) = some c') (hn : c'.crashed = none) (w : Int → ReqKind → Int) :
    reqW w c'.submitted = reqW w c.submitted + w start kind := by
  rw [(submit_ok h hn).1]
  simp [reqW, Ctrl.newReq]

theorem balance_setCore {cfg : SysCfg} {w : Int → ReqKind → Int} {x : TileSt} {c' : Ctrl} {k : Nat} {y : CoreSt}
    (h : Balance cfg w x) (hk : k < cfg.cores)
    (he : reqW w c'.submitted - reqW w x.ctrl.submitted = coreW w y - coreW w (x.core k)) :
    Balance cfg w (TileSt.setCore { x with ctrl := c' } k y) := by
  unfold Balance at h ⊢
  unfold TileSt.setCore
  dsimp only
  rw [sum_upd_int _ _ _ _ _ hk]
  omega

theorem balance_core {cfg : SysCfg} {w : Int → ReqKind → Int} {x : TileSt} {k : Nat} {y : CoreSt}
    (h : Balance cfg w x) (hk : k < cfg.cores) (he : coreW w y = coreW w (x.core k)) :
    Balance cfg w (x.setCore k y) :=
  balance_setCore (c' := x.ctrl) h hk (by omega)

theorem balance_step {cfg : SysCfg} {t : Nat} {v v' : NetView} {x x' : TileSt} (w : Int → ReqKind → Int)
    (h : Balance cfg w x) (st : TileStep cfg t x v x' v') : Balance cfg w x' := by
  cases st with
  | ctrl a c hc hs hst => unfold Balance at h ⊢; dsimp only; rw [hs]; exact h
  | take src y hr => exact h
  | run k op rest c hk hp hq hop he =>
    refine balance_core h hk ?_
    unfold coreW
    dsimp only
    rw [hp]
    cases op <;> first | (cases hop; done) | simp [coreEvW, corePhaseW]
  | timed k hk hp => exact balance_core h hk (by simp [coreW, hp, corePhaseW])
  | load k dest read width vec rest addr c c' hk hp hq he hc hn =>
    refine balance_setCore h hk ?_
    rw [reqW_submit hc hn]
    simp [coreW, hp, corePhaseW]
  | loaded k id addr dest read width vec data hk hp ha =>
    exact balance_core h hk (by simp [coreW, hp, corePhaseW, coreEvW])
  | loadDone k dest data c hk hp he => exact balance_core h hk (by simp [coreW, hp, corePhaseW])
  | store k dest read width vec rest addr data c hk hp hq he =>
    exact balance_core h hk (by simp [coreW, hp, corePhaseW, coreEvW])
  | stored k addr data rows c' hk hp hc hn =>
    refine balance_setCore h hk ?_
    rw [reqW_submit hc hn]
    simp [coreW, hp, corePhaseW]
  | storeDone k id hk hp ha => exact balance_core h hk (by simp [coreW, hp, corePhaseW])
  | halted k hk hp => exact balance_core h hk (by simp [coreW, hp, corePhaseW])
  | send addr target width vec rest c' hp hq hc hn =>
    unfold Balance at h ⊢
    dsimp only
    rw [reqW_submit hc hn]
    simp only [hp, tilePhaseW] at h ⊢
    omega
  | sendGot id addr target width vec data hp ha hw hv =>
    unfold Balance at h ⊢
    simp only [hp, tilePhaseW, List.map_append, List.sum_append, List.map_cons, List.map_nil, List.sum_cons,
      List.sum_nil, tileEvW] at h ⊢
    omega
  | recvAll addr source width vec got c' hp hg hc hn =>
    unfold Balance at h ⊢
    dsimp only
    rw [reqW_submit hc hn]
    simp only [hp, tilePhaseW, List.map_append, List.sum_append, List.map_cons, List.map_nil, List.sum_cons,
      List.sum_nil, tileEvW] at h ⊢
    omega
  | recvRow addr source width vec got src data hp hr =>
    have hz : tilePhaseW w (if (data.length : Int) = width then .recving addr source width vec (got ++ [data])
        else .ready) = 0 := by split <;> rfl
    unfold Balance at h ⊢
    dsimp only
    rw [hz]
    simp only [hp, tilePhaseW, List.map_append, List.sum_append, List.map_cons, List.map_nil, List.sum_cons,
      List.sum_nil, tileEvW] at h ⊢
    omega
  | haltEnd c' hp hs hc hn =>
    unfold Balance at h ⊢
    dsimp only
    rw [act_submitted hc (by simp)]
    simp only [hp, tilePhaseW, List.map_append, List.sum_append, List.map_cons, List.map_nil, List.sum_cons,
      List.sum_nil, tileEvW] at h ⊢
    omega
  | stopStep st hp hs hs' => exact h
  | _ =>
    rename_i hp _
    unfold Balance at h ⊢
    simp_all [tilePhaseW]

theorem balance_run {cfg : SysCfg} {i : SysInit} (w : Int → ReqKind → Int) (as : List SysAct) (s : Sys)
    (h : i.start.run cfg as = some s) (t : Nat) : Balance cfg w (s.tile t) := by
  refine sys_run_induction (P := fun s => ∀ t, Balance cfg w (s.tile t)) ?_ as _ s ?_ h t
  · intro s s' hs st t
    rcases st.tile t with ⟨h1, -⟩ | ⟨-, h1⟩
    · rw [h1]; exact hs t
    · exact balance_step w (hs t) h1
  · intro t
    simp [Balance, SysInit.start, Ctrl.started, reqW, coreW, corePhaseW, tilePhaseW]

/-! ## The counters of the memory -/

def readBatchW : Int → ReqKind → Int := fun _ k => match k with | .read _ n => n | .write .. => 0
def writeBatchW : Int → ReqKind → Int := fun _ k => match k with | .read .. => 0 | .write _ rows => rows
def readCellsW : Int → ReqKind → Int := fun _ k => match k with | .read b n => b * n | .write .. => 0
def writeCellsW : Int → ReqKind → Int := fun _ k => match k with | .read .. => 0 | .write data _ => data.length

/-- The counters after the given requests. -/
def memStats (s : MemoryStats) (rs : List Req) : MemoryStats :=
  { readOperations := s.readOperations + reqW readBatchW rs
    readCells := s.readCells + reqW readCellsW rs
    writeOperations := s.writeOperations + reqW writeBatchW rs
    writeCells := s.writeCells + reqW writeCellsW rs
    totalOperations := s.totalOperations + (reqW readBatchW rs + reqW writeBatchW rs)
    totalOperatedCells := s.totalOperatedCells + (reqW readCellsW rs + reqW writeCellsW rs) }

theorem reqW_snoc (w : Int → ReqKind → Int) (rs : List Req) (r : Req) :
    reqW w (rs ++ [r]) = reqW w rs + w r.start r.kind := by simp [reqW]

theorem reqW_perm (w : Int → ReqKind → Int) {rs rs' : List Req} (h : rs.Perm rs') : reqW w rs = reqW w rs' :=
  (h.map _).sum_eq

theorem memStats_snoc (s : MemoryStats) (rs : List Req) (r : Req) :
    memStats s (rs ++ [r]) = match r.kind with
      | .read .. => (memStats s rs).addRead r.numBatches r.length
      | .write .. => (memStats s rs).addWrite r.numBatches r.length := by
  unfold memStats
  simp only [reqW_snoc]
  cases hk : r.kind <;>
    simp [readBatchW, writeBatchW, readCellsW, writeCellsW, MemoryStats.addRead, MemoryStats.addWrite,
      Req.numBatches, Req.length, hk] <;> omega

theorem memStats_run {lat : Int} {m0 : Memory} (as : List CtrlAct) :
    ∀ (c c' : Ctrl), c.mem.stats = memStats m0.stats (c.answers.map Answer.req) → c.run lat as = some c' →
      c'.mem.stats = memStats m0.stats (c'.answers.map Answer.req) := by
  induction as with
  | nil => intro c c' h hr; simp only [Ctrl.run, Option.some.injEq] at hr; subst hr; exact h
  | cons a as ih =>
    intro c c' h hr
    simp only [Ctrl.run] at hr
    cases ha : c.act lat a with
    | none => rw [ha] at hr; cases hr
    | some c1 =>
      rw [ha] at hr
      refine ih c1 c' ?_ hr
      have st := act_step lat c c1 a ha
      cases st with
      | read r rest mem data h1 h2 h3 h4 =>
        dsimp only
        rw [List.map_append, List.map_cons, List.map_nil, show (Answer.read r c.now data).req = r from rfl,
          memStats_snoc, ← h]
        unfold Memory.read at h4
        dsimp only at h4
        split at h4
        · cases h4
        split at h4
        · cases h4
        injection h4 with _ h4
        subst h4
        cases hk : r.kind with
        | read b n => rfl
        | write d n => simp [Req.isWrite, hk] at h3
      | write r rest mem data rows h1 h2 h3 h4 =>
        dsimp only
        rw [List.map_append, List.map_cons, List.map_nil, show (Answer.wrote r c.now).req = r from rfl,
          memStats_snoc, ← h]
        unfold Memory.write at h4
        dsimp only at h4
        split at h4
        · cases h4
        injection h4 with _ h4
        subst h4
        rw [h3]
        simp [Req.length, h3]
      | _ => exact h

/-! ## Finished runs -/

theorem coreW_eq {w : Int → ReqKind → Int} {x x' : CoreSt} (hl : x'.log = x.log)
    (h : x.phase = .halted ∨ x.phase = .ready) (h' : x'.phase = .halted ∨ x'.phase = .ready) :
    coreW w x' = coreW w x := by
  unfold coreW
  rw [hl]
  rcases h with h | h <;> rcases h' with h' | h' <;> rw [h, h'] <;> rfl

/-- Two tiles whose processes have done the same have made the same requests. -/
theorem reqW_eq {cfg : SysCfg} {w : Int → ReqKind → Int} {x x' : TileSt} (h : Balance cfg w x)
    (h' : Balance cfg w x') (hl : x'.log = x.log) (hp : x.phase = .ready) (hp' : x'.phase = .ready)
    (hc : ∀ k < cfg.cores, coreW w (x'.core k) = coreW w (x.core k)) :
    reqW w x'.ctrl.submitted = reqW w x.ctrl.submitted := by
  unfold Balance at h h'
  rw [h, h', hl, hp, hp']
  congr 1
  exact Finset.sum_congr rfl fun k hk => hc k (Finset.mem_range.1 hk)

/-- In a finished run every request has been answered. -/
theorem finished_answered {cfg : SysCfg} {i : SysInit} (h0 : ∀ t, GoodStart (i.mem t) (i.valid t)) {s : Sys}
    (h : SysInv cfg i s) (hf : finished cfg s) {t : Nat} (ht : t < cfg.net.tiles) :
    ((s.tile t).ctrl.answers.map Answer.req).Perm (s.tile t).ctrl.submitted := by
  have hl := (ctrlInv_of (h0 t) (h.tile t).ctrl).line
  obtain ⟨hp, -, hk⟩ := hf.2 t ht
  have := answered_all hl (fun r hr => ?_)
  · have hp := hl.perm
    rw [this.1, this.2] at hp
    exact hp
  · rcases (h.tile t).owner r hr with h1 | ⟨-, h1⟩ | ⟨k, hkc, -, h1⟩
    · exact h1
    · rw [hp] at h1; cases h1
    · rcases hk k hkc with h2 | ⟨h2, -⟩ <;> rw [h2] at h1 <;> cases h1

end Ramwich
