import Verif.Spec.System
import Verif.Lemmas.SysStep

/-! # Invariants of a node -/
namespace Ramwich

open Pipeline (upd)
open Spec

/-! ## Controllers -/

theorem submit_ok {lat : Int} {c c' : Ctrl} {core start : Int} {kind : ReqKind}
    (h : c.act lat (.submit core start kind) = some c') (hn : c'.crashed = none) :
    c'.submitted = c.submitted ++ [c.newReq core start kind] ∧ c'.answers = c.answers ∧
    c.running = true ∧ c'.running = true := by
  have st := act_step lat c c' _ h
  cases st with
  | crash e => simp [Ctrl.crash] at hn
  | submit _ _ _ hr => exact ⟨rfl, rfl, hr, hr⟩

theorem act_mono {lat : Int} {c c' : Ctrl} {a : CtrlAct} (h : c.act lat a = some c') :
    c.submitted <+: c'.submitted ∧ c.answers <+: c'.answers := by
  have st := act_step lat c c' a h
  cases st <;> exact ⟨by simp [Ctrl.crash], by simp [Ctrl.crash]⟩

theorem act_running {lat : Int} {c c' : Ctrl} {a : CtrlAct} (h : c.act lat a = some c') (ha : a ≠ .stop) :
    c'.running = c.running := by
  have st := act_step lat c c' a h
  cases st <;> first | rfl | exact absurd rfl ha

theorem act_not_started {lat : Int} {c c' : Ctrl} {a : CtrlAct} (h : c.act lat a = some c')
    (hr : c.running = false) : c'.running = false := by
  have st := act_step lat c c' a h
  cases st <;> first | exact hr | rfl

theorem readAnswer_mem {id : Nat} {as : List Answer} {d : List I32} (h : readAnswer id as = some d) :
    ∃ r tm, .read r tm d ∈ as ∧ r.id = id := by
  induction as with
  | nil => cases h
  | cons a as ih =>
    cases a with
    | read r tm d' =>
      simp only [readAnswer] at h
      split at h
      · injection h with h; subst h
        exact ⟨r, tm, by simp, by assumption⟩
      · obtain ⟨r, tm, h1, h2⟩ := ih h
        exact ⟨r, tm, by simp [h1], h2⟩
    | wrote r tm =>
      obtain ⟨r, tm, h1, h2⟩ := ih h
      exact ⟨r, tm, by simp [h1], h2⟩

theorem wroteAnswer_mem {id : Nat} {as : List Answer} (h : wroteAnswer id as = true) :
    ∃ r tm, .wrote r tm ∈ as ∧ r.id = id := by
  induction as with
  | nil => cases h
  | cons a as ih =>
    cases a with
    | wrote r tm =>
      simp only [wroteAnswer, Bool.or_eq_true, decide_eq_true_eq] at h
      rcases h with h | h
      · exact ⟨r, tm, by simp, h⟩
      · obtain ⟨r, tm, h1, h2⟩ := ih h
        exact ⟨r, tm, by simp [h1], h2⟩
    | read r tm d =>
      obtain ⟨r, tm, h1, h2⟩ := ih h
      exact ⟨r, tm, by simp [h1], h2⟩

theorem answer_submitted {c : Ctrl} (h : CtrlLine c) {a : Answer} (ha : a ∈ c.answers) : a.req ∈ c.submitted :=
  h.perm.subset (by simp; exact Or.inr (Or.inr ⟨a, ha, rfl⟩))

/-- The answer with number `id` answers the request with that number. -/
theorem answer_unique {c : Ctrl} (h : CtrlLine c) {a : Answer} (ha : a ∈ c.answers) {r : Req} {id : Nat}
    (hid : a.req.id = id) (hr : c.submitted[id]? = some r) : a.req = r := by
  have h1 := (submitted_mem c h _ (answer_submitted h ha)).2
  rw [hid, hr] at h1
  injection h1 with h1
  exact h1.symm

theorem prefix_getElem? {α : Type} {l l' : List α} (h : l <+: l') {i : Nat} {x : α} (hx : l[i]? = some x) :
    l'[i]? = some x := by
  obtain ⟨m, rfl⟩ := h
  rw [List.getElem?_append_left (List.getElem?_eq_some_iff.1 hx).1]
  exact hx

/-! ## Cores -/

theorem coreRan_snoc {fl : FloatActs} {noise : Nat → Nat → Nat → Noise} (log : List CoreEv) :
    ∀ (n : Nat) (c : Core) (p : List CoreOp) (c' : Core) (e : CoreEv) (rest : List CoreOp),
    coreRan fl noise n c p log c' (e.op :: rest) → e.follows fl (noise (n + log.length)) c' →
    coreRan fl noise n c p (log ++ [e]) e.after (if e.op = .hlt then [] else rest) := by
  induction log with
  | nil =>
    intro n c p c' e rest h he
    obtain ⟨rfl, rfl⟩ := h
    exact ⟨rest, rfl, he, rfl, rfl⟩
  | cons e' log ih =>
    intro n c p c' e rest h he
    obtain ⟨r', h1, h2, h3⟩ := h
    refine ⟨r', h1, h2, ih (n + 1) _ _ c' e rest h3 ?_⟩
    rw [List.length_cons] at he
    rw [show n + 1 + log.length = n + (log.length + 1) by omega]
    exact he

/-- The request with number `id` reads at `addr`. -/
def isRead (c : Ctrl) (id : Nat) (core addr width vec : Int) : Prop :=
  ∃ r, c.submitted[id]? = some r ∧ r.core = core ∧ r.start = addr ∧ r.kind = .read width vec

/-- The request with number `id` writes at `addr`. -/
def isWriteOf (c : Ctrl) (id : Nat) (core addr : Int) (data : List I32) (rows : Nat) : Prop :=
  ∃ r, c.submitted[id]? = some r ∧ r.core = core ∧ r.start = addr ∧ r.kind = .write data rows

theorem isRead_mono {c c' : Ctrl} (h : c.submitted <+: c'.submitted) {id : Nat} {k a w v : Int}
    (hr : isRead c id k a w v) : isRead c' id k a w v := by
  obtain ⟨r, h1, h2⟩ := hr
  exact ⟨r, prefix_getElem? h h1, h2⟩

theorem isWriteOf_mono {c c' : Ctrl} (h : c.submitted <+: c'.submitted) {id : Nat} {k a : Int} {d : List I32}
    {n : Nat} (hr : isWriteOf c id k a d n) : isWriteOf c' id k a d n := by
  obtain ⟨r, h1, h2⟩ := hr
  exact ⟨r, prefix_getElem? h h1, h2⟩

/-- What the phase of a core process says about it, when its log leads to core `cv` and program `rest`. -/
def CorePhaseOk (k : Nat) (c : Ctrl) (x : CoreSt) (cv : Core) (rest : List CoreOp) : Prop :=
  match x.phase with
  | .ready => x.core = cv ∧ x.prog = rest
  | .timing => x.core = cv ∧ x.prog = rest
  | .loadWait id addr dest read width vec => rest = .load dest read width vec :: x.prog ∧
      cv.loadAddress read = (.ok addr, x.core) ∧ isRead c id k addr width vec
  | .loadGot dest data => x.prog = rest ∧ cv = (x.core.loadFinish dest data).2
  | .storeDelay .. => x.core = cv ∧ x.prog = rest
  | .storeWait _ => x.core = cv ∧ x.prog = rest
  | .halting => x.core = cv ∧ x.prog = [] ∧ rest = []
  | .halted => x.core = cv ∧ x.prog = [] ∧ rest = []

/-- The last store of a core process has not been answered. -/
def storeOpen (k : Nat) (c : Ctrl) (ph : CorePhase) (addr : Int) (data : List I32) (rows : Nat) : Prop :=
  match ph with
  | .storeDelay a d n => a = addr ∧ d = data ∧ n = rows
  | .storeWait id => isWriteOf c id k addr data rows
  | _ => False

structure CoreInv (cfg : SysCfg) (i : SysInit) (t k : Nat) (c : Ctrl) (x : CoreSt) : Prop where
  ran : ∃ cv rest, coreRan cfg.fl (cfg.noise t k) 0 (i.core t k) (i.prog t k) x.log cv rest ∧
    CorePhaseOk k c x cv rest
  loads : ∀ e ∈ x.log, ∀ dest read w v, e.op = .load dest read w v →
    ∃ r tm, .read r tm e.data ∈ c.answers ∧ r.start = e.addr ∧ r.kind = .read w v
  stores : ∀ e ∈ x.log, ∀ dest read w v, e.op = .store dest read w v →
    (∃ r tm, .wrote r tm ∈ c.answers ∧ r.start = e.addr ∧ r.kind = .write e.data v.toNat) ∨
    storeOpen k c x.phase e.addr e.data v.toNat
  opened : ∀ a d n, x.phase = .storeDelay a d n → ∃ e ∈ x.log, ∃ dest read w v,
    e.op = .store dest read w v ∧ e.addr = a ∧ e.data = d

theorem coreInv_mono {cfg : SysCfg} {i : SysInit} {t k : Nat} {c c' : Ctrl} {x : CoreSt}
    (h : CoreInv cfg i t k c x) (hs : c.submitted <+: c'.submitted) (ha : c.answers <+: c'.answers) :
    CoreInv cfg i t k c' x := by
  refine ⟨?_, ?_, ?_, h.opened⟩
  · obtain ⟨cv, rest, h1, h2⟩ := h.ran
    refine ⟨cv, rest, h1, ?_⟩
    unfold CorePhaseOk at h2 ⊢
    cases hp : x.phase <;> rw [hp] at h2 <;> try exact h2
    exact ⟨h2.1, h2.2.1, isRead_mono hs h2.2.2⟩
  · intro e he dest read w v hop
    obtain ⟨r, tm, h1, h2⟩ := h.loads e he dest read w v hop
    exact ⟨r, tm, ha.subset h1, h2⟩
  · intro e he dest read w v hop
    rcases h.stores e he dest read w v hop with ⟨r, tm, h1, h2⟩ | h1
    · exact Or.inl ⟨r, tm, ha.subset h1, h2⟩
    · right
      unfold storeOpen at h1 ⊢
      cases hp : x.phase <;> rw [hp] at h1 <;> try exact h1
      exact isWriteOf_mono hs h1

/-! ## Tile processes -/

/-- What the phase of a tile process says, when its log leads to the operations `rest` with `got` received. -/
def TilePhaseOk (c : Ctrl) (ph : TilePhase) (ops rest : List TileOp) (got : List (List I32)) : Prop :=
  match ph with
  | .ready => rest = ops ∧ got = []
  | .sendWait id addr target width vec => rest = .send addr target width vec :: ops ∧ got = [] ∧
      isRead c id (-1) addr width vec
  | .sending .. => rest = ops ∧ got = []
  | .adding .. => rest = ops ∧ got = []
  | .recving a s w v g => rest = .receive a s w v :: ops ∧ got = g ∧ (g.length : Int) ≤ v ∧ ∀ r ∈ g, (r.length : Int) = w
  | .recvWait a s w v g => rest = .receive a s w v :: ops ∧ got = g ∧ (g.length : Int) < v ∧
      (∀ r ∈ g, (r.length : Int) = w) ∧ 0 ≤ s
  | .recvWrite _ => rest = ops ∧ got = []
  | .haltCores => rest = .halt :: ops ∧ got = []
  | .haltRouter => rest = .halt :: ops ∧ got = []

/-- The rows for tile `d` that the current Send has not put into the queue yet. -/
def TilePhase.todo (d : Nat) : TilePhase → List (List I32)
  | .sending target rows => if target = (d : Int) then rows else []
  | .adding target rows => if target = (d : Int) then rows else []
  | _ => []

/-- The reader of a router in a phase of the tile process. -/
def readerOk : TilePhase → Reader → Prop
  | .recvWait _ s _ _ _, r => r = .waiting s.toNat ∨ ∃ x, r = .got s.toNat x
  | _, r => r = .idle

/-- The write of the last Recv has not been answered. -/
def recvOpen (c : Ctrl) (ph : TilePhase) (addr : Int) (data : List I32) (rows : Nat) : Prop :=
  match ph with
  | .recvWrite id => isWriteOf c id (-1) addr data rows
  | _ => False

structure TileInv (i : SysInit) (t : Nat) (c : Ctrl) (v : NetView) (ph : TilePhase) (ops : List TileOp)
    (log : List TileEv) : Prop where
  ran : ∃ rest got, tileRan (i.ops t, []) log = some (rest, got) ∧ TilePhaseOk c ph ops rest got
  sends : ∀ d : Nat, rowsTo d log = dataTo d v.sent ++ ph.todo d
  reads : ∀ s : Nat, rowsFrom s log = v.readLog s
  reader : readerOk ph v.reader
  sent : ∀ a tg w n rows, .sent a tg w n rows ∈ log → 0 ≤ w ∧ 0 ≤ n ∧
    ∃ r tm data, .read r tm data ∈ c.answers ∧ r.start = a ∧ r.kind = .read w n ∧
      rows = reshape n.toNat w.toNat data
  received : ∀ a s w n rows, .received a s w n rows ∈ log →
    ((rows.length : Int) = n ∧ ∀ r ∈ rows, (r.length : Int) = w) ∧
    ((∃ r tm, .wrote r tm ∈ c.answers ∧ r.start = a ∧ r.kind = .write rows.flatten n.toNat) ∨
      recvOpen c ph a rows.flatten n.toNat)

theorem tileInv_mono {i : SysInit} {t : Nat} {c c' : Ctrl} {v : NetView} {ph : TilePhase} {ops : List TileOp}
    {log : List TileEv} (h : TileInv i t c v ph ops log) (hs : c.submitted <+: c'.submitted)
    (ha : c.answers <+: c'.answers) : TileInv i t c' v ph ops log := by
  refine ⟨?_, h.sends, h.reads, h.reader, ?_, ?_⟩
  · obtain ⟨rest, got, h1, h2⟩ := h.ran
    refine ⟨rest, got, h1, ?_⟩
    unfold TilePhaseOk at h2 ⊢
    cases ph <;> try exact h2
    exact ⟨h2.1, h2.2.1, isRead_mono hs h2.2.2⟩
  · intro a tg w n rows hm
    obtain ⟨h1, h2, r, tm, data, h3, h4⟩ := h.sent a tg w n rows hm
    exact ⟨h1, h2, r, tm, data, ha.subset h3, h4⟩
  · intro a s w n rows hm
    obtain ⟨h1, h2⟩ := h.received a s w n rows hm
    refine ⟨h1, ?_⟩
    rcases h2 with ⟨r, tm, h2, h3⟩ | h2
    · exact Or.inl ⟨r, tm, ha.subset h2, h3⟩
    · right
      unfold recvOpen at h2 ⊢
      cases ph <;> try exact h2
      exact isWriteOf_mono hs h2

theorem tileRan_snoc (log : List TileEv) : ∀ (st st' : List TileOp × List (List I32)) (e : TileEv),
    tileRan st log = some st' → tileRan st (log ++ [e]) = tileNext st' e := by
  induction log with
  | nil =>
    intro st st' e h
    simp only [tileRan, Option.some.injEq] at h
    subst h
    simp only [List.nil_append, tileRan]
    cases tileNext st e <;> rfl
  | cons e' log ih =>
    intro st st' e h
    simp only [tileRan, List.cons_append] at h ⊢
    cases hn : tileNext st e' with
    | none => rw [hn] at h; cases h
    | some st1 => rw [hn] at h; exact ih st1 st' e h

theorem rowsTo_snoc (d : Nat) (log : List TileEv) (e : TileEv) : rowsTo d (log ++ [e]) = rowsTo d log ++ rowsTo d [e] := by
  simp [rowsTo]

theorem rowsFrom_snoc (d : Nat) (log : List TileEv) (e : TileEv) :
    rowsFrom d (log ++ [e]) = rowsFrom d log ++ rowsFrom d [e] := by
  simp [rowsFrom]

/-! ## A tile -/

/-- Where a write request comes from. -/
def writeFrom (cfg : SysCfg) (x : TileSt) (r : Req) (data : List I32) : Prop :=
  (∃ k, k < cfg.cores ∧ ∃ e ∈ (x.core k).log, ∃ dest read w v,
    e.op = .store dest read w v ∧ e.addr = r.start ∧ e.data = data) ∨
  ∃ a s w n rows, .received a s w n rows ∈ x.log ∧ a = r.start ∧ rows.flatten = data

/-- Who waits for a request. -/
def ownedBy (cfg : SysCfg) (x : TileSt) (r : Req) : Prop :=
  (r.core = -1 ∧ x.phase.waits r.id) ∨ ∃ k : Nat, k < cfg.cores ∧ r.core = k ∧ (x.core k).phase.waits r.id

/-- Phases that need a running controller. -/
def TilePhase.inService : TilePhase → Bool
  | .sendWait .. => true
  | .sending .. => true
  | .adding .. => true
  | .recvWrite _ => true
  | _ => false

structure TileAll (cfg : SysCfg) (i : SysInit) (t : Nat) (v : NetView) (x : TileSt) : Prop where
  ctrl : ∃ as, Ctrl.run cfg.edramLat (Ctrl.started (i.mem t) (i.valid t) 0) as = some x.ctrl
  cores : ∀ k, CoreInv cfg i t k x.ctrl (x.core k)
  tile : TileInv i t x.ctrl v x.phase x.ops x.log
  owner : ∀ r ∈ x.ctrl.submitted, answered x.ctrl r ∨ ownedBy cfg x r
  writes : ∀ r ∈ x.ctrl.submitted, ∀ data rows, r.kind = .write data rows → writeFrom cfg x r data
  halting : x.phase = .haltRouter ∨ .halted ∈ x.log → ∀ k < cfg.cores, (x.core k).phase.isHalted = true
  stopped : .halted ∈ x.log → x.ctrl.running = false
  stopping : v.stopper ≠ .running → x.phase = .haltRouter ∨ x.ctrl.running = false
  service : x.phase.inService = true → x.ctrl.running = true

theorem ctrl_reach {cfg : SysCfg} {i : SysInit} {t : Nat} {c c' : Ctrl} {a : CtrlAct}
    (h : ∃ as, Ctrl.run cfg.edramLat (Ctrl.started (i.mem t) (i.valid t) 0) as = some c)
    (ha : c.act cfg.edramLat a = some c') :
    ∃ as, Ctrl.run cfg.edramLat (Ctrl.started (i.mem t) (i.valid t) 0) as = some c' := by
  obtain ⟨as, h⟩ := h
  refine ⟨as ++ [a], ?_⟩
  generalize Ctrl.started (i.mem t) (i.valid t) 0 = c0 at h
  induction as generalizing c0 with
  | nil =>
    simp only [Ctrl.run, Option.some.injEq] at h
    subst h
    simp [Ctrl.run, ha]
  | cons b as ih =>
    simp only [Ctrl.run, List.cons_append] at h ⊢
    cases hb : c0.act cfg.edramLat b with
    | none => rw [hb] at h; cases h
    | some c1 => rw [hb] at h; exact ih c1 h

theorem answered_mono {c c' : Ctrl} (ha : c.answers <+: c'.answers) {r : Req} (h : answered c r) :
    answered c' r := by
  obtain ⟨a, h1, h2⟩ := h
  exact ⟨a, ha.subset h1, h2⟩

theorem setCore_core (x : TileSt) (k j : Nat) (y : CoreSt) : (x.setCore k y).core j = if j = k then y else x.core j :=
  rfl

/-- Core `k` changes, and possibly the controller. -/
theorem tileAll_setCore {cfg : SysCfg} {i : SysInit} {t : Nat} {v : NetView} {x : TileSt}
    (h : TileAll cfg i t v x) (k : Nat) (hk : k < cfg.cores) (y : CoreSt) (c' : Ctrl)
    (hrun : ∃ as, Ctrl.run cfg.edramLat (Ctrl.started (i.mem t) (i.valid t) 0) as = some c')
    (hs : x.ctrl.submitted <+: c'.submitted) (ha : x.ctrl.answers <+: c'.answers)
    (hr : c'.running = x.ctrl.running) (hy : CoreInv cfg i t k c' y) (hlog : (x.core k).log <+: y.log)
    (hold : ∀ r ∈ x.ctrl.submitted, r.core = k → (x.core k).phase.waits r.id →
      answered c' r ∨ y.phase.waits r.id)
    (hnew : ∀ r ∈ c'.submitted, r ∈ x.ctrl.submitted ∨ (r.core = k ∧ y.phase.waits r.id ∧
      ∀ data rows, r.kind = .write data rows → ∃ e ∈ y.log, ∃ dest read w v,
        e.op = .store dest read w v ∧ e.addr = r.start ∧ e.data = data))
    (hhalt : (x.core k).phase.isHalted = true → y.phase.isHalted = true) :
    TileAll cfg i t v (TileSt.setCore { x with ctrl := c' } k y) := by
  refine ⟨hrun, ?_, tileInv_mono h.tile hs ha, ?_, ?_, ?_, ?_, ?_, ?_⟩
  · intro j
    rw [setCore_core]
    split
    · rename_i hj; subst hj; exact hy
    · exact coreInv_mono (h.cores j) hs ha
  · intro r hr'
    rcases hnew r hr' with hm | ⟨h1, h2, -⟩
    · rcases h.owner r hm with ho | ho | ⟨j, hj, h1, h2⟩
      · exact Or.inl (answered_mono ha ho)
      · exact Or.inr (Or.inl ho)
      · by_cases hjk : j = k
        · subst hjk
          rcases hold r hm h1 h2 with ho | ho
          · exact Or.inl ho
          · refine Or.inr (Or.inr ⟨j, hj, h1, ?_⟩)
            rw [setCore_core, if_pos rfl]; exact ho
        · refine Or.inr (Or.inr ⟨j, hj, h1, ?_⟩)
          rw [setCore_core, if_neg hjk]; exact h2
    · refine Or.inr (Or.inr ⟨k, hk, h1, ?_⟩)
      rw [setCore_core, if_pos rfl]; exact h2
  · intro r hr' data rows hkd
    rcases hnew r hr' with hr' | ⟨-, -, h3⟩
    · rcases h.writes r hr' data rows hkd with ⟨j, hj, e, he, h2⟩ | h2
      · refine Or.inl ⟨j, hj, e, ?_, h2⟩
        rw [setCore_core]
        split
        · rename_i hjk; subst hjk; exact hlog.subset he
        · exact he
      · exact Or.inr h2
    · obtain ⟨e, he, h4⟩ := h3 data rows hkd
      refine Or.inl ⟨k, hk, e, ?_, h4⟩
      rw [setCore_core, if_pos rfl]; exact he
  · intro hp j hj
    rw [setCore_core]
    split
    · rename_i hjk; subst hjk; exact hhalt (h.halting hp j hj)
    · exact h.halting hp j hj
  · show _ → c'.running = false
    rw [hr]; exact h.stopped
  · intro hv
    show _ ∨ c'.running = false
    rw [hr]; exact h.stopping hv
  · intro hv
    show c'.running = true
    rw [hr]; exact h.service hv

/-- Core `k` changes without using the controller. -/
theorem tileAll_core {cfg : SysCfg} {i : SysInit} {t : Nat} {v : NetView} {x : TileSt}
    (h : TileAll cfg i t v x) (k : Nat) (hk : k < cfg.cores) (y : CoreSt)
    (hy : CoreInv cfg i t k x.ctrl y) (hlog : (x.core k).log <+: y.log)
    (hold : ∀ r ∈ x.ctrl.submitted, r.core = k → (x.core k).phase.waits r.id →
      answered x.ctrl r ∨ y.phase.waits r.id)
    (hhalt : (x.core k).phase.isHalted = true → y.phase.isHalted = true) :
    TileAll cfg i t v (x.setCore k y) :=
  tileAll_setCore h k hk y x.ctrl h.ctrl (List.prefix_rfl) (List.prefix_rfl) rfl hy hlog hold
    (fun _ hr => Or.inl hr) hhalt

/-- Core `k` submits a request. -/
theorem tileAll_submit {cfg : SysCfg} {i : SysInit} {t : Nat} {v : NetView} {x : TileSt}
    (h : TileAll cfg i t v x) (k : Nat) (hk : k < cfg.cores) (y : CoreSt) (c' : Ctrl) (start : Int) (kind : ReqKind)
    (hc : x.ctrl.act cfg.edramLat (.submit k start kind) = some c') (hn : c'.crashed = none)
    (hy : CoreInv cfg i t k c' y) (hlog : (x.core k).log <+: y.log)
    (hold : ∀ id, ¬(x.core k).phase.waits id) (hnew : y.phase.waits x.ctrl.submitted.length)
    (hwr : ∀ data rows, kind = .write data rows → ∃ e ∈ y.log, ∃ dest read w v,
        e.op = .store dest read w v ∧ e.addr = start ∧ e.data = data)
    (hhalt : (x.core k).phase.isHalted = false) :
    TileAll cfg i t v (TileSt.setCore { x with ctrl := c' } k y) := by
  obtain ⟨h1, h2, h3, h4⟩ := submit_ok hc hn
  refine tileAll_setCore h k hk y c' (ctrl_reach h.ctrl hc) (h1 ▸ List.prefix_append _ _)
    (h2 ▸ List.prefix_rfl) (by rw [h3, h4]) hy hlog (fun r _ _ hw => absurd hw (hold r.id)) ?_
    (by rw [hhalt]; simp)
  intro r hr
  rw [h1, List.mem_append, List.mem_singleton] at hr
  rcases hr with hr | rfl
  · exact Or.inl hr
  · exact Or.inr ⟨rfl, hnew, hwr⟩

/-- The tile process changes, and possibly the controller. -/
theorem tileAll_setTile {cfg : SysCfg} {i : SysInit} {t : Nat} {v v' : NetView} {x : TileSt}
    (h : TileAll cfg i t v x) (c' : Ctrl) (ph : TilePhase) (ops : List TileOp) (log : List TileEv)
    (hrun : ∃ as, Ctrl.run cfg.edramLat (Ctrl.started (i.mem t) (i.valid t) 0) as = some c')
    (hs : x.ctrl.submitted <+: c'.submitted) (ha : x.ctrl.answers <+: c'.answers)
    (hlog : x.log <+: log) (hinv : TileInv i t c' v' ph ops log)
    (hold : ∀ r ∈ x.ctrl.submitted, r.core = -1 → x.phase.waits r.id → answered c' r ∨ ph.waits r.id)
    (hnew : ∀ r ∈ c'.submitted, r ∈ x.ctrl.submitted ∨ (r.core = -1 ∧ ph.waits r.id ∧
      ∀ data rows, r.kind = .write data rows → ∃ a s w n rws, .received a s w n rws ∈ log ∧ a = r.start ∧
        rws.flatten = data))
    (hhalt : ph = .haltRouter ∨ .halted ∈ log → ∀ k < cfg.cores, (x.core k).phase.isHalted = true)
    (hstopped : .halted ∈ log → c'.running = false)
    (hstopping : v'.stopper ≠ .running → ph = .haltRouter ∨ c'.running = false)
    (hserv : ph.inService = true → c'.running = true) :
    TileAll cfg i t v' { x with ctrl := c', phase := ph, ops := ops, log := log } := by
  refine ⟨hrun, fun j => coreInv_mono (h.cores j) hs ha, hinv, ?_, ?_, hhalt, hstopped, hstopping, hserv⟩
  · intro r hr
    rcases hnew r hr with hr | ⟨h1, h2, -⟩
    · rcases h.owner r hr with ho | ho | ho
      · exact Or.inl (answered_mono ha ho)
      · rcases hold r hr ho.1 ho.2 with h1 | h1
        · exact Or.inl h1
        · exact Or.inr (Or.inl ⟨ho.1, h1⟩)
      · exact Or.inr (Or.inr ho)
    · exact Or.inr (Or.inl ⟨h1, h2⟩)
  · intro r hr data rows hkd
    rcases hnew r hr with hr | ⟨-, -, h3⟩
    · rcases h.writes r hr data rows hkd with h2 | ⟨a, s, w, n, rws, h2, h3⟩
      · exact Or.inl h2
      · exact Or.inr ⟨a, s, w, n, rws, hlog.subset h2, h3⟩
    · exact Or.inr (h3 data rows hkd)

/-- The tile process changes without using the controller and without stopping. -/
theorem tileAll_tile {cfg : SysCfg} {i : SysInit} {t : Nat} {v v' : NetView} {x : TileSt}
    (h : TileAll cfg i t v x) (ph : TilePhase) (ops : List TileOp) (log : List TileEv)
    (hlog : ∃ new, log = x.log ++ new ∧ .halted ∉ new) (hinv : TileInv i t x.ctrl v' ph ops log)
    (hold : ∀ r ∈ x.ctrl.submitted, r.core = -1 → x.phase.waits r.id → answered x.ctrl r ∨ ph.waits r.id)
    (hph : ph ≠ .haltRouter) (hph' : x.phase ≠ .haltRouter)
    (hv : v'.stopper = v.stopper)
    (hserv : ph.inService = true → x.phase.inService = true) :
    TileAll cfg i t v' { x with phase := ph, ops := ops, log := log } := by
  obtain ⟨new, rfl, hnew⟩ := hlog
  have hmem : .halted ∈ x.log ++ new ↔ .halted ∈ x.log := by simp [hnew]
  refine tileAll_setTile h x.ctrl ph ops _ h.ctrl (List.prefix_rfl) (List.prefix_rfl)
    (List.prefix_append _ _) hinv hold (fun r hr => Or.inl hr) ?_ ?_ ?_ ?_
  · rintro (h1 | h1)
    · exact absurd h1 hph
    · exact h.halting (Or.inr (hmem.1 h1))
  · rw [hmem]; exact h.stopped
  · intro h1
    rw [hv] at h1
    rcases h.stopping h1 with h1 | h1
    · exact absurd h1 hph'
    · exact Or.inr h1
  · intro h1; exact h.service (hserv h1)

/-- The tile process submits a request. -/
theorem tileAll_tileSubmit {cfg : SysCfg} {i : SysInit} {t : Nat} {v : NetView} {x : TileSt}
    (h : TileAll cfg i t v x) (c' : Ctrl) (ph : TilePhase) (ops : List TileOp) (log : List TileEv)
    (start : Int) (kind : ReqKind)
    (hc : x.ctrl.act cfg.edramLat (.submit (-1) start kind) = some c') (hn : c'.crashed = none)
    (hlog : ∃ new, log = x.log ++ new ∧ .halted ∉ new) (hinv : TileInv i t c' v ph ops log)
    (hold : ∀ id, ¬x.phase.waits id) (hnew : ph.waits x.ctrl.submitted.length)
    (hwr : ∀ data rows, kind = .write data rows → ∃ a s w n rws, .received a s w n rws ∈ log ∧ a = start ∧
        rws.flatten = data)
    (hph : ph ≠ .haltRouter) (hph' : x.phase ≠ .haltRouter) :
    TileAll cfg i t v { x with ctrl := c', phase := ph, ops := ops, log := log } := by
  obtain ⟨h1, h2, h3, h4⟩ := submit_ok hc hn
  obtain ⟨new, rfl, hn'⟩ := hlog
  have hmem : .halted ∈ x.log ++ new ↔ .halted ∈ x.log := by simp [hn']
  refine tileAll_setTile h c' ph ops _ (ctrl_reach h.ctrl hc) (h1 ▸ List.prefix_append _ _)
    (h2 ▸ List.prefix_rfl) (List.prefix_append _ _) hinv (fun r _ _ hw => absurd hw (hold r.id)) ?_ ?_ ?_ ?_ ?_
  · intro r hr
    rw [h1, List.mem_append, List.mem_singleton] at hr
    rcases hr with hr | rfl
    · exact Or.inl hr
    · exact Or.inr ⟨rfl, hnew, hwr⟩
  · rintro (h1 | h1)
    · exact absurd h1 hph
    · exact h.halting (Or.inr (hmem.1 h1))
  · rw [hmem]; intro hm; rw [h.stopped hm] at h3; cases h3
  · intro h5
    rcases h.stopping h5 with h6 | h6
    · exact absurd h6 hph'
    · rw [h3] at h6; cases h6
  · intro _; exact h4

theorem ctrlInv_of {cfg : SysCfg} {i : SysInit} {t : Nat} {c : Ctrl} (h0 : GoodStart (i.mem t) (i.valid t))
    (h : ∃ as, Ctrl.run cfg.edramLat (Ctrl.started (i.mem t) (i.valid t) 0) as = some c) :
    CtrlInv cfg.edramLat (i.mem t) (i.valid t) 0 c := by
  obtain ⟨as, h⟩ := h
  exact ctrlInv_run _ _ _ _ h0 as c h

theorem tileAll_start (cfg : SysCfg) (i : SysInit) (t : Nat) :
    TileAll cfg i t ((i.start).net.view t) ((i.start).tile t) := by
  refine ⟨⟨[], rfl⟩, fun k => ⟨⟨_, _, ⟨rfl, rfl⟩, rfl, rfl⟩, by simp [SysInit.start], by simp [SysInit.start],
    by simp [SysInit.start]⟩, ⟨⟨_, _, rfl, rfl, rfl⟩, ?_, ?_, rfl, by simp [SysInit.start], by simp [SysInit.start]⟩,
    ?_, ?_, ?_, ?_, ?_, ?_⟩
  · intro d; rfl
  · intro d; rfl
  · intro r hr; exact absurd hr (by simp [SysInit.start, Ctrl.started])
  · intro r hr; exact absurd hr (by simp [SysInit.start, Ctrl.started])
  · simp [SysInit.start]
  · simp [SysInit.start, Ctrl.started]
  · intro h; exact absurd rfl h
  · intro h; rfl

/-- A core process goes on without doing a further operation. -/
theorem coreInv_goOn {cfg : SysCfg} {i : SysInit} {t k : Nat} {c c' : Ctrl} {x y : CoreSt}
    (h : CoreInv cfg i t k c x) (_hs : c.submitted <+: c'.submitted) (ha : c.answers <+: c'.answers)
    (hl : y.log = x.log)
    (hran : ∀ cv rest, CorePhaseOk k c x cv rest → CorePhaseOk k c' y cv rest)
    (hst : ∀ a d n, storeOpen k c x.phase a d n → storeOpen k c' y.phase a d n ∨
      ∃ r tm, .wrote r tm ∈ c'.answers ∧ r.start = a ∧ r.kind = .write d n)
    (hop : ∀ a d n, y.phase ≠ .storeDelay a d n) : CoreInv cfg i t k c' y := by
  refine ⟨?_, ?_, ?_, fun a d n hp => absurd hp (hop a d n)⟩
  · obtain ⟨cv, rest, h1, h2⟩ := h.ran
    exact ⟨cv, rest, hl ▸ h1, hran cv rest h2⟩
  · intro e he dest read w v hop
    obtain ⟨r, tm, h1, h2⟩ := h.loads e (hl ▸ he) dest read w v hop
    exact ⟨r, tm, ha.subset h1, h2⟩
  · intro e he dest read w v hop
    rcases h.stores e (hl ▸ he) dest read w v hop with ⟨r, tm, h1, h2⟩ | h1
    · exact Or.inl ⟨r, tm, ha.subset h1, h2⟩
    · exact (hst _ _ _ h1).symm

theorem newReq_get {lat : Int} {c c' : Ctrl} {core start : Int} {kind : ReqKind}
    (h : c.act lat (.submit core start kind) = some c') (hn : c'.crashed = none) :
    c'.submitted[c.submitted.length]? = some (c.newReq core start kind) := by
  rw [(submit_ok h hn).1]
  simp

theorem tileAll_step {cfg : SysCfg} {i : SysInit} {t : Nat} (h0 : GoodStart (i.mem t) (i.valid t))
    {v v' : NetView} {x x' : TileSt} (h : TileAll cfg i t v x) (st : TileStep cfg t x v x' v') :
    TileAll cfg i t v' x' := by
  have hline : CtrlLine x.ctrl := (ctrlInv_of h0 h.ctrl).line
  cases st with
  | ctrl a c hc hs hst =>
    obtain ⟨h1, h2⟩ := act_mono hc
    have := tileAll_setTile (v' := v) h c x.phase x.ops x.log (ctrl_reach h.ctrl hc) h1 h2 List.prefix_rfl
      (tileInv_mono h.tile h1 h2) (fun r _ _ hw => Or.inr hw) (fun r hr => Or.inl (hs ▸ hr)) h.halting
    by_cases hb : a = .stop
    · refine this ?_ ?_ ?_
      · intro hm
        exact act_not_started hc (h.stopped hm)
      · intro _; exact Or.inl (hst hb)
      · rw [hst hb]; intro h; cases h
    · rw [act_running hc hb] at this
      exact this h.stopped h.stopping h.service
  | take src y hr =>
    refine ⟨h.ctrl, h.cores, ?_, h.owner, h.writes, h.halting, h.stopped, h.stopping, h.service⟩
    refine ⟨h.tile.ran, h.tile.sends, h.tile.reads, ?_, h.tile.sent, h.tile.received⟩
    have := h.tile.reader
    rw [hr] at this
    show readerOk x.phase (.got src y)
    cases hp : x.phase <;> rw [hp] at this <;> first | cases (show Reader.waiting src = .idle from this) | skip
    rcases (show _ ∨ _ from this) with this | ⟨z, this⟩
    · injection this with this
      subst this
      exact Or.inr ⟨y, rfl⟩
    · cases this
  | run k op rest c hk hp hq hop he =>
    have hci := h.cores k
    refine tileAll_core h k hk _ ⟨?_, ?_, ?_, ?_⟩ (List.prefix_append _ _) ?_ ?_
    · obtain ⟨cv, rs, h1, h2⟩ := hci.ran
      unfold CorePhaseOk at h2
      rw [hp] at h2
      dsimp only at h2
      rw [← h2.2, hq, ← h2.1] at h1
      have := coreRan_snoc (fl := cfg.fl) (noise := cfg.noise t k) (x.core k).log 0 _ _ _ ⟨op, 0, [], c⟩ rest h1 (by
        rw [Nat.zero_add]
        cases op <;> first | exact ⟨he, rfl, rfl⟩ | cases hop)
      refine ⟨c, _, this, ?_⟩
      unfold CorePhaseOk
      by_cases hh : op = .hlt
      · subst hh; exact ⟨rfl, rfl, rfl⟩
      · rw [show (if op = CoreOp.hlt then CorePhase.halting else CorePhase.timing) = .timing from if_neg hh]; exact ⟨rfl, rfl⟩
    · intro e he' dest read w n hop'
      rcases List.mem_append.1 he' with he' | he'
      · exact hci.loads e he' dest read w n hop'
      · rw [List.mem_singleton.1 he'] at hop'
        dsimp only at hop'
        subst hop'
        cases hop
    · intro e he' dest read w n hop'
      rcases List.mem_append.1 he' with he' | he'
      · have := hci.stores e he' dest read w n hop'
        unfold storeOpen at this
        rw [hp] at this
        rcases this with this | this
        · exact Or.inl this
        · cases this
      · rw [List.mem_singleton.1 he'] at hop'
        dsimp only at hop'
        subst hop'
        cases hop
    · intro a d n hph
      dsimp only at hph
      split at hph <;> cases hph
    · intro r _ _ hw; rw [hp] at hw; cases hw
    · rw [hp]; intro hw; cases hw
  | timed k hk hp =>
    refine tileAll_core h k hk _ (coreInv_goOn (h.cores k) List.prefix_rfl List.prefix_rfl rfl ?_ ?_ (by simp))
      List.prefix_rfl ?_ ?_
    · intro cv rest h2
      unfold CorePhaseOk at h2 ⊢
      rw [hp] at h2
      exact h2
    · rw [hp]; intro a d n h1; cases h1
    · rw [hp]; intro r _ _ h1; cases h1
    · rw [hp]; intro h1; cases h1
  | load k dest read width vec rest addr c c' hk hp hq he hc hn =>
    obtain ⟨h1, h2, h3, h4⟩ := submit_ok hc hn
    refine tileAll_submit h k hk _ c' addr (.read width vec) hc hn
      (coreInv_goOn (h.cores k) (h1 ▸ List.prefix_append _ _) (h2 ▸ List.prefix_rfl) rfl ?_ ?_ (by simp))
      List.prefix_rfl ?_ rfl (by simp) (by rw [hp]; rfl)
    · intro cv rs h5
      unfold CorePhaseOk at h5 ⊢
      rw [hp] at h5
      dsimp only at h5 ⊢
      refine ⟨by rw [← h5.2, hq], by rw [← h5.1]; exact he, _, newReq_get hc hn, rfl, rfl, rfl⟩
    · rw [hp]; intro a d n h1; cases h1
    · rw [hp]; intro _ h1; cases h1
  | loaded k id addr dest read width vec data hk hp ha =>
    have hci := h.cores k
    obtain ⟨r, tm, hr1, hr2⟩ := readAnswer_mem ha
    obtain ⟨cv, rs, h1, h2⟩ := hci.ran
    unfold CorePhaseOk at h2
    rw [hp] at h2
    obtain ⟨h2, h3, r0, h4, h5, h6, h7⟩ := h2
    have hr : r = r0 := answer_unique hline hr1 hr2 h4
    subst hr
    refine tileAll_core h k hk _ ⟨?_, ?_, ?_, ?_⟩ (List.prefix_append _ _) ?_ ?_
    · rw [h2] at h1
      have := coreRan_snoc (fl := cfg.fl) (noise := cfg.noise t k) (x.core k).log 0 _ _ _
        ⟨.load dest read width vec, addr, data, ((x.core k).core.loadFinish dest data).2⟩ _ h1
        ⟨_, h3, rfl⟩
      refine ⟨_, _, this, rfl, rfl⟩
    · intro e he' dest' read' w n hop'
      rcases List.mem_append.1 he' with he' | he'
      · exact hci.loads e he' dest' read' w n hop'
      · rw [List.mem_singleton.1 he'] at hop' ⊢
        injection hop' with e1 e2 e3 e4
        subst e3 e4
        exact ⟨r, tm, hr1, h6, h7⟩
    · intro e he' dest' read' w n hop'
      rcases List.mem_append.1 he' with he' | he'
      · have := hci.stores e he' dest' read' w n hop'
        rw [hp] at this
        rcases this with this | this
        · exact Or.inl this
        · cases this
      · rw [List.mem_singleton.1 he'] at hop'
        cases hop'
    · intro a d n hph; cases hph
    · intro r' hr' _ hw
      rw [hp] at hw
      left
      refine ⟨_, hr1, ?_⟩
      have := (submitted_mem x.ctrl hline r' hr').2
      rw [← show id = r'.id from hw, h4] at this
      injection this
    · rw [hp]; intro h1; cases h1
  | loadDone k dest data c hk hp he =>
    refine tileAll_core h k hk _ (coreInv_goOn (h.cores k) List.prefix_rfl List.prefix_rfl rfl ?_ ?_ (by simp))
      List.prefix_rfl ?_ ?_
    · intro cv rest h2
      unfold CorePhaseOk at h2 ⊢
      rw [hp] at h2
      dsimp only at h2 ⊢
      rw [h2.2, he]
      exact ⟨rfl, h2.1⟩
    · rw [hp]; intro a d n h1; cases h1
    · rw [hp]; intro r _ _ h1; cases h1
    · rw [hp]; intro h1; cases h1
  | store k dest read width vec rest addr data c hk hp hq he =>
    have hci := h.cores k
    refine tileAll_core h k hk _ ⟨?_, ?_, ?_, ?_⟩ (List.prefix_append _ _) ?_ ?_
    · obtain ⟨cv, rs, h1, h2⟩ := hci.ran
      unfold CorePhaseOk at h2
      rw [hp] at h2
      dsimp only at h2
      rw [← h2.2, hq, ← h2.1] at h1
      have := coreRan_snoc (fl := cfg.fl) (noise := cfg.noise t k) (x.core k).log 0 _ _ _
        ⟨.store dest read width vec, addr, data, c⟩ rest h1 he
      exact ⟨c, _, this, rfl, rfl⟩
    · intro e he' dest' read' w n hop'
      rcases List.mem_append.1 he' with he' | he'
      · exact hci.loads e he' dest' read' w n hop'
      · rw [List.mem_singleton.1 he'] at hop'
        cases hop'
    · intro e he' dest' read' w n hop'
      rcases List.mem_append.1 he' with he' | he'
      · have := hci.stores e he' dest' read' w n hop'
        rw [hp] at this
        rcases this with this | this
        · exact Or.inl this
        · cases this
      · rw [List.mem_singleton.1 he'] at hop' ⊢
        injection hop' with e1 e2 e3 e4
        subst e4
        exact Or.inr ⟨rfl, rfl, rfl⟩
    · intro a d n hph
      injection hph with e1 e2 e3
      subst e1 e2
      exact ⟨_, List.mem_append_right _ (List.mem_singleton_self _), dest, read, width, vec, rfl, rfl, rfl⟩
    · intro r _ _ hw; rw [hp] at hw; cases hw
    · rw [hp]; intro hw; cases hw
  | stored k addr data rows c' hk hp hc hn =>
    obtain ⟨h1, h2, h3, h4⟩ := submit_ok hc hn
    refine tileAll_submit h k hk _ c' addr (.write data rows) hc hn
      (coreInv_goOn (h.cores k) (h1 ▸ List.prefix_append _ _) (h2 ▸ List.prefix_rfl) rfl ?_ ?_ (by simp))
      List.prefix_rfl ?_ rfl ?_ (by rw [hp]; rfl)
    · intro cv rs h5
      unfold CorePhaseOk at h5 ⊢
      rw [hp] at h5
      exact h5
    · rw [hp]
      rintro a d n ⟨rfl, rfl, rfl⟩
      exact Or.inl ⟨_, newReq_get hc hn, rfl, rfl, rfl⟩
    · rw [hp]; intro _ h1; cases h1
    · intro d n hd
      injection hd with e1 e2
      subst e1
      exact (h.cores k).opened _ _ _ hp
  | storeDone k id hk hp ha =>
    obtain ⟨r, tm, hr1, hr2⟩ := wroteAnswer_mem ha
    refine tileAll_core h k hk _ (coreInv_goOn (h.cores k) List.prefix_rfl List.prefix_rfl rfl ?_ ?_ (by simp))
      List.prefix_rfl ?_ ?_
    · intro cv rest h2
      unfold CorePhaseOk at h2 ⊢
      rw [hp] at h2
      exact h2
    · rw [hp]
      rintro a d n ⟨r0, h1, h2, h3, h4⟩
      have hr : r = r0 := answer_unique hline hr1 hr2 h1
      subst hr
      exact Or.inr ⟨r, tm, hr1, h3, h4⟩
    · rw [hp]
      intro r' hr' _ hw
      left
      refine ⟨_, hr1, ?_⟩
      have := (submitted_mem x.ctrl hline r' hr').2
      rw [← show id = r'.id from hw] at this
      exact answer_unique hline hr1 hr2 this
    · rw [hp]; intro h1; cases h1
  | halted k hk hp =>
    refine tileAll_core h k hk _ (coreInv_goOn (h.cores k) List.prefix_rfl List.prefix_rfl rfl ?_ ?_ (by simp))
      List.prefix_rfl ?_ (fun _ => rfl)
    · intro cv rest h2
      unfold CorePhaseOk at h2 ⊢
      rw [hp] at h2
      exact h2
    · rw [hp]; intro a d n h1; cases h1
    · rw [hp]; intro r _ _ h1; cases h1
  | send addr target width vec rest c' hp hq hc hn =>
    obtain ⟨h1, h2, h3, h4⟩ := submit_ok hc hn
    have ht := h.tile
    rw [hp] at ht
    refine tileAll_tileSubmit h c' _ rest x.log addr (.read width vec) hc hn ⟨[], by simp, by simp⟩ ?_ ?_ rfl
      (by simp) (by simp) (by rw [hp]; simp)
    · have hm := tileInv_mono ht (h1 ▸ List.prefix_append _ _) (h2 ▸ List.prefix_rfl)
      refine ⟨?_, ht.sends, ht.reads, ht.reader, hm.sent, ?_⟩
      · obtain ⟨rs, got, h5, h6, h7⟩ := ht.ran
        exact ⟨rs, got, h5, by rw [h6, hq], h7, _, newReq_get hc hn, rfl, rfl, rfl⟩
      · intro a s w n rws hm'
        exact hm.received a s w n rws hm'
    · rw [hp]; intro _ h1; cases h1
  | sendGot id addr target width vec data hp ha hw hv =>
    have ht := h.tile
    rw [hp] at ht
    obtain ⟨rs, got, h5, h6, h7, r0, h8, h9, h10, h11⟩ := ht.ran
    obtain ⟨r, tm, hr1, hr2⟩ := readAnswer_mem ha
    have hr : r = r0 := answer_unique hline hr1 hr2 h8
    subst hr
    refine tileAll_tile h _ x.ops _ ⟨_, rfl, by simp⟩ ?_ ?_ (by simp) (by rw [hp]; simp) rfl (by rw [hp]; simp [TilePhase.inService])
    · refine ⟨?_, ?_, ?_, ht.reader, ?_, ?_⟩
      · refine ⟨x.ops, [], ?_, rfl, rfl⟩
        rw [tileRan_snoc _ _ _ _ h5, h6, h7]
        exact if_pos ⟨rfl, rfl, rfl, rfl⟩
      · intro d
        rw [rowsTo_snoc, ht.sends d]
        simp [TilePhase.todo, rowsTo]
      · intro d
        rw [rowsFrom_snoc, ht.reads d]
        simp [rowsFrom]
      · intro a tg w n rws hm
        rcases List.mem_append.1 hm with hm | hm
        · exact ht.sent a tg w n rws hm
        · rw [List.mem_singleton] at hm
          injection hm with e1 e2 e3 e4 e5
          subst e1 e2 e3 e4 e5
          exact ⟨hw, hv, r, tm, data, hr1, h10, h11, rfl⟩
      · intro a s w n rws hm
        rcases List.mem_append.1 hm with hm | hm
        · exact ht.received a s w n rws hm
        · rw [List.mem_singleton] at hm; cases hm
    · rw [hp]
      intro r' hr' _ hw
      left
      refine ⟨_, hr1, ?_⟩
      have := (submitted_mem x.ctrl hline r' hr').2
      rw [← show id = r'.id from hw, h8] at this
      injection this
  | sendRow target row rows hp =>
    have ht := h.tile
    rw [hp] at ht
    refine tileAll_tile h _ x.ops x.log ⟨[], by simp, by simp⟩ ?_ ?_ (by simp) (by rw [hp]; simp) rfl (by rw [hp]; simp [TilePhase.inService])
    · refine ⟨ht.ran, ?_, ht.reads, ht.reader, ht.sent, ht.received⟩
      intro d
      rw [ht.sends d, dataTo_append]
      simp only [TilePhase.todo, dataTo]
      by_cases hd : target = (d : Int) <;> simp [hd]
    · rw [hp]; intro r _ _ h1; cases h1
  | sendEnd target hp =>
    have ht := h.tile
    rw [hp] at ht
    refine tileAll_tile h _ x.ops x.log ⟨[], by simp, by simp⟩ ?_ ?_ (by simp) (by rw [hp]; simp) rfl (by simp [TilePhase.inService])
    · refine ⟨ht.ran, ?_, ht.reads, ht.reader, ht.sent, ht.received⟩
      intro d
      rw [ht.sends d]
      simp [TilePhase.todo]
    · rw [hp]; intro r _ _ h1; cases h1
  | added target rows hp =>
    have ht := h.tile
    rw [hp] at ht
    refine tileAll_tile h _ x.ops x.log ⟨[], by simp, by simp⟩ ?_ ?_ (by simp) (by rw [hp]; simp) rfl (by rw [hp]; simp [TilePhase.inService])
    · exact ⟨ht.ran, ht.sends, ht.reads, ht.reader, ht.sent, ht.received⟩
    · rw [hp]; intro r _ _ h1; cases h1
  | recv addr source width vec rest hp hq hw hv =>
    have ht := h.tile
    rw [hp] at ht
    refine tileAll_tile h _ rest x.log ⟨[], by simp, by simp⟩ ?_ ?_ (by simp) (by rw [hp]; simp) rfl (by simp [TilePhase.inService])
    · refine ⟨?_, ht.sends, ht.reads, ht.reader, ht.sent, ht.received⟩
      obtain ⟨rs, got, h5, h6, h7⟩ := ht.ran
      exact ⟨rs, got, h5, by rw [h6, hq], h7, by simpa using hv, by simp⟩
    · rw [hp]; intro r _ _ h1; cases h1
  | recvRead addr source width vec got hp hg hr hb =>
    have ht := h.tile
    rw [hp] at ht
    refine tileAll_tile h _ x.ops x.log ⟨[], by simp, by simp⟩ ?_ ?_ (by simp) (by rw [hp]; simp) rfl (by simp [TilePhase.inService])
    · refine ⟨?_, ht.sends, ht.reads, Or.inl rfl, ht.sent, ht.received⟩
      obtain ⟨rs, g, h5, h6, h7, h8, h9⟩ := ht.ran
      refine ⟨rs, g, h5, h6, h7, hg, h9, ?_⟩
      unfold NetConfig.hasBuffer at hb
      simp only [Bool.and_eq_true, decide_eq_true_eq] at hb
      exact hb.1.1
    · rw [hp]; intro r _ _ h1; cases h1
  | recvRow addr source width vec got src data hp hr =>
    have ht := h.tile
    rw [hp] at ht
    obtain ⟨rs, g, h5, h6, h7, h8, h9, h10⟩ := ht.ran
    have hrd := ht.reader
    rw [hr] at hrd
    have hsrc : src = source.toNat := by
      rcases hrd with h1 | ⟨z, h1⟩
      · cases h1
      · injection h1
    refine tileAll_tile h _ x.ops _ ⟨_, rfl, by simp⟩ ?_ ?_ ?_ (by rw [hp]; simp) rfl ?_
    · refine ⟨?_, ?_, ?_, ?_, ?_, ?_⟩
      · by_cases hw : (data.length : Int) = width
        · rw [if_pos hw]
          refine ⟨rs, g ++ [data], ?_, h6, by rw [h7], ?_, ?_⟩
          · rw [tileRan_snoc _ _ _ _ h5, h6]
            show (if _ then if _ then _ else _ else _) = _
            rw [if_pos ⟨rfl, by rw [h7]; exact h8⟩, if_pos hw]
          · simp; omega
          · intro r hr
            rcases List.mem_append.1 hr with hr | hr
            · exact h9 r hr
            · rw [List.mem_singleton.1 hr]; exact hw
        · rw [if_neg hw]
          refine ⟨x.ops, [], ?_, rfl, rfl⟩
          rw [tileRan_snoc _ _ _ _ h5, h6]
          show (if _ then if _ then _ else _ else _) = _
          rw [if_pos ⟨rfl, by rw [h7]; exact h8⟩, if_neg hw]
      · intro d
        rw [rowsTo_snoc, ht.sends d]
        by_cases hw : (data.length : Int) = width
        · rw [if_pos hw]; simp [TilePhase.todo, rowsTo]
        · rw [if_neg hw]; simp [TilePhase.todo, rowsTo]
      · intro d
        rw [rowsFrom_snoc, ht.reads d]
        by_cases hd : d = src
        · subst hd
          dsimp only
          rw [upd_same]
          have : source = ((source.toNat : Nat) : Int) := by omega
          simp [rowsFrom, hsrc, ← this]
        · dsimp only
          rw [upd_ne _ _ _ _ hd]
          have : source ≠ (d : Int) := by omega
          simp [rowsFrom, this]
      · by_cases hw : (data.length : Int) = width
        · rw [if_pos hw]; rfl
        · rw [if_neg hw]; rfl
      · intro a tg w n rws hm
        rcases List.mem_append.1 hm with hm | hm
        · exact ht.sent a tg w n rws hm
        · rw [List.mem_singleton] at hm; cases hm
      · intro a s w n rws hm
        rcases List.mem_append.1 hm with hm | hm
        · obtain ⟨h11, h12⟩ := ht.received a s w n rws hm
          refine ⟨h11, ?_⟩
          rcases h12 with h12 | h12
          · exact Or.inl h12
          · cases h12
        · rw [List.mem_singleton] at hm; cases hm
    · rw [hp]; intro r _ _ h1; cases h1
    · split <;> simp
    · intro hh; split at hh <;> cases hh
  | recvAll addr source width vec got c' hp hg hc hn =>
    obtain ⟨h1, h2, h3, h4⟩ := submit_ok hc hn
    have ht := h.tile
    rw [hp] at ht
    obtain ⟨rs, g, h5, h6, h7, h8, h9⟩ := ht.ran
    have hm := tileInv_mono ht (h1 ▸ List.prefix_append _ _) (h2 ▸ List.prefix_rfl)
    refine tileAll_tileSubmit h c' _ x.ops _ addr _ hc hn ⟨_, rfl, by simp⟩ ?_ ?_ rfl ?_ (by simp) (by rw [hp]; simp)
    · refine ⟨?_, ?_, ?_, ht.reader, ?_, ?_⟩
      · refine ⟨x.ops, [], ?_, rfl, rfl⟩
        rw [tileRan_snoc _ _ _ _ h5, h6]
        exact if_pos ⟨rfl, rfl, rfl, rfl, h7.symm, by rw [h7]; exact hg⟩
      · intro d
        rw [rowsTo_snoc, ht.sends d]
        simp [TilePhase.todo, rowsTo]
      · intro d
        rw [rowsFrom_snoc, ht.reads d]
        simp [rowsFrom]
      · intro a tg w n rws hm'
        rcases List.mem_append.1 hm' with hm' | hm'
        · exact hm.sent a tg w n rws hm'
        · rw [List.mem_singleton] at hm'; cases hm'
      · intro a s w n rws hm'
        rcases List.mem_append.1 hm' with hm' | hm'
        · obtain ⟨h11, h12⟩ := hm.received a s w n rws hm'
          refine ⟨h11, ?_⟩
          rcases h12 with h12 | h12
          · exact Or.inl h12
          · cases h12
        · rw [List.mem_singleton] at hm'
          injection hm' with e1 e2 e3 e4 e5
          subst e1 e2 e3 e4 e5
          exact ⟨⟨by omega, h9⟩, Or.inr ⟨_, newReq_get hc hn, rfl, rfl, rfl⟩⟩
    · rw [hp]; intro _ h1; cases h1
    · intro d n hd
      injection hd with e1 e2
      subst e1
      exact ⟨addr, source, width, vec, got, by simp, rfl, rfl⟩
  | recvDone id hp ha =>
    have ht := h.tile
    rw [hp] at ht
    obtain ⟨r, tm, hr1, hr2⟩ := wroteAnswer_mem ha
    refine tileAll_tile h _ x.ops x.log ⟨[], by simp, by simp⟩ ?_ ?_ (by simp) (by rw [hp]; simp) rfl (by simp [TilePhase.inService])
    · refine ⟨ht.ran, ht.sends, ht.reads, ht.reader, ht.sent, ?_⟩
      intro a s w n rws hm
      obtain ⟨h11, h12⟩ := ht.received a s w n rws hm
      refine ⟨h11, Or.inl ?_⟩
      rcases h12 with h12 | ⟨r0, h1, h2, h3, h4⟩
      · exact h12
      · have hr : r = r0 := answer_unique hline hr1 hr2 h1
        subst hr
        exact ⟨r, tm, hr1, h3, h4⟩
    · rw [hp]
      intro r' hr' _ hw
      left
      refine ⟨_, hr1, ?_⟩
      have := (submitted_mem x.ctrl hline r' hr').2
      rw [← show id = r'.id from hw] at this
      exact answer_unique hline hr1 hr2 this
  | halt rest hp hq =>
    have ht := h.tile
    rw [hp] at ht
    refine tileAll_tile h _ rest x.log ⟨[], by simp, by simp⟩ ?_ ?_ (by simp) (by rw [hp]; simp) rfl (by simp [TilePhase.inService])
    · refine ⟨?_, ht.sends, ht.reads, ht.reader, ht.sent, ht.received⟩
      obtain ⟨rs, got, h5, h6, h7⟩ := ht.ran
      exact ⟨rs, got, h5, by rw [h6, hq], h7⟩
    · rw [hp]; intro r _ _ h1; cases h1
  | haltCores st hp hh hs =>
    have ht := h.tile
    rw [hp] at ht
    refine tileAll_setTile h x.ctrl _ x.ops x.log h.ctrl List.prefix_rfl List.prefix_rfl List.prefix_rfl
      ⟨ht.ran, ht.sends, ht.reads, ht.reader, ht.sent, ht.received⟩ ?_ (fun r hr => Or.inl hr) ?_ h.stopped
      (fun _ => Or.inl rfl) (by simp [TilePhase.inService])
    · rw [hp]; intro r _ _ h1; cases h1
    · intro _ k hk
      exact List.all_eq_true.1 hh k (List.mem_range.2 hk)
  | stopStep st hp hs hs' =>
    exact ⟨h.ctrl, h.cores, ⟨h.tile.ran, h.tile.sends, h.tile.reads, h.tile.reader, h.tile.sent,
      h.tile.received⟩, h.owner, h.writes, h.halting, h.stopped, fun _ => Or.inl hp, h.service⟩
  | haltEnd c' hp hs hc hn =>
    have ht := h.tile
    rw [hp] at ht
    obtain ⟨h1, h2⟩ := act_mono hc
    have hsub := act_submitted hc (by simp)
    have hr : c'.running = false := by
      have st := act_step _ _ _ _ hc
      cases st with
      | crash e => cases hn
      | stopped hr => exact hr
      | stop => rfl
    have hm := tileInv_mono ht h1 h2
    refine tileAll_setTile h c' _ x.ops _ (ctrl_reach h.ctrl hc) h1 h2 (List.prefix_append _ _) ?_ ?_
      (fun r hr' => Or.inl (hsub ▸ hr')) (fun _ => h.halting (Or.inl hp)) (fun _ => hr) (fun _ => Or.inr hr)
      (by simp [TilePhase.inService])
    · refine ⟨?_, ?_, ?_, ht.reader, ?_, ?_⟩
      · obtain ⟨rs, got, h5, h6, h7⟩ := hm.ran
        refine ⟨x.ops, [], ?_, rfl, rfl⟩
        rw [tileRan_snoc _ _ _ _ h5, h6, h7]
        rfl
      · intro d
        rw [rowsTo_snoc, ht.sends d]
        simp [TilePhase.todo, rowsTo]
      · intro d
        rw [rowsFrom_snoc, ht.reads d]
        simp [rowsFrom]
      · intro a tg w n rws hm'
        rcases List.mem_append.1 hm' with hm' | hm'
        · exact hm.sent a tg w n rws hm'
        · rw [List.mem_singleton] at hm'; cases hm'
      · intro a s w n rws hm'
        rcases List.mem_append.1 hm' with hm' | hm'
        · exact hm.received a s w n rws hm'
        · rw [List.mem_singleton] at hm'; cases hm'
    · rw [hp]; intro r _ _ h1; cases h1

end Ramwich
