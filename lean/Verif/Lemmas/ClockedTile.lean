import Verif.Spec.ClockedNode
import Verif.Lemmas.ClockedNode

/-! # The times of one tile process -/
namespace Ramwich

open Spec
open Pipeline (upd)

/-- What the times of a tile process depend on. -/
structure TV where
  now : Nat
  phase : TilePhase
  ops : List TileOp
  ctrl : Ctrl
  queued : List Nat
  adds : List Nat
  asked : Nat → List Nat
  read : Nat → List Nat
  /-- the data of the packets that `read_packet` has returned -/
  rlog : Nat → List (List I32)
  haltAt : Option Nat
  stopAt : Option Nat
  reader : Reader
  stopper : Stopper
  /-- the core process has returned -/
  halted : Nat → Bool
  doneAt : Nat → Option Nat
  starts : List Nat
  ends : List Nat
  active : Option Nat

def FSys.tv (f : FSys) (t : Nat) : TV where
  now := f.ts.now
  phase := (f.ts.sys.tile t).phase
  ops := (f.ts.sys.tile t).ops
  ctrl := (f.ts.sys.tile t).ctrl
  queued := f.clk.queued t
  adds := f.clk.adds t
  asked := f.clk.asked t
  read := f.clk.read t
  rlog := f.ts.sys.net.readLog t
  haltAt := f.clk.haltAt t
  stopAt := f.clk.stopAt t
  reader := f.ts.sys.net.reader t
  stopper := f.ts.sys.net.stopper t
  halted := fun k => ((f.ts.sys.tile t).core k).phase.isHalted
  doneAt := fun k => (f.ts.pipe t k).doneAt
  starts := f.starts t
  ends := f.ends t
  active := f.active t

/-- A controller gets a request of the tile process. -/
structure Submitted (c c' : Ctrl) (start : Int) (kind : ReqKind) : Prop where
  ext : CtrlExt c c'
  ans : c'.answers = c.answers
  req : ∃ r, c'.submitted[c.submitted.length]? = some r ∧ r.core = -1 ∧ r.start = start ∧ r.kind = kind ∧
    r.submitTime = c.now

/-- The steps of a tile seen so. -/
inductive TVStep (lat cores : Nat) (v : TV) : TV → Prop
  | ctrl (c : Ctrl) (h : CtrlExt v.ctrl c) : TVStep lat cores v { v with ctrl := c }
  | take (src : Nat) (x : List I32) (h : v.reader = .waiting src) :
      TVStep lat cores v { v with reader := .got src x, read := upd v.read src (v.read src ++ [v.now]) }
  | done (k : Nat) (h : v.doneAt k = none) : TVStep lat cores v { v with doneAt := upd v.doneAt k (some v.now) }
  | returned (k : Nat) (h : v.halted k = false) (hd : v.doneAt k ≠ none) :
      TVStep lat cores v { v with halted := upd v.halted k true }
  | send (addr target width vec : Int) (rest : List TileOp) (c : Ctrl) (hp : v.phase = .ready)
      (ho : v.ops = .send addr target width vec :: rest) (hc : Submitted v.ctrl c addr (.read width vec)) :
      TVStep lat cores v { v with
        ctrl := c, ops := rest, phase := .sendWait v.ctrl.submitted.length addr target width vec
        starts := v.starts ++ [v.now] }
  | recv (addr source width vec : Int) (rest : List TileOp) (hp : v.phase = .ready)
      (ho : v.ops = .receive addr source width vec :: rest) (hv : 0 ≤ vec) :
      TVStep lat cores v { v with
        ops := rest, phase := .recving addr source width vec [], starts := v.starts ++ [v.now] }
  | halt (rest : List TileOp) (hp : v.phase = .ready) (ho : v.ops = .halt :: rest) :
      TVStep lat cores v { v with ops := rest, phase := .haltCores, starts := v.starts ++ [v.now] }
  | sendGot (id : Nat) (addr target width vec : Int) (data : List I32) (rows : List (List I32))
      (hp : v.phase = .sendWait id addr target width vec)
      (ha : readAnswer id v.ctrl.answers = some data) (hr : rows.length = vec.toNat) :
      TVStep lat cores v { v with phase := .sending target rows }
  | sendRow (target : Int) (row : List I32) (rows : List (List I32)) (hp : v.phase = .sending target (row :: rows)) :
      TVStep lat cores v { v with
        phase := .adding target rows, queued := v.queued ++ [v.now], adds := v.adds ++ [v.now + lat] }
  | sendEnd (target : Int) (hp : v.phase = .sending target []) :
      TVStep lat cores v { v with
        phase := .ready, ends := v.ends ++ [v.now], active := if v.ops.isEmpty then some v.now else v.active }
  | added (target : Int) (rows : List (List I32)) (rest : List Nat) (hp : v.phase = .adding target rows)
      (ha : v.adds = v.now :: rest) :
      TVStep lat cores v { v with phase := .sending target rows, adds := rest }
  | recvRead (addr source width vec : Int) (got : List (List I32)) (hp : v.phase = .recving addr source width vec got)
      (hg : (got.length : Int) < vec) (hr : v.reader = .idle) :
      TVStep lat cores v { v with
        phase := .recvWait addr source width vec got, reader := .waiting source.toNat
        asked := upd v.asked source.toNat (v.asked source.toNat ++ [v.now]) }
  | recvRow (addr source width vec : Int) (got : List (List I32)) (src : Nat) (data : List I32)
      (hp : v.phase = .recvWait addr source width vec got) (hr : v.reader = .got src data)
      (hw : (data.length : Int) = width) :
      TVStep lat cores v { v with
        phase := .recving addr source width vec (got ++ [data]), reader := .idle
        rlog := upd v.rlog src (v.rlog src ++ [data]) }
  | recvBad (addr source width vec : Int) (got : List (List I32)) (src : Nat) (data : List I32)
      (hp : v.phase = .recvWait addr source width vec got) (hr : v.reader = .got src data)
      (hw : (data.length : Int) ≠ width) :
      TVStep lat cores v { v with
        phase := .ready, reader := .idle, rlog := upd v.rlog src (v.rlog src ++ [data])
        ends := v.ends ++ [v.now], active := if v.ops.isEmpty then some v.now else v.active }
  | recvAll (addr source width vec : Int) (got : List (List I32)) (c : Ctrl)
      (hp : v.phase = .recving addr source width vec got) (hg : ¬(got.length : Int) < vec)
      (hc : Submitted v.ctrl c addr (.write got.flatten vec.toNat)) :
      TVStep lat cores v { v with ctrl := c, phase := .recvWrite v.ctrl.submitted.length }
  | recvDone (id : Nat) (hp : v.phase = .recvWrite id) (ha : wroteAnswer id v.ctrl.answers = true) :
      TVStep lat cores v { v with
        phase := .ready, ends := v.ends ++ [v.now], active := if v.ops.isEmpty then some v.now else v.active }
  | haltAgain (hp : v.phase = .haltCores) (hh : ∀ k, k < cores → v.halted k = true) (hs : v.stopper = .stopped) :
      TVStep lat cores v { v with phase := .haltRouter }
  | haltFirst (hp : v.phase = .haltCores) (hh : ∀ k, k < cores → v.halted k = true) (hs : v.stopper = .running) :
      TVStep lat cores v { v with phase := .haltRouter, stopper := .checking, haltAt := some v.now }
  | stopStep (st : Stopper) (hp : v.phase = .haltRouter) (hs : v.stopper ≠ .running) (hs' : v.stopper ≠ .stopped)
      (h1 : st ≠ .running) (h2 : st ≠ .stopped) : TVStep lat cores v { v with stopper := st }
  | stop (hp : v.phase = .haltRouter) (hs : v.stopper ≠ .running) (hs' : v.stopper ≠ .stopped) :
      TVStep lat cores v { v with stopper := .stopped, stopAt := some v.now }
  | haltEnd (c : Ctrl) (hp : v.phase = .haltRouter) (hs : v.stopper = .stopped) (hc : CtrlExt v.ctrl c) :
      TVStep lat cores v { v with
        ctrl := c, phase := .ready, ends := v.ends ++ [v.now]
        active := if v.ops.isEmpty then some v.now else v.active }

/-- What a tile process is waiting for when time passes. -/
structure TVQuiet (cores : Nat) (v : TV) : Prop where
  ready : v.phase = .ready → v.ops = []
  sendWait : ∀ id addr target width vec, v.phase = .sendWait id addr target width vec →
    readAnswer id v.ctrl.answers = none
  sending : ∀ target rows, v.phase ≠ .sending target rows
  adding : v.adds.head? ≠ some v.now
  recving : ∀ addr source width vec got, v.phase ≠ .recving addr source width vec got
  reader : ∀ addr source width vec got src data, v.phase = .recvWait addr source width vec got →
    v.reader ≠ .got src data
  recvWrite : ∀ id, v.phase = .recvWrite id → wroteAnswer id v.ctrl.answers = false
  haltCores : v.phase = .haltCores → ∃ k, k < cores ∧ v.halted k = false
  haltRouter : v.phase = .haltRouter → v.stopper ≠ .stopped
  returned : ∀ k, k < cores → v.halted k = false → v.doneAt k = none

/-- An operation that has started at `s` and ended at `e`; `m` is its number. -/
def OpTook (lat cores : Nat) (prog : List TileOp) (v : TV) (m : Nat) (op : TileOp) (s e : Nat) : Prop :=
  match op with
  | .send addr _ width vec => ∃ (r : Req) (tm : Nat) (data : List I32), .read r tm data ∈ v.ctrl.answers ∧ r.core = -1 ∧
      r.start = addr ∧ r.kind = .read width vec ∧ r.submitTime = s ∧
      (∀ j, j < vec.toNat → v.queued[packetsOf (prog.take m) + j]? = some (tm + j * lat)) ∧ e = tm + vec.toNat * lat
  | .receive addr source _ vec => ∃ off n e', readsInTurn (v.asked source.toNat) (v.read source.toNat) off n s e' ∧
      n ≤ vec.toNat ∧
      ((n = vec.toNat ∧ ∃ (r : Req) (data : List I32), .wrote r e ∈ v.ctrl.answers ∧ r.core = -1 ∧ r.start = addr ∧
        r.kind = .write data vec.toNat ∧ r.submitTime = e') ∨ (0 < n ∧ e = e'))
  | .halt => ∃ h q, v.haltAt = some h ∧ v.stopAt = some q ∧ e = max s q ∧ h ≤ q ∧
      (∀ k, k < cores → ∃ d, v.doneAt k = some d ∧ d ≤ h) ∧
      ((∀ j, j < m → prog[j]? ≠ some .halt) → s ≤ h ∧ (h = s ∨ ∃ k, k < cores ∧ v.doneAt k = some h))

/-- What the phase says about the operation number `m`, started at `s`. -/
def PhaseTime (lat cores : Nat) (prog : List TileOp) (v : TV) : Prop :=
  match v.phase with
  | .ready => v.ops ≠ [] → v.now = v.ends.getLast?.getD 0
  | .sendWait id addr target width vec => ∃ s r, v.starts[v.ends.length]? = some s ∧
      prog[v.ends.length]? = some (.send addr target width vec) ∧ v.ctrl.submitted[id]? = some r ∧ r.core = -1 ∧
      r.start = addr ∧ r.kind = .read width vec ∧ r.submitTime = s ∧
      ∀ a ∈ v.ctrl.answers, a.req.id = id → a.time = v.now
  | .sending target todo => ∃ s addr width vec, v.starts[v.ends.length]? = some s ∧
      prog[v.ends.length]? = some (.send addr target width vec) ∧
      ∃ (r : Req) (tm : Nat) (data : List I32), .read r tm data ∈ v.ctrl.answers ∧ r.core = -1 ∧
      r.start = addr ∧ r.kind = .read width vec ∧ r.submitTime = s ∧ ∃ n, n + todo.length = vec.toNat ∧
      v.queued.length = packetsOf (prog.take v.ends.length) + n ∧
      (∀ j, j < n → v.queued[packetsOf (prog.take v.ends.length) + j]? = some (tm + j * lat)) ∧ v.now = tm + n * lat
  | .adding target todo => ∃ s addr width vec, v.starts[v.ends.length]? = some s ∧
      prog[v.ends.length]? = some (.send addr target width vec) ∧
      ∃ (r : Req) (tm : Nat) (data : List I32), .read r tm data ∈ v.ctrl.answers ∧ r.core = -1 ∧
      r.start = addr ∧ r.kind = .read width vec ∧ r.submitTime = s ∧ ∃ n, n + todo.length = vec.toNat ∧
      v.queued.length = packetsOf (prog.take v.ends.length) + n ∧
      (∀ j, j < n → v.queued[packetsOf (prog.take v.ends.length) + j]? = some (tm + j * lat)) ∧
      v.adds = [tm + n * lat]
  | .recving addr source width vec got => ∃ s off, v.starts[v.ends.length]? = some s ∧
      prog[v.ends.length]? = some (.receive addr source width vec) ∧ (got.length : Int) ≤ vec ∧
      readsInTurn (v.asked source.toNat) (v.read source.toNat) off got.length s v.now ∧
      off + got.length = (v.asked source.toNat).length
  | .recvWait addr source width vec got => ∃ s off e', v.starts[v.ends.length]? = some s ∧
      prog[v.ends.length]? = some (.receive addr source width vec) ∧ (got.length : Int) < vec ∧
      readsInTurn (v.asked source.toNat) (v.read source.toNat) off got.length s e' ∧
      (v.asked source.toNat)[off + got.length]? = some e' ∧
      off + got.length + 1 = (v.asked source.toNat).length ∧
      (v.reader = .waiting source.toNat ∨ ∃ x, v.reader = .got source.toNat x ∧
        (v.read source.toNat)[off + got.length]? = some v.now)
  | .recvWrite id => ∃ s addr source width vec off e' r data, v.starts[v.ends.length]? = some s ∧
      prog[v.ends.length]? = some (.receive addr source width vec) ∧
      readsInTurn (v.asked source.toNat) (v.read source.toNat) off vec.toNat s e' ∧
      off + vec.toNat = (v.asked source.toNat).length ∧
      v.ctrl.submitted[id]? = some r ∧ r.core = -1 ∧ r.start = addr ∧ r.kind = .write data vec.toNat ∧
      r.submitTime = e' ∧ ∀ a ∈ v.ctrl.answers, a.req.id = id → a.time = v.now
  | .haltCores => ∃ s, v.starts[v.ends.length]? = some s ∧ prog[v.ends.length]? = some .halt ∧ s ≤ v.now ∧
      ((∀ k, k < cores → v.halted k = true) → v.now = s ∨ ∃ k, k < cores ∧ v.doneAt k = some v.now)
  | .haltRouter => ∃ s h, v.starts[v.ends.length]? = some s ∧ prog[v.ends.length]? = some .halt ∧ v.haltAt = some h ∧
      h ≤ v.now ∧
      ((∀ j, j < v.ends.length → prog[j]? ≠ some .halt) → s ≤ h ∧ (h = s ∨ ∃ k, k < cores ∧ v.doneAt k = some h)) ∧
      (∀ q, v.stopAt = some q → h ≤ q ∧ max s q = v.now) ∧ s ≤ v.now

structure TileTimes (lat cores : Nat) (prog : List TileOp) (v : TV) : Prop where
  cnow : v.ctrl.now = v.now
  ops : v.ops = prog.drop v.starts.length
  count : v.starts.length = v.ends.length + if v.phase.isReady then 0 else 1
  first : ∀ s, v.starts[0]? = some s → s = 0
  chain : ∀ m s, v.starts[m + 1]? = some s → v.ends[m]? = some s
  took : ∀ m e, v.ends[m]? = some e → ∃ s op, v.starts[m]? = some s ∧ prog[m]? = some op ∧
    OpTook lat cores prog v m op s e
  time : PhaseTime lat cores prog v
  active : v.active = if v.phase.isReady && v.ops.isEmpty then some (v.ends.getLast?.getD 0) else none
  qlen : (∀ tg l, v.phase ≠ .sending tg l) → (∀ tg l, v.phase ≠ .adding tg l) →
    v.queued.length = packetsOf (prog.take v.ends.length)
  adds : (∀ tg l, v.phase ≠ .adding tg l) → v.adds = []
  asked : ∀ src, (v.asked src).length = (v.read src).length + if v.reader = .waiting src then 1 else 0
  reader : (∀ a s w n g, v.phase ≠ .recvWait a s w n g) → v.reader = .idle
  stopper : v.phase ≠ .haltRouter → v.stopper = .running ∨ v.stopper = .stopped
  stopped : v.stopper = .stopped ↔ v.stopAt ≠ none
  halts : v.stopper = .running ↔ v.haltAt = none
  order : ∀ h q, v.haltAt = some h → v.stopAt = some q → h ≤ q ∧ q ≤ v.now
  past : v.stopper ≠ .running → v.phase = .haltRouter ∨ ∃ j, j < v.ends.length ∧ prog[j]? = some .halt
  coreEnd : ∀ h, v.haltAt = some h → ∀ k, k < cores → v.halted k = true ∧ ∃ d, v.doneAt k = some d ∧ d ≤ h
  done : ∀ k d, v.doneAt k = some d → d ≤ v.now
  ret : ∀ k, k < cores → v.halted k = false → ∀ d, v.doneAt k = some d → d = v.now
  haltDone : ∀ k, v.halted k = true → v.doneAt k ≠ none

/-! ## Nothing is forgotten -/

structure TVExt (v v' : TV) : Prop where
  ans : v.ctrl.answers <+: v'.ctrl.answers
  queued : v.queued <+: v'.queued
  asked : ∀ src, v.asked src <+: v'.asked src
  read : ∀ src, v.read src <+: v'.read src
  haltAt : ∀ h, v.haltAt = some h → v'.haltAt = some h
  stopAt : ∀ h, v.stopAt = some h → v'.stopAt = some h
  doneAt : ∀ k h, v.doneAt k = some h → v'.doneAt k = some h

theorem readsInTurn_mono {a a' r r' : List Nat} (ha : a <+: a') (hr : r <+: r') {off n s e : Nat}
    (h : readsInTurn a r off n s e) : readsInTurn a' r' off n s e := by
  refine ⟨h.1, fun hn => ?_, fun j hj => ?_⟩
  · exact ⟨prefix_getElem? ha (h.2.1 hn).1, prefix_getElem? hr (h.2.1 hn).2⟩
  · obtain ⟨x, h1, h2⟩ := h.2.2 j hj
    exact ⟨x, prefix_getElem? hr h1, prefix_getElem? ha h2⟩

theorem OpTook.mono {lat cores : Nat} {prog : List TileOp} {v v' : TV} {m : Nat} {op : TileOp} {s e : Nat}
    (h : OpTook lat cores prog v m op s e) (x : TVExt v v') : OpTook lat cores prog v' m op s e := by
  cases op with
  | send addr target width vec =>
    obtain ⟨r, tm, data, h1, h2, h3, h4, h5, h6, h7⟩ := h
    exact ⟨r, tm, data, x.ans.subset h1, h2, h3, h4, h5, fun j hj => prefix_getElem? x.queued (h6 j hj), h7⟩
  | receive addr source width vec =>
    obtain ⟨off, n, e', h1, h2, h3⟩ := h
    refine ⟨off, n, e', readsInTurn_mono (x.asked _) (x.read _) h1, h2, ?_⟩
    rcases h3 with ⟨h3, r, data, h4, h5⟩ | h3
    · exact .inl ⟨h3, r, data, x.ans.subset h4, h5⟩
    · exact .inr h3
  | halt =>
    obtain ⟨h, q, h1, h2, h3, h4, h5, h6⟩ := h
    refine ⟨h, q, x.haltAt _ h1, x.stopAt _ h2, h3, h4, fun k hk => ?_, fun hj => ?_⟩
    · obtain ⟨d, e1, e2⟩ := h5 k hk
      exact ⟨d, x.doneAt _ _ e1, e2⟩
    · obtain ⟨e1, e2⟩ := h6 hj
      refine ⟨e1, ?_⟩
      rcases e2 with e2 | ⟨k, hk, e2⟩
      · exact .inl e2
      · exact .inr ⟨k, hk, x.doneAt _ _ e2⟩

theorem tvStep_ext {lat cores : Nat} {prog : List TileOp} {v v' : TV} (h : TileTimes lat cores prog v)
    (st : TVStep lat cores v v') : TVExt v v' := by
  have same : ∀ {w : TV}, v.ctrl.answers <+: w.ctrl.answers → v.queued <+: w.queued → w.asked = v.asked → w.read = v.read →
      w.haltAt = v.haltAt → w.stopAt = v.stopAt → w.doneAt = v.doneAt → TVExt v w := by
    intro w h0 h1 h2 h3 h4 h5 h6
    exact ⟨h0, h1, fun src => by rw [h2], fun src => by rw [h3], fun h e => by rw [h4]; exact e,
      fun h e => by rw [h5]; exact e, fun k h e => by rw [h6]; exact e⟩
  have pr : ∀ {α : Type} (l : List α), l <+: l := fun l => List.prefix_rfl
  have up : ∀ (g : Nat → List Nat) (i src : Nat) (x : Nat), g src <+: upd g i (g i ++ [x]) src := by
    intro g i src x
    by_cases hs : src = i
    · subst hs; rw [upd_same]; exact List.prefix_append _ _
    · rw [upd_ne _ _ _ _ hs]
  cases st with
  | ctrl c hc => exact same hc.ans (pr _) rfl rfl rfl rfl rfl
  | take src x hr => exact ⟨pr _, pr _, fun _ => pr _, fun s => up _ _ _ _, fun _ e => e, fun _ e => e, fun _ _ e => e⟩
  | done k hd =>
    refine ⟨pr _, pr _, fun _ => pr _, fun _ => pr _, fun _ e => e, fun _ e => e, fun j d e => ?_⟩
    by_cases hj : j = k
    · subst hj; rw [hd] at e; cases e
    · exact (upd_ne _ _ _ _ hj).trans e
  | returned k h1 h2 => exact same (pr _) (pr _) rfl rfl rfl rfl rfl
  | send addr target width vec rest c hp ho hc => exact same hc.ext.ans (pr _) rfl rfl rfl rfl rfl
  | recv => exact same (pr _) (pr _) rfl rfl rfl rfl rfl
  | halt => exact same (pr _) (pr _) rfl rfl rfl rfl rfl
  | sendGot => exact same (pr _) (pr _) rfl rfl rfl rfl rfl
  | sendRow => exact same (pr _) (List.prefix_append _ _) rfl rfl rfl rfl rfl
  | sendEnd => exact same (pr _) (pr _) rfl rfl rfl rfl rfl
  | added => exact same (pr _) (pr _) rfl rfl rfl rfl rfl
  | recvRead => exact ⟨pr _, pr _, fun _ => up _ _ _ _, fun _ => pr _, fun _ e => e, fun _ e => e, fun _ _ e => e⟩
  | recvRow => exact same (pr _) (pr _) rfl rfl rfl rfl rfl
  | recvBad => exact same (pr _) (pr _) rfl rfl rfl rfl rfl
  | recvAll addr source width vec got c hp hg hc => exact same hc.ext.ans (pr _) rfl rfl rfl rfl rfl
  | recvDone => exact same (pr _) (pr _) rfl rfl rfl rfl rfl
  | haltAgain => exact same (pr _) (pr _) rfl rfl rfl rfl rfl
  | haltFirst hp hh hs =>
    have := h.halts.1 hs
    exact ⟨pr _, pr _, fun _ => pr _, fun _ => pr _, fun x e => (by rw [this] at e; cases e), fun _ e => e, fun _ _ e => e⟩
  | stopStep => exact same (pr _) (pr _) rfl rfl rfl rfl rfl
  | stop hp hs hs' =>
    have : v.stopAt = none := by
      by_contra hne
      exact hs' (h.stopped.2 hne)
    exact ⟨pr _, pr _, fun _ => pr _, fun _ => pr _, fun _ e => e, fun x e => (by rw [this] at e; cases e), fun _ _ e => e⟩
  | haltEnd c hp hs hc => exact same hc.ans (pr _) rfl rfl rfl rfl rfl

/-! ## The parts of a step -/

/-- What the operations that have ended took is still true. -/
theorem took_keep {lat cores : Nat} {prog : List TileOp} {v v' : TV} (h : TileTimes lat cores prog v) (x : TVExt v v')
    (hs : v.starts <+: v'.starts) (he : v'.ends = v.ends) :
    ∀ m e, v'.ends[m]? = some e → ∃ s op, v'.starts[m]? = some s ∧ prog[m]? = some op ∧
      OpTook lat cores prog v' m op s e := by
  intro m e hm
  rw [he] at hm
  obtain ⟨s, op, h1, h2, h3⟩ := h.took m e hm
  exact ⟨s, op, prefix_getElem? hs h1, h2, h3.mono x⟩

/-- An operation starts. -/
theorem times_start {lat cores : Nat} {prog : List TileOp} {v v' : TV} {op : TileOp} {rest : List TileOp}
    (h : TileTimes lat cores prog v) (hp : v.phase = .ready) (ho : v.ops = op :: rest) (x : TVExt v v')
    (e1 : v'.now = v.now) (e2 : v'.ops = rest) (e3 : v'.starts = v.starts ++ [v.now]) (e4 : v'.ends = v.ends)
    (e5 : v'.phase.isReady = false) (e6 : v'.ctrl.now = v.ctrl.now) (e7 : v'.active = v.active)
    (e8 : v'.queued = v.queued) (e9 : v'.adds = v.adds) (e10 : v'.asked = v.asked ∧ v'.read = v.read ∧ v'.reader = v.reader)
    (e11 : v'.stopper = v.stopper ∧ v'.stopAt = v.stopAt ∧ v'.haltAt = v.haltAt)
    (e12 : v'.halted = v.halted ∧ v'.doneAt = v.doneAt)
    (n1 : v'.phase ≠ .haltRouter)
    (time : v.starts.length = v.ends.length → v'.starts[v'.ends.length]? = some v.now → prog[v'.ends.length]? = some op →
      PhaseTime lat cores prog v') :
    TileTimes lat cores prog v' := by
  have hlen : v.starts.length = v.ends.length := by
    have := h.count
    rw [hp] at this
    exact this
  have hop : prog[v.ends.length]? = some op := by
    have := h.ops
    rw [ho, hlen] at this
    have h2 := congrArg (fun l : List TileOp => l[0]?) this
    rw [List.getElem?_drop] at h2
    simpa using h2.symm
  have hnow : v.now = v.ends.getLast?.getD 0 := by
    have := h.time
    unfold PhaseTime at this
    rw [hp] at this
    exact this (by rw [ho]; simp)
  refine ⟨by rw [e6, e1]; exact h.cnow, ?_, ?_, ?_, ?_, ?_, ?_, ?_, ?_, ?_, ?_, ?_, ?_, ?_, ?_, ?_, ?_, ?_, ?_, ?_, ?_⟩
  · rw [e2, e3, List.length_append, List.length_singleton]
    have := h.ops
    rw [ho] at this
    rw [← List.drop_drop, ← this]
    rfl
  · rw [e3, e4, e5, List.length_append, hlen]; rfl
  · intro s hs
    rw [e3] at hs
    cases hst : v.starts with
    | nil =>
      rw [hst] at hs hlen
      have : v.ends = [] := List.eq_nil_of_length_eq_zero hlen.symm
      rw [this] at hnow
      simp only [List.nil_append, List.getElem?_cons_zero, Option.some.injEq] at hs
      rw [← hs, hnow]
      rfl
    | cons y ys =>
      rw [hst] at hs
      exact h.first s (by rw [hst]; exact hs)
  · intro m s hs
    rw [e3] at hs
    rw [e4]
    by_cases hm : m + 1 < v.starts.length
    · rw [List.getElem?_append_left hm] at hs
      exact h.chain m s hs
    · have hm2 : m + 1 = v.starts.length := by
        have := (List.getElem?_eq_some_iff.1 hs).1
        simp at this
        omega
      rw [hm2, List.getElem?_append_right (le_refl _)] at hs
      simp only [Nat.sub_self, List.getElem?_cons_zero, Option.some.injEq] at hs
      rw [← hs, hnow, List.getLast?_eq_getElem?]
      rw [show v.ends.length - 1 = m by omega]
      have : m < v.ends.length := by omega
      rw [List.getElem?_eq_getElem this]
      rfl
  · exact took_keep h x (by rw [e3]; exact List.prefix_append _ _) e4
  · apply time hlen
    · rw [e3, e4, ← hlen]; simp
    · rw [e4]; exact hop
  · rw [e7, e5, h.active, ho, Bool.false_and]
    simp
  · intro _ _
    rw [e8, e4]
    exact h.qlen (by intro a b e; rw [hp] at e; cases e) (by intro a b e; rw [hp] at e; cases e)
  · intro _
    rw [e9]
    exact h.adds (by intro a b e; rw [hp] at e; cases e)
  · intro src
    rw [e10.1, e10.2.1, e10.2.2]
    exact h.asked src
  · intro _
    rw [e10.2.2]
    exact h.reader (by intro a s w n g e; rw [hp] at e; cases e)
  · intro _
    rw [e11.1]
    exact h.stopper (by intro e; rw [hp] at e; cases e)
  · rw [e11.1, e11.2.1]; exact h.stopped
  · rw [e11.1, e11.2.2]; exact h.halts
  · rw [e11.2.1, e11.2.2, e1]; exact h.order
  · rw [e11.1, e4]
    intro hs
    rcases h.past hs with h1 | h1
    · rw [hp] at h1; cases h1
    · exact .inr h1
  · rw [e11.2.2, e12.1, e12.2]; exact h.coreEnd
  · rw [e12.2, e1]; exact h.done
  · rw [e12.1, e12.2, e1]; exact h.ret
  · rw [e12.1, e12.2]; exact h.haltDone

/-- The operation that has started last. -/
theorem cur_len {lat cores : Nat} {prog : List TileOp} {v : TV} (h : TileTimes lat cores prog v)
    (hp : v.phase.isReady = false) : v.starts.length = v.ends.length + 1 := by
  have := h.count
  rw [hp] at this
  exact this

/-- An operation ends. -/
theorem times_end {lat cores : Nat} {prog : List TileOp} {v v' : TV} {op : TileOp} {s : Nat}
    (h : TileTimes lat cores prog v) (hp : v.phase.isReady = false) (x : TVExt v v') (p' : v'.phase = .ready)
    (e1 : v'.now = v.now) (e2 : v'.ops = v.ops) (e3 : v'.starts = v.starts) (e4 : v'.ends = v.ends ++ [v.now])
    (e6 : v'.ctrl.now = v.ctrl.now) (e7 : v'.active = if v.ops.isEmpty then some v.now else v.active)
    (e8 : v'.queued = v.queued) (e9 : v'.adds = v.adds) (e10 : v'.asked = v.asked ∧ v'.read = v.read)
    (n1 : v'.reader = .idle) (n2 : ∀ tg l, v.phase ≠ .adding tg l)
    (n3 : ∀ src, (v.asked src).length = (v.read src).length)
    (e11 : v'.stopper = v.stopper ∧ v'.stopAt = v.stopAt ∧ v'.haltAt = v.haltAt)
    (e12 : v'.halted = v.halted ∧ v'.doneAt = v.doneAt)
    (n4 : v.stopper = .running ∨ v.stopper = .stopped)
    (n5 : v.phase = .haltRouter → op = .halt)
    (hs : v.starts[v.ends.length]? = some s) (ho : prog[v.ends.length]? = some op)
    (hq : v.queued.length = packetsOf (prog.take (v.ends.length + 1)))
    (took : OpTook lat cores prog v' v.ends.length op s v.now) :
    TileTimes lat cores prog v' := by
  have hlen := cur_len h hp
  refine ⟨by rw [e6, e1]; exact h.cnow, ?_, ?_, ?_, ?_, ?_, ?_, ?_, ?_, ?_, ?_, ?_, ?_, ?_, ?_, ?_, ?_, ?_, ?_, ?_, ?_⟩
  · rw [e2, e3]; exact h.ops
  · rw [e3, e4, p', List.length_append, hlen]; rfl
  · rw [e3]; exact h.first
  · intro m s' hs'
    rw [e3] at hs'
    rw [e4]
    exact prefix_getElem? (List.prefix_append _ _) (h.chain m s' hs')
  · intro m e hm
    rw [e4] at hm
    by_cases hl : m < v.ends.length
    · rw [List.getElem?_append_left hl] at hm
      obtain ⟨s', op', h1, h2, h3⟩ := h.took m e hm
      exact ⟨s', op', by rw [e3]; exact h1, h2, h3.mono x⟩
    · have hm2 : m = v.ends.length := by
        have := (List.getElem?_eq_some_iff.1 hm).1
        simp at this
        omega
      subst hm2
      rw [List.getElem?_append_right (le_refl _)] at hm
      simp only [Nat.sub_self, List.getElem?_cons_zero, Option.some.injEq] at hm
      subst hm
      exact ⟨s, op, by rw [e3]; exact hs, ho, took⟩
  · unfold PhaseTime
    rw [p']
    intro _
    rw [e4, e1]; simp
  · rw [e7, p', e2, e4]
    simp only [TilePhase.isReady, Bool.true_and, last_snoc, Option.getD_some]
    split
    · rfl
    · have := h.active
      rw [hp, Bool.false_and] at this
      rw [this]
      rfl
  · intro _ _
    rw [e8, e4, List.length_append]
    exact hq
  · intro _
    rw [e9]
    exact h.adds n2
  · intro src
    rw [e10.1, e10.2, n1, n3 src]
    simp
  · intro _; exact n1
  · intro _; rw [e11.1]; exact n4
  · rw [e11.1, e11.2.1]; exact h.stopped
  · rw [e11.1, e11.2.2]; exact h.halts
  · rw [e11.2.1, e11.2.2, e1]; exact h.order
  · rw [e11.1, e4]
    intro hst
    right
    rcases h.past hst with h1 | ⟨j, h1, h2⟩
    · refine ⟨v.ends.length, by simp, ?_⟩
      rw [ho, n5 h1]
    · exact ⟨j, by simp; omega, h2⟩
  · rw [e11.2.2, e12.1, e12.2]; exact h.coreEnd
  · rw [e12.2, e1]; exact h.done
  · rw [e12.1, e12.2, e1]; exact h.ret
  · rw [e12.1, e12.2]; exact h.haltDone

theorem packets_snoc {prog : List TileOp} {m : Nat} {op : TileOp} (h : prog[m]? = some op) :
    packetsOf (prog.take (m + 1)) = packetsOf (prog.take m) + packetsOf [op] := by
  rw [List.take_add_one, h]
  simp [packetsOf]

/-- Nothing happens to the tile process. -/
theorem times_frame {lat cores : Nat} {prog : List TileOp} {v v' : TV} (h : TileTimes lat cores prog v) (x : TVExt v v')
    (e1 : v'.now = v.now) (e2 : v'.ops = v.ops) (e3 : v'.starts = v.starts) (e4 : v'.ends = v.ends)
    (e5 : v'.phase = v.phase) (e6 : v'.ctrl.now = v.ctrl.now) (e7 : v'.active = v.active)
    (e8 : v'.queued = v.queued) (e9 : v'.adds = v.adds)
    (n1 : ∀ src, (v'.asked src).length = (v'.read src).length + if v'.reader = .waiting src then 1 else 0)
    (n2 : v.reader = .idle → v'.reader = .idle)
    (e11 : v'.stopper = v.stopper ∧ v'.stopAt = v.stopAt ∧ v'.haltAt = v.haltAt)
    (n3 : ∀ k, v.halted k = true → v'.halted k = true)
    (n4 : ∀ k d, v'.doneAt k = some d → d ≤ v'.now)
    (n5 : ∀ k, k < cores → v'.halted k = false → ∀ d, v'.doneAt k = some d → d = v'.now)
    (n6 : ∀ k, v'.halted k = true → v'.doneAt k ≠ none)
    (time : PhaseTime lat cores prog v') : TileTimes lat cores prog v' := by
  refine ⟨by rw [e6, e1]; exact h.cnow, ?_, ?_, ?_, ?_, ?_, time, ?_, ?_, ?_, n1, ?_, ?_, ?_, ?_, ?_, ?_, ?_, n4, n5, n6⟩
  · rw [e2, e3]; exact h.ops
  · rw [e3, e4, e5]; exact h.count
  · rw [e3]; exact h.first
  · rw [e3, e4]; exact h.chain
  · exact took_keep h x (by rw [e3]) e4
  · rw [e7, e5, e2, e4]; exact h.active
  · rw [e5, e8, e4]; exact h.qlen
  · rw [e5, e9]; exact h.adds
  · rw [e5]
    intro hh
    exact n2 (h.reader hh)
  · rw [e5, e11.1]; exact h.stopper
  · rw [e11.1, e11.2.1]; exact h.stopped
  · rw [e11.1, e11.2.2]; exact h.halts
  · rw [e11.2.1, e11.2.2, e1]; exact h.order
  · rw [e11.1, e5, e4]; exact h.past
  · rw [e11.2.2]
    intro y hy k hk
    obtain ⟨h1, d, h2, h3⟩ := h.coreEnd y hy k hk
    exact ⟨n3 k h1, d, x.doneAt _ _ h2, h3⟩

/-- The tile process goes on with its operation. -/
theorem times_mid {lat cores : Nat} {prog : List TileOp} {v v' : TV} (h : TileTimes lat cores prog v) (x : TVExt v v')
    (e1 : v'.now = v.now) (e2 : v'.ops = v.ops) (e3 : v'.starts = v.starts) (e4 : v'.ends = v.ends)
    (p : v.phase.isReady = false) (p' : v'.phase.isReady = false) (e6 : v'.ctrl.now = v.ctrl.now) (e7 : v'.active = v.active)
    (n0 : (∀ tg l, v'.phase ≠ .sending tg l) → (∀ tg l, v'.phase ≠ .adding tg l) →
      v'.queued.length = packetsOf (prog.take v'.ends.length))
    (na : (∀ tg l, v'.phase ≠ .adding tg l) → v'.adds = [])
    (n1 : ∀ src, (v'.asked src).length = (v'.read src).length + if v'.reader = .waiting src then 1 else 0)
    (n2 : (∀ a s w n g, v'.phase ≠ .recvWait a s w n g) → v'.reader = .idle)
    (n7 : v'.phase ≠ .haltRouter → v'.stopper = .running ∨ v'.stopper = .stopped)
    (n8 : v'.stopper = .stopped ↔ v'.stopAt ≠ none)
    (n9 : v'.stopper = .running ↔ v'.haltAt = none)
    (n10 : ∀ h q, v'.haltAt = some h → v'.stopAt = some q → h ≤ q ∧ q ≤ v'.now)
    (n11 : v'.stopper ≠ .running → v'.phase = .haltRouter ∨ ∃ j, j < v'.ends.length ∧ prog[j]? = some .halt)
    (n12 : ∀ h, v'.haltAt = some h → ∀ k, k < cores → v'.halted k = true ∧ ∃ d, v'.doneAt k = some d ∧ d ≤ h)
    (e12 : v'.halted = v.halted ∧ v'.doneAt = v.doneAt)
    (time : PhaseTime lat cores prog v') : TileTimes lat cores prog v' := by
  refine ⟨by rw [e6, e1]; exact h.cnow, ?_, ?_, ?_, ?_, ?_, time, ?_, n0, na, n1, n2, n7, n8, n9, n10, n11, n12, ?_, ?_, ?_⟩
  · rw [e2, e3]; exact h.ops
  · rw [e3, e4, p', cur_len h p]; rfl
  · rw [e3]; exact h.first
  · rw [e3, e4]; exact h.chain
  · exact took_keep h x (by rw [e3]) e4
  · rw [e7, h.active, p, p']; simp
  · rw [e12.2, e1]; exact h.done
  · rw [e12.1, e12.2, e1]; exact h.ret
  · rw [e12.1, e12.2]; exact h.haltDone

/-- The requests of the tile process that are being served. -/
theorem PhaseTime.ext {lat cores : Nat} {prog : List TileOp} {v v' : TV} (h : PhaseTime lat cores prog v) (x : TVExt v v')
    (hc : CtrlExt v.ctrl v'.ctrl) (hcn : v.ctrl.now = v.now) (e1 : v'.now = v.now) (e2 : v'.ops = v.ops)
    (e3 : v'.starts = v.starts) (e4 : v'.ends = v.ends) (e5 : v'.phase = v.phase) (e8 : v'.queued = v.queued)
    (e9 : v'.adds = v.adds) (e10 : ∀ src, v'.asked src = v.asked src)
    (e11 : v'.reader = v.reader ∨ ∃ src y, v.reader = .waiting src ∧ v'.reader = .got src y ∧
      ∀ m, m = (v.read src).length → (v'.read src)[m]? = some v.now)
    (hlen : ∀ src, (v.asked src).length = (v.read src).length + if v.reader = .waiting src then 1 else 0)
    (e12 : v'.stopAt = v.stopAt)
    (n : v.phase = .haltCores → (∀ k, k < cores → v'.halted k = true) →
      (∀ k, k < cores → v.halted k = true) ∨ ∃ k, k < cores ∧ v'.doneAt k = some v'.now) :
    PhaseTime lat cores prog v' := by
  have old : ∀ {id : Nat}, (∀ a ∈ v.ctrl.answers, a.req.id = id → a.time = v.now) →
      ∀ a ∈ v'.ctrl.answers, a.req.id = id → a.time = v'.now := by
    intro id hold a ha hid
    rw [e1]
    rcases hc.fresh a ha with h1 | h1
    · exact hold a h1 hid
    · rw [h1, hcn]
  unfold PhaseTime at h ⊢
  rw [e5, e4, e3, e1]
  cases hp : v.phase with
  | ready => rw [hp] at h; dsimp only at h ⊢; rw [e2]; exact h
  | sendWait id addr target width vec =>
    rw [hp] at h
    obtain ⟨s, r, h1, h2, h3, h4, h5, h6, h7, h8⟩ := h
    exact ⟨s, r, h1, h2, prefix_getElem? hc.subs h3, h4, h5, h6, h7, by rw [← e1]; exact old h8⟩
  | sending target todo =>
    rw [hp] at h
    obtain ⟨s, a, w, n, h1, h2, r, tm, data, h3, h4⟩ := h
    rw [e8]
    exact ⟨s, a, w, n, h1, h2, r, tm, data, x.ans.subset h3, h4⟩
  | adding target todo =>
    rw [hp] at h
    obtain ⟨s, a, w, n, h1, h2, r, tm, data, h3, h4⟩ := h
    rw [e8, e9]
    exact ⟨s, a, w, n, h1, h2, r, tm, data, x.ans.subset h3, h4⟩
  | recving addr source width vec got =>
    rw [hp] at h
    obtain ⟨s, off, h1, h2, h3, h4, h5⟩ := h
    exact ⟨s, off, h1, h2, h3, readsInTurn_mono (x.asked _) (x.read _) h4, by rw [e10]; exact h5⟩
  | recvWait addr source width vec got =>
    rw [hp] at h
    obtain ⟨s, off, e', h1, h2, h3, h4, h5, h6, h7⟩ := h
    refine ⟨s, off, e', h1, h2, h3, readsInTurn_mono (x.asked _) (x.read _) h4, by rw [e10]; exact h5, by rw [e10]; exact h6, ?_⟩
    rcases e11 with e11 | ⟨src, y, e11, e13, e14⟩
    · rw [e11]
      rcases h7 with h7 | ⟨y, h7, h8⟩
      · exact .inl h7
      · exact .inr ⟨y, h7, prefix_getElem? (x.read _) h8⟩
    · rcases h7 with h7 | ⟨y', h7, h8⟩
      · rw [e11] at h7
        cases h7
        refine .inr ⟨y, e13, e14 _ ?_⟩
        have := hlen source.toNat
        rw [e11, if_pos rfl] at this
        omega
      · rw [e11] at h7; cases h7
  | recvWrite id =>
    rw [hp] at h
    obtain ⟨s, a, sr, w, n, off, e', r, data, h1, h2, h3, hof, h4, h5, h6, h7, h8, h9⟩ := h
    exact ⟨s, a, sr, w, n, off, e', r, data, h1, h2, readsInTurn_mono (x.asked _) (x.read _) h3, by rw [e10]; exact hof,
      prefix_getElem? hc.subs h4, h5, h6, h7, h8, by rw [← e1]; exact old h9⟩
  | haltCores =>
    rw [hp] at h
    obtain ⟨s, h1, h2, h3, h4⟩ := h
    refine ⟨s, h1, h2, h3, fun hall => ?_⟩
    rcases n hp hall with h5 | ⟨k, hk, h5⟩
    · rcases h4 h5 with h6 | ⟨k, hk, h6⟩
      · exact .inl h6
      · exact .inr ⟨k, hk, x.doneAt _ _ h6⟩
    · rw [e1] at h5
      exact .inr ⟨k, hk, h5⟩
  | haltRouter =>
    rw [hp] at h
    obtain ⟨s, y, h1, h2, h3, h4, h5, h6, h7⟩ := h
    refine ⟨s, y, h1, h2, x.haltAt _ h3, h4, fun hj => ?_, by rw [e12]; exact h6, h7⟩
    obtain ⟨g1, g2⟩ := h5 hj
    refine ⟨g1, ?_⟩
    rcases g2 with g2 | ⟨k, hk, g2⟩
    · exact .inl g2
    · exact .inr ⟨k, hk, x.doneAt _ _ g2⟩

end Ramwich
