import Verif.Lemmas.ClockCore

/-! # The tiles of the check with the clock -/
namespace Ramwich

open Pipeline Spec

/-- What concerns tile `t`. -/
structure TView where
  tile : TileSt
  pipe : Nat → Timed CoreOp
  due : Nat → Option Nat
  queue : List Packet
  sender : Sender
  buf : Nat → List (List I32)
  reader : Reader
  adding : Nat
  stopper : Stopper
  sent : Nat
  flight : Nat
  adds : List Nat
  check : Nat
  active : Option Nat

def FSys.view (f : FSys) (t : Nat) : TView where
  tile := f.ts.sys.tile t
  pipe := f.ts.pipe t
  due := f.ts.due t
  queue := f.ts.sys.net.queue t
  sender := f.ts.sys.net.sender t
  buf := f.ts.sys.net.buf t
  reader := f.ts.sys.net.reader t
  adding := f.ts.sys.net.adding t
  stopper := f.ts.sys.net.stopper t
  sent := (f.ts.sys.net.stats t).sent
  flight := f.clk.flight t
  adds := f.clk.adds t
  check := f.clk.check t
  active := f.active t

structure PacketR (tiles t : Nat) (d : Nat × Nat) (p : Packet) : Prop where
  src : p.src = t
  target : p.target = (d.1 : Int)
  lt : d.1 < tiles
  ne : d.1 ≠ t
  len : p.data.length = d.2

def SenderR (tiles t : Nat) (x : Sender) (flight : Nat) : DSender → Prop
  | .idle => x = .idle
  | .handed tg w => ∃ p, x = .handed p ∧ PacketR tiles t (tg, w) p
  | .flying tg w d => ∃ p, x = .flying p false ∧ PacketR tiles t (tg, w) p ∧ flight = d
  | .putting tg w => ∃ p, x = .putting p false ∧ PacketR tiles t (tg, w) p
  | .deposited tg w => ∃ p, x = .deposited p false ∧ PacketR tiles t (tg, w) p
  | .delivered tg w => ∃ p, x = .delivered p false ∧ PacketR tiles t (tg, w) p

def ReaderR (tiles t : Nat) (x : Reader) : DReader → Prop
  | .idle => x = .idle
  | .waiting s => x = .waiting s ∧ s < tiles ∧ s ≠ t
  | .got s w => ∃ data, x = .got s data ∧ data.length = w

def TilePhaseR (tiles t : Nat) (c : Ctrl) (x : TilePhase) : DTilePhase → Prop
  | .ready => x = .ready
  | .sendWait id tg w v => ∃ addr, x = .sendWait id addr tg w v ∧ Ticket c id (w * v) ∧ tg < tiles ∧ tg ≠ t
  | .sending tg w rows => ∃ todo, x = .sending tg todo ∧ todo.length = rows ∧ (∀ r ∈ todo, r.length = w) ∧ tg < tiles ∧ tg ≠ t
  | .adding tg w rows => ∃ todo, x = .adding tg todo ∧ todo.length = rows ∧ (∀ r ∈ todo, r.length = w) ∧ tg < tiles ∧ tg ≠ t
  | .recving a s w v got => ∃ gs, x = .recving a s w v gs ∧ gs.length = got ∧ (∀ r ∈ gs, r.length = w) ∧ s < tiles ∧ s ≠ t
  | .recvWait a s w v got => ∃ gs, x = .recvWait a s w v gs ∧ gs.length = got ∧ (∀ r ∈ gs, r.length = w) ∧ s < tiles ∧ s ≠ t
  | .recvWrite id => x = .recvWrite id
  | .haltCores => x = .haltCores
  | .haltRouter => x = .haltRouter

structure TileR (cfg : SysCfg) (cc : Config) (p : CoreParams) (q : ClockPar) (size now t : Nat) (x : DTile) (w : TView) : Prop where
  ctrl : ClockCtrl size now x.ctrl w.tile.ctrl
  ncores : x.cores.length = cfg.cores
  cores : ∀ k y, x.cores[k]? = some y → CoreR cfg cc p q now w.tile.ctrl y (w.tile.core k) (w.pipe k) (w.due k)
  ops : w.tile.ops = x.ops
  phase : TilePhaseR cfg.net.tiles t w.tile.ctrl w.tile.phase x.phase
  queue : List.Forall₂ (PacketR cfg.net.tiles t) x.queue w.queue
  sender : SenderR cfg.net.tiles t w.sender w.flight x.sender
  buflen : x.buf.length = cfg.net.tiles
  buf : ∀ s, (w.buf s).map List.length = x.buf.getD s []
  reader : ReaderR cfg.net.tiles t w.reader x.reader
  adds : w.adds = x.adds
  adding : w.adding = x.adds.length
  stopper : w.stopper = x.stopper
  check : w.check = x.check
  sent : w.sent = x.sent
  active : w.active = x.active
  wake : x.wake ≤ x.coresUntil

structure NodeR (cfg : SysCfg) (cc : Config) (p : CoreParams) (q : ClockPar) (size : Nat) (A : DNode) (f : FSys) : Prop where
  now : f.ts.now = A.now
  look : f.clk.look = A.now
  crashed : f.ts.sys.crashed = none
  netCrashed : f.ts.sys.net.crashed = none
  len : A.tiles.length = cfg.net.tiles
  tiles : ∀ t x, A.tiles[t]? = some x → TileR cfg cc p q size A.now t x (f.view t)

variable {cfg : SysCfg} {cc : Config} {p : CoreParams} {l : StageLat} {q : ClockPar} {size : Nat} {A A' : DNode} {f f' : FSys}
variable {t : Nat} {x x' : DTile}

theorem NodeR.set (h : NodeR cfg cc p q size A f) (h1 : f'.ts.now = f.ts.now) (h2 : f'.clk.look = f.clk.look)
    (h3 : f'.ts.sys.crashed = none) (h4 : f'.ts.sys.net.crashed = none) (hv : ∀ i, i ≠ t → f'.view i = f.view i)
    (hT : TileR cfg cc p q size A.now t x' (f'.view t)) :
    NodeR cfg cc p q size { A with tiles := A.tiles.set t x' } f' := by
  refine ⟨h1.trans h.now, h2.trans h.look, h3, h4, by rw [List.length_set]; exact h.len, fun i y hy => ?_⟩
  by_cases hi : i = t
  · subst hi
    rw [List.getElem?_set] at hy
    rw [if_pos rfl] at hy
    split at hy
    · injection hy with hy
      subst hy
      exact hT
    · cases hy
  · rw [hv i hi]
    rw [List.getElem?_set, if_neg (Ne.symm hi)] at hy
    exact h.tiles i y hy

theorem NodeR.lt (h : NodeR cfg cc p q size A f) (hx : A.tiles[t]? = some x) : t < cfg.net.tiles := by
  have := (List.getElem?_eq_some_iff.1 hx).1
  have := h.len
  omega

/-- What a step of tile `t` does. -/
theorem on_some {A A' : DNode} {g : DTile → Option DTile} (h : A.on t g = some A') :
    ∃ x x', A.tiles[t]? = some x ∧ g x = some x' ∧ A' = { A with tiles := A.tiles.set t x' } := by
  unfold DNode.on at h
  split at h
  · cases h
  · rename_i x hx
    obtain ⟨x', h1, h2⟩ := Option.map_eq_some_iff.1 h
    exact ⟨x, x', hx, h1, h2.symm⟩

theorem onAll_some {A A' : DNode} {g : DTile → Option DTile} (h : A.onAll t g = some A') :
    ∃ x x', A.tiles[t]? = some x ∧ g x = some x' ∧ A' = { A with tiles := A.tiles.set t { x' with wake := 0 } } := by
  obtain ⟨x, x', h1, h2, h3⟩ := on_some h
  obtain ⟨y, h4, rfl⟩ := Option.map_eq_some_iff.1 h2
  exact ⟨x, y, h1, h4, h3⟩

theorem onCore_some {k : Nat} {g : DCore → DCtrl → Option (DCore × DCtrl)} (h : x.onCore k g = some x') :
    ∃ y y' d', x.cores[k]? = some y ∧ g y x.ctrl = some (y', d') ∧ x' = { x with cores := x.cores.set k y', ctrl := d' } := by
  unfold DTile.onCore at h
  split at h
  · cases h
  · rename_i y hy
    obtain ⟨r, h1, h2⟩ := Option.map_eq_some_iff.1 h
    exact ⟨y, r.1, r.2, hy, h1, h2.symm⟩

theorem TilePhaseR.mono {tiles : Nat} {c c' : Ctrl} {x : TilePhase} {d : DTilePhase} (h : TilePhaseR tiles t c x d)
    (ht : ∀ id n, Ticket c id n → Ticket c' id n) : TilePhaseR tiles t c' x d := by
  cases d <;> simp only [TilePhaseR] at h ⊢
  case sendWait =>
    obtain ⟨addr, h1, h2, h3⟩ := h
    exact ⟨addr, h1, ht _ _ h2, h3⟩
  all_goals exact h

/-- The tile after a step of one of its cores. -/
theorem node_core (h : NodeR cfg cc p q size A f) (hx : A.tiles[t]? = some x) {k : Nat} {y y' : DCore} (hy : x.cores[k]? = some y)
    {d' : DCtrl} {r : Option TSys} (hs : CoreStepR cfg cc p q size A.now f.ts t k y' d' r) :
    ∃ ts, r = some ts ∧ NodeR cfg cc p q size
      { A with tiles := A.tiles.set t { x with cores := x.cores.set k y', ctrl := d', wake := 0 } } { f with ts := ts } := by
  obtain ⟨c', X, pi, due, rfl, h2, h3, h4⟩ := hs
  have hT := h.tiles t x hx
  refine ⟨_, rfl, h.set rfl rfl h.crashed h.netCrashed ?_ ?_⟩
  · intro i hi
    unfold FSys.view TSys.putCore upd2 Sys.setTile
    simp only [upd_ne _ _ _ _ hi]
  · have hv : FSys.view { f with ts := f.ts.putCore t k c' X pi due } t = { f.view t with
        tile := { f.ts.sys.tile t with ctrl := c', core := upd (f.ts.sys.tile t).core k X }
        pipe := upd (f.ts.pipe t) k pi, due := upd (f.ts.due t) k due } := by
      unfold FSys.view TSys.putCore upd2 Sys.setTile
      simp only [upd_same]
    rw [hv]
    refine { hT with ctrl := h2, ncores := ?_, cores := ?_, phase := hT.phase.mono h4, wake := Nat.zero_le _ }
    · rw [← hT.ncores]; exact List.length_set
    · intro j z hz
      by_cases hj : j = k
      · subst hj
        have hz : (x.cores.set j y')[j]? = some z := hz
        rw [List.getElem?_set, if_pos rfl] at hz
        split at hz
        · injection hz with hz
          subst hz
          show CoreR cfg cc p q A.now c' y' (upd _ j X j) (upd _ j pi j) (upd _ j due j)
          rw [upd_same, upd_same, upd_same]
          exact h3
        · cases hz
      · have hz : (x.cores.set k y')[j]? = some z := hz
        rw [List.getElem?_set, if_neg (Ne.symm hj)] at hz
        show CoreR cfg cc p q A.now c' z (upd _ k X j) (upd _ k pi j) (upd _ k due j)
        rw [upd_ne _ _ _ _ hj, upd_ne _ _ _ _ hj, upd_ne _ _ _ _ hj]
        exact (hT.cores j z hz).mono h4

/-! ## Tiles and routers -/

/-- Tile `t`, the routers and their clock change. -/
def FSys.putTile (f : FSys) (t : Nat) (X : TileSt) (n : Net) (k : NetClock) : FSys :=
  { f with ts := { f.ts with sys := { f.ts.sys with tile := upd f.ts.sys.tile t X, net := n } }, clk := k }

theorem act_other (hc : f.ts.sys.crashed = none) {b : SysAct} (hb : ∀ t k, b ≠ .core t k) (hb' : ∀ t, b ≠ .ctrl t .tick) {sys' : Sys}
    {k : NetClock} (h1 : f.ts.sys.act cfg b = some sys') (h2 : sys'.crashed = none) (h3 : f.netPart cfg b = some k) :
    f.act cfg l (.t (.other b)) = some (match b with
      | .tile t => ({ f with ts := { f.ts with sys := sys' }, clk := k } : FSys).mark t (f.ts.sys.tile t) (sys'.tile t)
      | _ => { f with ts := { f.ts with sys := sys' }, clk := k }) := by
  unfold FSys.act
  rw [show f.ts.sys.crashed.isSome = false by rw [hc]; rfl]
  simp only [Bool.false_eq_true, if_false]
  have : f.ts.act cfg l (.other b) = some { f.ts with sys := sys' } := by
    unfold TSys.act
    rw [show f.ts.sys.crashed.isSome = false by rw [hc]; rfl]
    simp only [Bool.false_eq_true, if_false, h1, Option.map_some]
  unfold FSys.other
  rw [this, h3]
  simp only [h2, Option.isSome_none, Bool.false_eq_true, if_false]
  cases b <;> rfl

/-- The routers of the other tiles do not change. -/
structure NetFrame (t : Nat) (n n' : Net) : Prop where
  crashed : n'.crashed = none
  queue : ∀ i, i ≠ t → n'.queue i = n.queue i
  sender : ∀ i, i ≠ t → n'.sender i = n.sender i
  buf : ∀ i, i ≠ t → n'.buf i = n.buf i
  reader : ∀ i, i ≠ t → n'.reader i = n.reader i
  adding : ∀ i, i ≠ t → n'.adding i = n.adding i
  stopper : ∀ i, i ≠ t → n'.stopper i = n.stopper i
  sent : ∀ i, i ≠ t → (n'.stats i).sent = (n.stats i).sent

structure ClkFrame (t : Nat) (k k' : NetClock) : Prop where
  look : k'.look = k.look
  flight : ∀ i, i ≠ t → k'.flight i = k.flight i
  adds : ∀ i, i ≠ t → k'.adds i = k.adds i
  check : ∀ i, i ≠ t → k'.check i = k.check i

theorem NetFrame.refl {n : Net} (h : n.crashed = none) : NetFrame t n n :=
  ⟨h, fun _ _ => rfl, fun _ _ => rfl, fun _ _ => rfl, fun _ _ => rfl, fun _ _ => rfl, fun _ _ => rfl, fun _ _ => rfl⟩

theorem ClkFrame.refl {k : NetClock} : ClkFrame t k k := ⟨rfl, fun _ _ => rfl, fun _ _ => rfl, fun _ _ => rfl⟩

theorem mark_ts (f : FSys) (t : Nat) (old new : TileSt) : (f.mark t old new).ts = f.ts := by
  unfold FSys.mark; split <;> rfl

theorem mark_clk (f : FSys) (t : Nat) (old new : TileSt) : (f.mark t old new).clk = f.clk := by
  unfold FSys.mark; split <;> rfl

theorem mark_active (f : FSys) (t : Nat) (old new : TileSt) (i : Nat) : (f.mark t old new).active i =
    if i = t ∧ old.phase.isReady = false ∧ new.phase.isReady = true ∧ new.ops.isEmpty = true then some f.ts.now else f.active i := by
  unfold FSys.mark
  cases h1 : old.phase.isReady <;> cases h2 : new.phase.isReady <;> simp
  split
  · rename_i h
    simp [h, upd]
  · rename_i h
    simp [h]

/-- The state of the node after a step of tile `t`. -/
theorem node_tile (h : NodeR cfg cc p q size A f) {X old : TileSt} {n : Net} {k : NetClock} (hn : NetFrame t f.ts.sys.net n)
    (hk : ClkFrame t f.clk k) {x' : DTile}
    (hT : TileR cfg cc p q size A.now t x' {
      tile := X, pipe := f.ts.pipe t, due := f.ts.due t, queue := n.queue t, sender := n.sender t, buf := n.buf t, reader := n.reader t
      adding := n.adding t, stopper := n.stopper t, sent := (n.stats t).sent, flight := k.flight t, adds := k.adds t, check := k.check t
      active := if old.phase.isReady = false ∧ X.phase.isReady = true ∧ X.ops.isEmpty = true then some A.now else f.active t }) :
    NodeR cfg cc p q size { A with tiles := A.tiles.set t x' } ((f.putTile t X n k).mark t old X) := by
  refine h.set ?_ ?_ ?_ ?_ ?_ ?_
  · rw [mark_ts]; rfl
  · rw [mark_clk]; exact hk.look
  · rw [mark_ts]; exact h.crashed
  · rw [mark_ts]; exact hn.crashed
  · intro i hi
    unfold FSys.view
    rw [mark_ts, mark_clk, mark_active, if_neg (fun h => hi h.1)]
    unfold FSys.putTile
    simp only [upd_ne _ _ _ _ hi, hn.queue i hi, hn.sender i hi, hn.buf i hi, hn.reader i hi, hn.adding i hi, hn.stopper i hi,
      hn.sent i hi, hk.flight i hi, hk.adds i hi, hk.check i hi]
  · have : FSys.view ((f.putTile t X n k).mark t old X) t = {
      tile := X, pipe := f.ts.pipe t, due := f.ts.due t, queue := n.queue t, sender := n.sender t, buf := n.buf t, reader := n.reader t
      adding := n.adding t, stopper := n.stopper t, sent := (n.stats t).sent, flight := k.flight t, adds := k.adds t, check := k.check t
      active := if old.phase.isReady = false ∧ X.phase.isReady = true ∧ X.ops.isEmpty = true then some A.now else f.active t } := by
      unfold FSys.view
      rw [mark_ts, mark_clk, mark_active]
      unfold FSys.putTile
      simp only [upd_same, h.now, true_and]
    rw [this]
    exact hT

/-- Without the times of the tile process. -/
theorem node_router (h : NodeR cfg cc p q size A f) {X : TileSt} {n : Net} {k : NetClock} (hn : NetFrame t f.ts.sys.net n)
    (hk : ClkFrame t f.clk k) {x' : DTile}
    (hT : TileR cfg cc p q size A.now t x' {
      tile := X, pipe := f.ts.pipe t, due := f.ts.due t, queue := n.queue t, sender := n.sender t, buf := n.buf t, reader := n.reader t
      adding := n.adding t, stopper := n.stopper t, sent := (n.stats t).sent, flight := k.flight t, adds := k.adds t, check := k.check t
      active := f.active t }) :
    NodeR cfg cc p q size { A with tiles := A.tiles.set t x' } (f.putTile t X n k) := by
  have := node_tile (old := X) h hn hk (x' := x') (X := X) (by
    rw [if_neg (by rintro ⟨h1, h2, -⟩; rw [h1] at h2; cases h2)]; exact hT)
  have e : (f.putTile t X n k).mark t X X = f.putTile t X n k := by
    unfold FSys.mark
    cases X.phase.isReady <;> rfl
  rwa [e] at this

theorem clockNet_ok {s : Sys} {a : NetAct} {n' : Net} {g : Sys → Sys} (h1 : s.net.act cfg.net a = some n') (h2 : n'.crashed = none) :
    s.netAct cfg a g = some (g { s with net := n' }) := by
  unfold Sys.netAct
  rw [h1]
  simp only [Option.map_some, h2]

/-- What an action of the routers does when none of them has crashed. -/
def Net.actOf (c : NetConfig) (n : Net) : NetAct → Option Net
  | .send i target data => n.sendIf i target data
  | .added i => n.added i
  | .thread i => n.thread c i
  | .startRead i source => n.startRead c i source
  | .take i => n.take i
  | .readDone i => (n.readDone i).map Prod.fst
  | .halt i => n.halt i
  | .stopStep i => n.stopStep i

theorem net_act {c : NetConfig} {n : Net} {a : NetAct} (h : n.crashed = none) (ht : a.tile < c.tiles) :
    n.act c a = n.actOf c a := by
  unfold Net.act
  rw [if_neg (by rw [h]; simp [ht])]
  cases a <;> rfl

/-- An action of a controller. -/
theorem node_ctrl (ho : ClockOk cfg cc p l q) (h : NodeR cfg cc p q size A f) (hx : A.tiles[t]? = some x) {a : CtrlAct} {d' : DCtrl}
    (hd : x.ctrl.act q A.now a = some d') :
    ∃ f', f.act cfg l (.t (.other (.ctrl t a))) = some f' ∧
      NodeR cfg cc p q size { A with tiles := A.tiles.set t { x with ctrl := d', wake := 0 } } f' := by
  have hT := h.tiles t x hx
  obtain ⟨c', h1, h2, h3⟩ := clock_ctrl hT.ctrl hd
  have ht := h.lt hx
  have hact : f.ts.sys.act cfg (.ctrl t a) = some { f.ts.sys with tile := upd f.ts.sys.tile t { f.ts.sys.tile t with ctrl := c' } } := by
    have : f.ts.sys.ctrlAct cfg t a id = some { f.ts.sys with tile := upd f.ts.sys.tile t { f.ts.sys.tile t with ctrl := c' } } := by
      unfold Sys.ctrlAct
      rw [ho.edram]
      have h1 : (f.ts.sys.tile t).ctrl.act q.edram a = some c' := h1
      rw [h1]
      simp only [Option.map_some, h2.crashed]
      rfl
    unfold Sys.act
    rw [show f.ts.sys.crashed.isSome = false by rw [h.crashed]; rfl]
    simp only [Bool.false_eq_true, if_false]
    cases a <;> first | (cases hd; done) | (dsimp only; rw [if_pos ht]; exact this)
  have hne : ∀ i, (SysAct.ctrl t a) ≠ .ctrl i .tick := by
    rintro i he
    injection he with _ he
    subst he
    cases hd
  refine ⟨_, act_other h.crashed (fun _ _ => by simp) hne hact h.crashed rfl, ?_⟩
  refine node_router h (NetFrame.refl h.netCrashed) ClkFrame.refl (n := f.ts.sys.net) (k := f.clk)
    (X := { f.ts.sys.tile t with ctrl := c' }) ?_
  exact { hT with ctrl := h2, cores := fun k y hy => (hT.cores k y hy).mono h3, phase := hT.phase.mono h3, wake := Nat.zero_le _ }

theorem node_take (h : NodeR cfg cc p q size A f) (hx : A.tiles[t]? = some x) (hd : x.take = some x') :
    ∃ f', f.act cfg l (.t (.other (.take t))) = some f' ∧ NodeR cfg cc p q size { A with tiles := A.tiles.set t x' } f' := by
  have hT := h.tiles t x hx
  have ht := h.lt hx
  unfold DTile.take at hd
  split at hd
  rotate_left
  · cases hd
  rename_i src e
  split at hd
  · cases hd
  rename_i w rest hb
  injection hd with hd
  subst hd
  have hr := hT.reader
  rw [e] at hr
  obtain ⟨h1, h2, h3⟩ := hr
  have h1 : f.ts.sys.net.reader t = .waiting src := h1
  have hbuf := hT.buf src
  rw [hb] at hbuf
  have hbuf : (f.ts.sys.net.buf t src).map List.length = w :: rest := hbuf
  obtain ⟨row, rows, g1, g2, g3⟩ := List.map_eq_cons_iff.1 hbuf
  let n' : Net := { f.ts.sys.net with
    buf := upd f.ts.sys.net.buf t (upd (f.ts.sys.net.buf t) src rows)
    reader := upd f.ts.sys.net.reader t (.got src row) }
  have hact : f.ts.sys.act cfg (.take t) = some { f.ts.sys with net := n' } := by
    unfold Sys.act
    rw [show f.ts.sys.crashed.isSome = false by rw [h.crashed]; rfl]
    simp only [Bool.false_eq_true, if_false]
    refine clockNet_ok (s := f.ts.sys) (n' := n') (g := id) ?_ h.netCrashed
    rw [net_act (a := .take t) h.netCrashed ht]
    simp only [Net.actOf, Net.take, h1, g1]
    rfl
  have hk : f.netPart cfg (.take t) = some { f.clk with read := updAt f.clk.read t src (f.clk.read t src ++ [f.ts.now]) } := by
    unfold FSys.netPart Sys.netOf NetClock.step
    simp only [h1]
  refine ⟨_, act_other h.crashed (by simp) (by simp) hact h.crashed hk, ?_⟩
  have hX : ({ f.ts.sys with net := n' } : Sys) = { f.ts.sys with tile := upd f.ts.sys.tile t (f.ts.sys.tile t), net := n' } := by
    rw [upd_keep]
  simp only [hX]
  refine node_router h (n := n') (k := { f.clk with read := updAt f.clk.read t src (f.clk.read t src ++ [f.ts.now]) })
    (X := f.ts.sys.tile t) ⟨h.netCrashed, fun _ _ => rfl, fun _ _ => rfl, fun i hi => upd_ne _ _ _ _ hi, fun i hi => upd_ne _ _ _ _ hi,
      fun _ _ => rfl, fun _ _ => rfl, fun _ _ => rfl⟩ ⟨rfl, fun _ _ => rfl, fun _ _ => rfl, fun _ _ => rfl⟩ ?_
  refine { hT with buflen := ?_, buf := ?_, reader := ?_ }
  · exact (List.length_set ..).trans hT.buflen
  · intro s
    show (upd f.ts.sys.net.buf t _ t s).map List.length = (x.buf.set src rest).getD s []
    rw [upd_same]
    by_cases hs : s = src
    · subst hs
      rw [upd_same, g3, List.getD_eq_getElem?_getD, List.getElem?_set_self (by rw [hT.buflen]; exact h2)]
      rfl
    · rw [upd_ne _ _ _ _ hs, List.getD_eq_getElem?_getD, List.getElem?_set_ne (Ne.symm hs), ← List.getD_eq_getElem?_getD]
      exact hT.buf s
  · exact ⟨row, upd_same _ _ _, g2⟩

theorem node_recheck (h : NodeR cfg cc p q size A f) (hx : A.tiles[t]? = some x) (hd : x.recheck A.now = some x') :
    ∃ f', f.act cfg l (.recheck t) = some f' ∧ NodeR cfg cc p q size { A with tiles := A.tiles.set t x' } f' := by
  have hT := h.tiles t x hx
  have ht := h.lt hx
  unfold DTile.recheck at hd
  split at hd
  rotate_left
  · cases hd
  rename_i e
  rw [Option.ite_none_right_eq_some] at hd
  obtain ⟨⟨h1, h2⟩, hd⟩ := hd
  injection hd with hd
  subst hd
  have h3 : f.ts.sys.net.stopper t = .checking := hT.stopper.trans e
  have h4 : f.clk.check t = x.check := hT.check
  have h5 : f.ts.sys.net.queue t ≠ [] := by
    intro he
    have := hT.queue
    have he : (f.view t).queue = [] := he
    rw [he] at this
    cases hq : x.queue with
    | nil => rw [hq] at h2; cases h2
    | cons a b => rw [hq] at this; cases this
  have hact : f.act cfg l (.recheck t) = some (f.putTile t (f.ts.sys.tile t) f.ts.sys.net
      { f.clk with check := upd f.clk.check t (f.ts.now + 1) }) := by
    unfold FSys.act NetClock.recheck FSys.putTile
    rw [show f.ts.sys.crashed.isSome = false by rw [h.crashed]; rfl]
    simp only [Bool.false_eq_true, if_false, h3, h4, h1, ← h.now, true_and, upd_keep]
    rw [if_pos ht, if_pos h5]
    rfl
  refine ⟨_, hact, node_router h (k := { f.clk with check := upd f.clk.check t (f.ts.now + 1) }) (NetFrame.refl h.netCrashed)
    ⟨rfl, fun _ _ => rfl, fun _ _ => rfl, fun i hi => upd_ne _ _ _ _ hi⟩ ?_⟩
  exact { hT with check := (upd_same _ _ _).trans (by rw [h.now]) }

end Ramwich
