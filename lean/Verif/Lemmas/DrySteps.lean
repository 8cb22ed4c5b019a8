import Verif.Lemmas.DryCore
import Verif.Lemmas.DryCtrl
import Verif.Lemmas.DryNet

/-! # Moves of single processes -/
namespace Ramwich

open Pipeline (upd)
open Spec

/-- Some actions lead from `s` to `s'`. -/
def Reaches (cfg : SysCfg) (s s' : Sys) : Prop := ∃ as, s.run cfg as = some s'

theorem Reaches.refl (cfg : SysCfg) (s : Sys) : Reaches cfg s s := ⟨[], rfl⟩

theorem Reaches.trans {cfg : SysCfg} {s s1 s2 : Sys} (h : Reaches cfg s s1) (h' : Reaches cfg s1 s2) : Reaches cfg s s2 := by
  obtain ⟨as, h⟩ := h
  obtain ⟨bs, h'⟩ := h'
  exact ⟨as ++ bs, run_append_some h h'⟩

theorem Reaches.act {cfg : SysCfg} {s s' : Sys} {a : SysAct} (h : s.act cfg a = some s') : Reaches cfg s s' :=
  ⟨[a], by simp [Sys.run, h]⟩

/-- The node with tile `t` and the routers as given, not crashed. -/
def Sys.put (s : Sys) (t : Nat) (x : TileSt) (n : Net) : Sys := { tile := upd s.tile t x, net := n, crashed := none }

theorem put_tile (s : Sys) (t : Nat) (x : TileSt) (n : Net) : (s.put t x n).tile t = x := upd_same _ _ _

theorem upd_twice {β : Type} (f : Nat → β) (i : Nat) (a b : β) : upd (upd f i a) i b = upd f i b := by
  funext j
  by_cases hj : j = i
  · subst hj; rw [upd_same, upd_same]
  · rw [upd_ne _ _ _ _ hj, upd_ne _ _ _ _ hj, upd_ne _ _ _ _ hj]

theorem put_setTile (s : Sys) (t : Nat) (x y : TileSt) (n : Net) : (s.put t x n).setTile t y = s.put t y n := by
  unfold Sys.put Sys.setTile
  rw [upd_twice]

theorem put_self {s : Sys} (h : s.crashed = none) (t : Nat) : s.put t (s.tile t) s.net = s := by
  unfold Sys.put
  rw [upd_self, ← h]

theorem put_ctrlAct (cfg : SysCfg) (s : Sys) (t : Nat) (x : TileSt) (n : Net) {a : CtrlAct} {c : Ctrl} (g : Sys → Sys)
    (h : x.ctrl.act cfg.edramLat a = some c) (hc : c.crashed = none) :
    (s.put t x n).ctrlAct cfg t a g = some (g (s.put t { x with ctrl := c } n)) := by
  unfold Sys.ctrlAct
  rw [put_tile, h]
  dsimp only [Option.map_some]
  rw [hc]
  dsimp only
  rw [put_setTile]

theorem put_netAct (cfg : SysCfg) (s : Sys) (t : Nat) (x : TileSt) (n : Net) {a : NetAct} {n' : Net} (g : Sys → Sys)
    (h : n.act cfg.net a = some n') (hc : n'.crashed = none) :
    (s.put t x n).netAct cfg a g = some (g (s.put t x n')) := by
  unfold Sys.netAct
  rw [show (s.put t x n).net = n from rfl, h]
  dsimp only [Option.map_some]
  rw [hc]
  rfl

/-- A controller works. -/
theorem put_serve {cfg : SysCfg} (hi : Instant cfg) (s : Sys) {t : Nat} (ht : t < cfg.net.tiles) (n : Net)
    (as : List CtrlAct) (hnot : ∀ a ∈ as, match a with | .submit .. | .stop => False | _ => True) :
    ∀ {x : TileSt} {c : Ctrl}, x.ctrl.run 0 as = some c → c.crashed = none →
      Reaches cfg (s.put t x n) (s.put t { x with ctrl := c } n) := by
  induction as with
  | nil =>
    intro x c h _
    simp only [Ctrl.run, Option.some.injEq] at h
    subst h
    exact .refl _ _
  | cons a as ih =>
    intro x c h hc
    simp only [Ctrl.run] at h
    cases ha : x.ctrl.act 0 a with
    | none => rw [ha] at h; cases h
    | some c1 =>
      rw [ha] at h
      simp only [Option.bind_some] at h
      have hc1 : c1.crashed = none := by
        cases as with
        | nil => simp only [Ctrl.run, Option.some.injEq] at h; rw [h]; exact hc
        | cons b bs =>
          cases hcc : c1.crashed with
          | none => rfl
          | some e => simp [Ctrl.run, Ctrl.act, hcc] at h
      have h1 : Reaches cfg (s.put t x n) (s.put t { x with ctrl := c1 } n) := by
        refine .act (a := .ctrl t a) ?_
        unfold Sys.act
        rw [if_neg (by simp [Sys.put])]
        have hna := hnot a (List.mem_cons_self ..)
        have := put_ctrlAct cfg s t x n id (by rw [hi.edram]; exact ha) hc1
        cases a <;> first
          | exact hna.elim
          | (dsimp only; rw [if_pos ht]; exact this)
      exact h1.trans (ih (fun b hb => hnot b (List.mem_cons_of_mem _ hb)) (x := { x with ctrl := c1 }) h hc)

theorem serveActs_ok : ∀ a ∈ serveActs, match a with | .submit .. | .stop => False | _ => True := by
  intro a ha
  simp only [serveActs, List.mem_cons, List.not_mem_nil, or_false] at ha
  rcases ha with rfl | rfl | rfl | rfl <;> trivial

/-! ## Cores -/

/-- The tile with this controller and this core. -/
def TileSt.cc (x : TileSt) (c : Ctrl) (k : Nat) (y : CoreSt) : TileSt := { x with ctrl := c, core := upd x.core k y }

theorem cc_core (x : TileSt) (c : Ctrl) (k : Nat) (y : CoreSt) : (x.cc c k y).core k = y := upd_same _ _ _

theorem put_setCore (s : Sys) (t : Nat) (x : TileSt) (c : Ctrl) (k : Nat) (y z : CoreSt) (n : Net) :
    (s.put t (x.cc c k y) n).setCore t k z = s.put t (x.cc c k z) n := by
  unfold Sys.setCore
  rw [put_tile, put_setTile]
  unfold TileSt.cc
  rw [upd_twice]

theorem put_cc_self (x : TileSt) (k : Nat) : x.cc x.ctrl k (x.core k) = x := by
  unfold TileSt.cc
  rw [upd_self]

theorem core_act {cfg : SysCfg} (s : Sys) {t k : Nat} (ht : t < cfg.net.tiles) (hk : k < cfg.cores) (x : TileSt) (c : Ctrl)
    (y : CoreSt) (n : Net) {s' : Sys} (h : (s.put t (x.cc c k y) n).coreStep cfg t k = some s') :
    Reaches cfg (s.put t (x.cc c k y) n) s' :=
  .act (a := .core t k) (by rw [act_core_eq rfl ht hk]; exact h)

variable {cfg : SysCfg} {cc : Config} {p : CoreParams}

/-- Operations that stay inside the core. -/
def CoreOp.inner : CoreOp → Bool
  | .load .. | .store .. | .hlt => false
  | _ => true

theorem step_plain (hi : Instant cfg) (s : Sys) {t k : Nat} (ht : t < cfg.net.tiles) (hk : k < cfg.cores) (x : TileSt)
    (c : Ctrl) (n : Net) {y : CoreSt} {op : CoreOp} {rest : List CoreOp} {c1 : Core} (hop : op.inner = true)
    (hp : y.phase = .ready) (hq : y.prog = op :: rest)
    (he : y.core.execute cfg.fl (cfg.noise t k y.log.length) op = (.ok (), c1)) :
    ∃ log, Reaches cfg (s.put t (x.cc c k y) n) (s.put t (x.cc c k { core := c1, prog := rest, log := log }) n) := by
  have hne : op ≠ .hlt := by rintro rfl; cases hop
  refine ⟨y.log ++ [⟨op, 0, [], c1⟩], ?_⟩
  refine Reaches.trans (s1 := s.put t (x.cc c k { core := c1, prog := rest, phase := .timing, log := y.log ++ [⟨op, 0, [], c1⟩] }) n)
    (core_act s ht hk x c y n ?_) (core_act s ht hk x c _ n ?_)
  · unfold Sys.coreStep
    dsimp only
    rw [put_tile, cc_core, hp]
    dsimp only
    rw [hq]
    dsimp only
    unfold Sys.coreStart
    cases op <;> first
      | (cases hop; done)
      | (dsimp only
         rw [put_tile, cc_core, he]
         dsimp only
         rw [hi.exec, delay_ok (le_refl 0)]
         dsimp only
         rw [put_setCore, if_neg hne, if_neg hne])
  · unfold Sys.coreStep
    dsimp only
    rw [put_tile, cc_core]
    dsimp only
    rw [put_setCore]

theorem step_hlt (hi : Instant cfg) (s : Sys) {t k : Nat} (ht : t < cfg.net.tiles) (hk : k < cfg.cores) (x : TileSt)
    (c : Ctrl) (n : Net) {y : CoreSt} {rest : List CoreOp} (hp : y.phase = .ready) (hq : y.prog = .hlt :: rest) :
    ∃ z : CoreSt, z.phase = .halted ∧ Reaches cfg (s.put t (x.cc c k y) n) (s.put t (x.cc c k z) n) := by
  refine ⟨{ core := y.core, prog := [], phase := .halted, log := y.log ++ [⟨.hlt, 0, [], y.core⟩] }, rfl, ?_⟩
  refine Reaches.trans (s1 := s.put t (x.cc c k
    { core := y.core, prog := [], phase := .halting, log := y.log ++ [⟨.hlt, 0, [], y.core⟩] }) n)
    (core_act s ht hk x c y n ?_) (core_act s ht hk x c _ n ?_)
  · unfold Sys.coreStep
    dsimp only
    rw [put_tile, cc_core, hp]
    dsimp only
    rw [hq]
    dsimp only
    unfold Sys.coreStart
    dsimp only
    rw [put_tile, cc_core, show y.core.execute cfg.fl (cfg.noise t k y.log.length) .hlt = (.ok (), y.core) from rfl]
    dsimp only
    rw [hi.exec, delay_ok (le_refl 0)]
    dsimp only
    rw [put_setCore, if_pos rfl, if_pos rfl]
  · unfold Sys.coreStep
    dsimp only
    rw [put_tile, cc_core]
    dsimp only
    rw [put_setCore]

theorem cc_ctrl (x : TileSt) (c c' : Ctrl) (k : Nat) (y : CoreSt) :
    ({ x.cc c k y with ctrl := c' } : TileSt) = x.cc c' k y := rfl

theorem submit_act {c : Ctrl} (hc : c.crashed = none) (lat core start : Int) (kind : ReqKind) :
    c.act lat (.submit core start kind) = some (c.submit core start kind) := ctrl_act_alive hc _

/-- A load whose words are there. -/
theorem step_load (hi : Instant cfg) (s : Sys) {t k : Nat} (ht : t < cfg.net.tiles) (hk : k < cfg.cores) (x : TileSt)
    {size mask0 mask : Nat} {c : Ctrl} (hcq : CtrlQuiet size mask0 mask true c) (n : Net) {y : CoreSt}
    {dest read width vec : Int} {rest : List CoreOp} (hp : y.phase = .ready)
    (hq : y.prog = .load dest read width vec :: rest) {addr len : Nat} {c1 : Core}
    (ha : y.core.loadAddress read = (.ok (addr : Int), c1)) (hlen : (len : Int) = width * vec) (hpos : 0 < len)
    (hb : ∀ i, addr ≤ i → i < addr + len → mask.testBit i = true)
    (hf : ∀ data : List I32, data.length = len → ∃ c2, c1.loadFinish dest data = (.ok (), c2)) :
    ∃ c' data c2 log, data.length = len ∧ c1.loadFinish dest data = (.ok (), c2) ∧ CtrlQuiet size mask0 mask true c' ∧
      Reaches cfg (s.put t (x.cc c k y) n) (s.put t (x.cc c' k { core := c2, prog := rest, log := log }) n) := by
  obtain ⟨h1, c', data, h2, h3, h4, h5⟩ := serve_read hcq (k : Int) hlen hpos hb
  obtain ⟨c2, h6⟩ := hf data h5
  let y1 : CoreSt := { y with core := c1, prog := rest, phase := .loadWait c.submitted.length addr dest read width vec }
  let log := y.log ++ [⟨.load dest read width vec, addr, data, (c1.loadFinish dest data).2⟩]
  let y2 : CoreSt := { y1 with phase := .loadGot dest data, log := log }
  let y3 : CoreSt := { core := c2, prog := rest, log := log }
  refine ⟨c', data, c2, log, h5, h6, h3, ?_⟩
  have r1 : Reaches cfg (s.put t (x.cc c k y) n) (s.put t (x.cc (c.submit k addr (.read width vec)) k y1) n) := by
    refine core_act s ht hk x c y n ?_
    unfold Sys.coreStep
    dsimp only
    rw [put_tile, cc_core, hp]
    dsimp only
    rw [hq]
    dsimp only
    unfold Sys.coreStart
    dsimp only
    rw [put_tile, cc_core, ha]
    dsimp only
    rw [put_ctrlAct cfg s t (x.cc c k y) n _ (submit_act hcq.crashed _ _ _ _) h1, cc_ctrl]
    rw [put_setCore]
    rfl
  have r2 : Reaches cfg (s.put t (x.cc (c.submit k addr (.read width vec)) k y1) n) (s.put t (x.cc c' k y1) n) :=
    put_serve hi s ht n serveActs serveActs_ok (x := x.cc (c.submit k addr (.read width vec)) k y1) h2 h3.crashed
  have r3 : Reaches cfg (s.put t (x.cc c' k y1) n) (s.put t (x.cc c' k y2) n) := by
    refine core_act s ht hk x c' y1 n ?_
    unfold Sys.coreStep
    dsimp only
    rw [put_tile, cc_core]
    dsimp only [y1]
    rw [show (x.cc c' k _).ctrl = c' from rfl, h4]
    dsimp only
    rw [hi.data, zero_mul, delay_ok (le_refl 0)]
    dsimp only
    rw [put_setCore]
  have r4 : Reaches cfg (s.put t (x.cc c' k y2) n) (s.put t (x.cc c' k y3) n) := by
    refine core_act s ht hk x c' y2 n ?_
    unfold Sys.coreStep
    dsimp only
    rw [put_tile, cc_core]
    dsimp only [y2, y1]
    rw [h6]
    dsimp only
    rw [put_setCore]
  exact ((r1.trans r2).trans r3).trans r4

/-- A store to words that are not there. -/
theorem step_store (hi : Instant cfg) (s : Sys) {t k : Nat} (ht : t < cfg.net.tiles) (hk : k < cfg.cores) (x : TileSt)
    {size mask0 mask : Nat} {c : Ctrl} (hcq : CtrlQuiet size mask0 mask true c) (n : Net) {y : CoreSt}
    {dest read width vec : Int} {rest : List CoreOp} (hp : y.phase = .ready)
    (hq : y.prog = .store dest read width vec :: rest) {addr : Nat} {data : List I32} {c1 : Core}
    (ha : y.core.storeRequest dest read width vec = (.ok ((addr : Int), data), c1)) (hsz : addr + data.length ≤ size)
    (hb : ∀ i, addr ≤ i → i < addr + data.length → mask.testBit i = false) :
    ∃ c' log, CtrlQuiet size mask0 (mask ||| span addr data.length) true c' ∧
      Reaches cfg (s.put t (x.cc c k y) n) (s.put t (x.cc c' k { core := c1, prog := rest, log := log }) n) := by
  obtain ⟨h1, c', h2, h3, h4⟩ := serve_write hcq (k : Int) (rows := vec.toNat) hsz hb
  let log := y.log ++ [⟨.store dest read width vec, addr, data, c1⟩]
  let y1 : CoreSt := { core := c1, prog := rest, phase := .storeDelay addr data vec.toNat, log := log }
  let y2 : CoreSt := { y1 with phase := .storeWait c.submitted.length }
  let y3 : CoreSt := { core := c1, prog := rest, log := log }
  refine ⟨c', log, h3, ?_⟩
  have r1 : Reaches cfg (s.put t (x.cc c k y) n) (s.put t (x.cc c k y1) n) := by
    refine core_act s ht hk x c y n ?_
    unfold Sys.coreStep
    dsimp only
    rw [put_tile, cc_core, hp]
    dsimp only
    rw [hq]
    dsimp only
    unfold Sys.coreStart
    dsimp only
    rw [put_tile, cc_core, ha]
    dsimp only
    rw [hi.data, zero_mul, delay_ok (le_refl 0)]
    dsimp only
    rw [put_setCore]
  have r2 : Reaches cfg (s.put t (x.cc c k y1) n) (s.put t (x.cc (c.submit k addr (.write data vec.toNat)) k y2) n) := by
    refine core_act s ht hk x c y1 n ?_
    unfold Sys.coreStep
    dsimp only
    rw [put_tile, cc_core]
    dsimp only [y1]
    rw [put_ctrlAct cfg s t _ n _ (submit_act (c := (x.cc c k _).ctrl) hcq.crashed _ _ _ _) h1, cc_ctrl]
    rw [put_setCore]
    rfl
  have r3 : Reaches cfg (s.put t (x.cc (c.submit k addr (.write data vec.toNat)) k y2) n) (s.put t (x.cc c' k y2) n) :=
    put_serve hi s ht n serveActs serveActs_ok (x := x.cc (c.submit k addr (.write data vec.toNat)) k y2) h2 h3.crashed
  have r4 : Reaches cfg (s.put t (x.cc c' k y2) n) (s.put t (x.cc c' k y3) n) := by
    refine core_act s ht hk x c' y2 n ?_
    unfold Sys.coreStep
    dsimp only
    rw [put_tile, cc_core]
    dsimp only [y2, y1]
    rw [show (x.cc c' k _).ctrl = c' from rfl, h4, if_pos rfl, put_setCore]
  exact ((r1.trans r2).trans r3).trans r4

/-- What is left of a core program. -/
def CoreRel (cc : Config) (p : CoreParams) (fl : FloatActs) (evs : List MemEv) (y : CoreSt) : Prop :=
  (evs = [] ∧ y.phase = .halted) ∨
    (y.phase = .ready ∧ ∃ K, CoreKnown cc fl K y.core ∧ p.trace K y.prog = some evs)

/-- The core goes on to its next access to the DRAM. -/
theorem step_inner (hi : Instant cfg) (hpp : ParamsOf cc p) (he : Electrical cc.mvmuConfig) {lat dlat : Nat}
    (hlat : Latencies cc.mvmuConfig lat dlat) (s : Sys) {t k : Nat} (ht : t < cfg.net.tiles) (hk : k < cfg.cores)
    (x : TileSt) (c : Ctrl) (n : Net) {evs : List MemEv} (prog : List CoreOp) : ∀ (K : Known) (y : CoreSt), y.prog = prog →
      y.phase = .ready → CoreKnown cc cfg.fl K y.core → p.trace K y.prog = some evs →
      ∃ K' z op rest, z.phase = .ready ∧ CoreKnown cc cfg.fl K' z.core ∧ z.prog = op :: rest ∧ op.inner = false ∧
        p.trace K' z.prog = some evs ∧ Reaches cfg (s.put t (x.cc c k y) n) (s.put t (x.cc c k z) n) := by
  induction prog with
  | nil =>
    intro K y hy _ _ h
    rw [hy] at h
    cases h
  | cons op rest ih =>
    intro K y hy hph hK h
    cases hop : op.inner with
    | false => exact ⟨K, y, op, rest, hph, hK, hy, hop, h, .refl _ _⟩
    | true =>
      rw [hy] at h
      obtain ⟨K', c', h1, h2, h3⟩ := trace_plain hpp he hlat (cfg.noise t k y.log.length) hK h (by
        cases op <;> first | (cases hop; done) | trivial)
      obtain ⟨log, h4⟩ := step_plain hi s ht hk x c n hop hph hy h1
      obtain ⟨K'', z, op', rest', k1, k2, k3, k4, k5, k6⟩ := ih K' { core := c', prog := rest, log := log } rfl rfl h2 h3
      exact ⟨K'', z, op', rest', k1, k2, k3, k4, k5, h4.trans k6⟩

/-- A move of a core. -/
theorem move_core (hi : Instant cfg) (hpp : ParamsOf cc p) (he : Electrical cc.mvmuConfig) {lat dlat : Nat}
    (hlat : Latencies cc.mvmuConfig lat dlat) (s : Sys) {t k : Nat} (ht : t < cfg.net.tiles) (hk : k < cfg.cores)
    (x : TileSt) {size mask0 : Nat} {d : DryTile} {c : Ctrl} (hcq : CtrlQuiet size mask0 d.valid true c) (n : Net)
    {y : CoreSt} {e : MemEv} {evs : List MemEv} (hd : d.cores[k]? = some (e :: evs)) {d' : DryTile}
    (hm : d.coreMove size k = some d') (hy : CoreRel cc p cfg.fl (e :: evs) y) :
    ∃ c' z, Reaches cfg (s.put t (x.cc c k y) n) (s.put t (x.cc c' k z) n) ∧ CtrlQuiet size mask0 d'.valid true c' ∧
      CoreRel cc p cfg.fl evs z ∧ d' = { d with valid := d'.valid, cores := d.cores.set k evs } := by
  rcases hy with ⟨h0, -⟩ | ⟨hph, K, hK, htr⟩
  · cases h0
  obtain ⟨K', z, op, rest, k1, k2, k3, k4, k5, k6⟩ := step_inner hi hpp he hlat s ht hk x c n y.prog K y rfl hph hK htr
  rw [k3] at k5
  unfold DryTile.coreMove at hm
  rw [hd] at hm
  cases op with
  | load dest read width vec =>
    obtain ⟨a, len, c1, K2, evs', j1, j2, j3, j4, j5, j6, j7⟩ := trace_load hpp k2 k5
    injection j1 with j1 j1'
    subst j1; subst j1'
    dsimp only at hm
    split at hm
    · rename_i hhas
      injection hm with hm
      subst hm
      have hpos : 0 < len := by
        have := Int.mul_pos j3 j4
        omega
      obtain ⟨c', data, c2, log, l1, l2, l3, l4⟩ := step_load hi s ht hk x hcq n k1 k3 j5 j2 hpos (has_bit hhas)
        (fun data hdl => (j7 data hdl).imp fun _ h => h.1)
      obtain ⟨c2', m1, m2⟩ := j7 data l1
      rw [l2] at m1
      injection m1 with _ m1
      subst m1
      exact ⟨c', _, k6.trans l4, l3, .inr ⟨rfl, K2, m2, j6⟩, rfl⟩
    · cases hm
  | store dest read width vec =>
    obtain ⟨a, len, c1, data, evs', j1, j2, j3, j4, j5, j6, j7, j8⟩ := trace_store hpp k2 k5
    injection j1 with j1 j1'
    subst j1; subst j1'
    dsimp only at hm
    split at hm
    · rename_i hfree
      injection hm with hm
      subst hm
      rw [← j6] at hfree
      obtain ⟨c', log, l1, l2⟩ := step_store hi s ht hk x hcq n k1 k3 j5 hfree.1 (free_bit hfree)
      rw [j6] at l1
      exact ⟨c', _, k6.trans l2, l1, .inr ⟨rfl, K', j7, j8⟩, rfl⟩
    · cases hm
  | hlt =>
    simp only [CoreParams.trace, Option.some.injEq, List.cons.injEq] at k5
    obtain ⟨j1, j2⟩ := k5
    subst j1; subst j2
    injection hm with hm
    subst hm
    obtain ⟨z', l1, l2⟩ := step_hlt hi s ht hk x c n k1 k3
    exact ⟨c, z', k6.trans l2, hcq, .inl ⟨rfl, l1⟩, rfl⟩
  | set => cases k4
  | copy => cases k4
  | vfu => cases k4
  | mvm => cases k4

end Ramwich
