import Verif.Lemmas.WaitRun

/-! # A node in which nobody can move comes to rest -/
namespace Ramwich

open Pipeline (upd)
open Spec

variable {cfg : SysCfg} {cc : Config} {p : CoreParams} {size : Nat}

/-- The process of the tile has gone to the place where it waits for ever. -/
structure Settled (w : WaitTile) (x y : TileSt) : Prop where
  ctrl : y.ctrl = x.ctrl
  core : y.core = x.core
  proc : (y.phase = x.phase ∧ y.ops = x.ops ∧ (.tile ∈ w.waiting ∨ .tile ∉ w.waiting ∧ w.dry.ops = [])) ∨
    (∃ a b c d, y.phase = .recvWait a b c d []) ∨ (y.phase = .haltCores ∧ ∃ k, .core k ∈ w.waiting)

/-- A reader that has nothing. -/
def Reader.empty (r : Reader) : Prop := r = .idle ∨ ∃ src, r = .waiting src

theorem settle_tile (hi : Instant cfg) {s : Sys} (hcr : s.crashed = none) (hnc : s.net.crashed = none) {t : Nat}
    (ht : t < cfg.net.tiles) (hrd : s.net.reader t = .idle) {w : WaitTile} (h : TileRelW cfg cc p size t w (s.tile t))
    (hh : w.hangs cfg.net.tiles t) :
    ∃ y r, Reaches cfg s (s.put t y { s.net with reader := upd s.net.reader t r }) ∧ Settled w (s.tile t) y ∧ r.empty := by
  obtain ⟨-, hsv, -, hp⟩ := hh
  have hstay : ∀ hw : (.tile ∈ w.waiting ∨ .tile ∉ w.waiting ∧ w.dry.ops = []),
      ∃ y r, Reaches cfg s (s.put t y { s.net with reader := upd s.net.reader t r }) ∧ Settled w (s.tile t) y ∧ r.empty := by
    intro hw
    refine ⟨s.tile t, s.net.reader t, ?_, ⟨rfl, rfl, .inl ⟨rfl, rfl, hw⟩⟩, .inl hrd⟩
    rw [upd_self, put_self hcr]
    exact .refl _ _
  by_cases hw : .tile ∈ w.waiting
  · exact hstay (.inl hw)
  have hs : Proc.tile ∉ w.served := by rw [hsv]; exact List.not_mem_nil
  obtain ⟨hph, hxo⟩ := h.free _ hw hs
  rcases hp with hp | hp
  · exact absurd hp hw
  split at hp
  · rename_i hops
    exact hstay (.inr ⟨hw, hops⟩)
  · rename_i addr source width vec rest hops
    obtain ⟨c1, c2, c3, c4, c5⟩ := hp
    obtain ⟨src, rfl⟩ := Int.eq_ofNat_of_zero_le c1
    let n1 : Net := { s.net with reader := upd s.net.reader t (.waiting src) }
    have a1 : s.net.act cfg.net (.startRead t src) = some n1 := by
      rw [net_act_alive hnc _ (by exact ht)]
      dsimp only
      unfold Net.startRead
      rw [hrd]
      dsimp only
      rw [if_pos (by
        unfold NetConfig.hasBuffer
        rw [hi.nodes]
        simp
        omega), Int.toNat_natCast]
    refine ⟨{ s.tile t with ops := rest, phase := .recvWait addr src width vec [] }, .waiting src, ?_,
      ⟨rfl, rfl, .inr (.inl ⟨_, _, _, _, rfl⟩)⟩, .inr ⟨_, rfl⟩⟩
    have r1 : Reaches cfg (s.put t (s.tile t) s.net)
        (s.put t { s.tile t with ops := rest, phase := .recving addr src width vec [] } s.net) := by
      refine tile_act s ht (s.tile t) s.net ?_
      unfold Sys.tileStep
      dsimp only
      rw [put_tile, hph]
      dsimp only
      rw [hxo, hops]
      dsimp only
      unfold Sys.tileStart
      dsimp only
      rw [if_neg (by omega), put_tile, put_setTile]
    have r2 : Reaches cfg (s.put t { s.tile t with ops := rest, phase := .recving addr src width vec [] } s.net)
        (s.put t { s.tile t with ops := rest, phase := .recvWait addr src width vec [] } n1) := by
      refine tile_act s ht _ s.net ?_
      unfold Sys.tileStep
      dsimp only
      rw [put_tile]
      dsimp only
      rw [if_pos (by simpa using c5), put_netAct cfg s t _ s.net _ a1 hnc, put_setPhase]
    have r3 := r1.trans r2
    rw [put_self hcr] at r3
    exact r3
  · rename_i rest hops
    obtain ⟨k, -, hk⟩ := hp
    refine ⟨{ s.tile t with ops := rest, phase := .haltCores }, s.net.reader t, ?_,
      ⟨rfl, rfl, .inr (.inr ⟨rfl, k, hk⟩)⟩, .inl hrd⟩
    rw [upd_self]
    have r1 : Reaches cfg (s.put t (s.tile t) s.net) (s.put t { s.tile t with ops := rest, phase := .haltCores } s.net) := by
      refine tile_act s ht (s.tile t) s.net ?_
      unfold Sys.tileStep
      dsimp only
      rw [put_tile, hph]
      dsimp only
      rw [hxo.trans hops]
      dsimp only
      unfold Sys.tileStart
      dsimp only
      rw [put_tile, put_setTile]
    rw [put_self hcr] at r1
    exact r1
  · exact hp.elim

theorem settle {d : List WaitTile} {s : Sys} (hi : Instant cfg) (h : SysRelW cfg cc p size d s) (hh : hung d) (m : Nat)
    (hm : m ≤ cfg.net.tiles) :
    ∃ s' rd, Reaches cfg s s' ∧ s'.crashed = none ∧ s'.net = { s.net with reader := rd } ∧ (∀ t, (rd t).empty) ∧
      (∀ t, m ≤ t → rd t = .idle ∧ s'.tile t = s.tile t) ∧
      ∀ t < m, ∀ x, d[t]? = some x → Settled x (s.tile t) (s'.tile t) := by
  induction m with
  | zero =>
    exact ⟨s, s.net.reader, .refl _ _, h.crashed, rfl, fun t => .inl (h.net.reader t), fun t _ => ⟨h.net.reader t, rfl⟩,
      fun t ht => absurd ht (by omega)⟩
  | succ m ih =>
    obtain ⟨s', rd, g1, g2, g3, g4, g5, g6⟩ := ih (by omega)
    have hml : m < cfg.net.tiles := by omega
    obtain ⟨x, hx, hxh⟩ := hh.1 m (by rw [h.len]; exact hml)
    have hx : d[m]? = some x := hx
    rw [h.len] at hxh
    obtain ⟨e1, e2⟩ := g5 m (le_refl _)
    have hT := h.tile m x hx
    rw [← e2] at hT
    obtain ⟨y, r, k1, k2, k3⟩ := settle_tile hi g2 (by rw [g3]; exact h.net.crashed) hml (by rw [g3]; exact e1) hT hxh
    refine ⟨_, upd rd m r, g1.trans k1, rfl, ?_, ?_, ?_, ?_⟩
    · show ({ s'.net with reader := upd s'.net.reader m r } : Net) = _
      rw [g3]
    · intro t
      by_cases e : t = m
      · subst e; rw [upd_same]; exact k3
      · rw [upd_ne _ _ _ _ e]; exact g4 t
    · intro t ht
      have e : t ≠ m := by omega
      refine ⟨by rw [upd_ne _ _ _ _ e]; exact (g5 t (by omega)).1, ?_⟩
      show upd s'.tile m y t = _
      rw [upd_ne _ _ _ _ e]
      exact (g5 t (by omega)).2
    · intro t ht z hz
      by_cases e : t = m
      · subst e
        rw [hx] at hz
        injection hz with hz
        subst hz
        rw [put_tile, ← e2]
        exact k2
      · show Settled z _ (upd s'.tile m y t)
        rw [upd_ne _ _ _ _ e]
        exact g6 t (by omega) z hz

/-- A process that waits. -/
theorem waits {t : Nat} {x : WaitTile} {y : TileSt} (h : TileRelW cfg cc p size t x y) {q : Proc} (hq : q ∈ x.waiting) :
    ∃ r ∈ y.ctrl.pending, Asks cfg cc p t x.dry y q r ∧ readAnswer r.id y.ctrl.answers = none ∧
      x.dry.canHave q = ready y.ctrl.valid r := by
  obtain ⟨P, hC, hF⟩ := h.ctrl
  obtain ⟨r, hr, ha⟩ := forall_mem hF hq
  refine ⟨r, by rw [hC.pending]; exact hr, ha, (hC.fresh r hr).2, asks_ready ha (hC.ok r hr) rfl hC.vlen hC.bits⟩

/-- From a state in which nobody can move the node comes to rest, and no further. -/
theorem hung_end {d : List WaitTile} {s : Sys} (hi : Instant cfg) (h : SysRelW cfg cc p size d s) (hh : hung d) :
    ∃ s', Reaches cfg s s' ∧ s'.crashed = none ∧ s'.stuck cfg = true ∧ ¬finished cfg s' ∧ strandedRead cfg s' := by
  obtain ⟨s', rd, g1, g2, g3, g4, -, g6⟩ := settle hi h hh _ (le_refl _)
  have key : ∀ t < cfg.net.tiles, ∃ x, d[t]? = some x ∧ x.hangs cfg.net.tiles t ∧ TileRelW cfg cc p size t x (s.tile t) ∧
      Settled x (s.tile t) (s'.tile t) := by
    intro t ht
    obtain ⟨x, hx, hxh⟩ := hh.1 t (by rw [h.len]; exact ht)
    have hx : d[t]? = some x := hx
    rw [h.len] at hxh
    exact ⟨x, hx, hxh, h.tile t x hx, g6 t ht x hx⟩
  have hsome : ∃ t < cfg.net.tiles, ∃ x, d[t]? = some x ∧ ∃ w ∈ x.waiting, x.dry.canHave w = true := by
    obtain ⟨x, hx, w, hw, hcw⟩ := hh.2
    obtain ⟨t, ht⟩ := List.mem_iff_getElem?.1 hx
    exact ⟨t, by rw [← h.len]; exact lt_of_some ht, x, ht, w, hw, hcw⟩
  refine ⟨s', g1, g2, ?_, ?_, ?_⟩
  · unfold Sys.stuck
    rw [List.all_eq_true]
    intro t ht
    obtain ⟨x, h1, ⟨h2, h3, h4, h5⟩, hT, hS⟩ := key t (List.mem_range.1 ht)
    obtain ⟨P, hC, hF⟩ := hT.ctrl
    have hq : s'.net.queue t = [] := by
      have := h.net.queue t
      rw [outsOf_some (map_dry h1), h2] at this
      rw [g3]
      exact List.map_eq_nil_iff.1 this
    have hth : s'.net.thread cfg.net t = none := by
      unfold Net.thread
      split
      · rfl
      · rw [show s'.net.sender t = .idle by rw [g3]; exact h.net.sender t]
        dsimp only
        rw [hq]
    have hrd : (s'.net.reader t).empty := by rw [g3]; exact g4 t
    have htk : s'.net.take t = none := by
      unfold Net.take
      rcases hrd with e | ⟨src, e⟩
      · rw [e]
      · rw [e]
        dsimp only
        rw [show s'.net.buf t src = [] by rw [g3]; exact h.net.buf t src]
    have hcores : ∀ k < cfg.cores, ((s'.tile t).core k).stuck (s'.tile t).ctrl = true := by
      intro k hk
      rw [hS.core, hS.ctrl]
      unfold CoreSt.stuck
      by_cases hw : .core k ∈ x.waiting
      · obtain ⟨r, -, ⟨a, n, evs, dest, read, width, vec, K, -, e2, -⟩, e3, -⟩ := waits hT hw
        rw [e2]
        dsimp only
        rw [e3]
        rfl
      · have e := (h4 k (by rw [hT.len]; exact hk)).resolve_right hw
        rcases hT.free (.core k) hw (by rw [h3]; exact List.not_mem_nil) _ e with ⟨-, e2⟩ | ⟨-, K, -, e2⟩
        · rw [e2]
        · exact absurd e2 (trace_ne_nil p _ K)
    have hts : s'.tileStuck cfg t = true := by
      unfold Sys.tileStuck
      rcases hS.proc with ⟨e1, e2, e3⟩ | ⟨a, b, c, e, e1⟩ | ⟨e1, k, hk⟩
      · rcases e3 with e3 | ⟨e3, e4⟩
        · obtain ⟨r, -, ⟨_, _, _, _, _, -, -, -, -, -, -, f1, -⟩, f2, -⟩ := waits hT e3
          rw [e1, f1]
          dsimp only
          rw [hS.ctrl, f2]
          rfl
        · obtain ⟨f1, f2⟩ := hT.free .tile e3 (by rw [h3]; exact List.not_mem_nil)
          rw [e1, f1]
          dsimp only
          rw [e2, f2, e4]
          rfl
      · rw [e1]
        dsimp only
        rcases hrd with f | ⟨src, f⟩ <;> rw [f]
      · rw [e1]
        dsimp only
        obtain ⟨r, -, ⟨a, n, evs, dest, read, width, vec, K, f1, f2, -⟩, -⟩ := waits hT hk
        have hkl : k < cfg.cores := by rw [← hT.len]; exact lt_of_some f1
        rw [Bool.not_eq_true', ← Bool.not_eq_true]
        unfold Sys.coresHalted
        rw [List.all_eq_true]
        intro hall
        have := hall k (List.mem_range.2 hkl)
        rw [hS.core, f2] at this
        cases this
    rw [hth, htk, hts, hS.ctrl, hC.queue, hC.handed, hC.bus]
    simp only [List.isEmpty_nil, Option.isNone_none, Bool.and_self, Bool.true_and, List.all_eq_true]
    intro k hk
    rw [← hS.ctrl]
    exact hcores k (List.mem_range.1 hk)
  · intro hf
    obtain ⟨t, ht, x, hx, w, hw, -⟩ := hsome
    obtain ⟨x', h1, -, hT, hS⟩ := key t ht
    rw [hx] at h1
    injection h1 with h1
    subst h1
    obtain ⟨f1, -, f2⟩ := hf.2 t ht
    obtain ⟨r, -, ha, -, -⟩ := waits hT hw
    cases w with
    | core k =>
      obtain ⟨a, n, evs, dest, read, width, vec, K, e1, e2, -⟩ := ha
      have hkl : k < cfg.cores := by rw [← hT.len]; exact lt_of_some e1
      have := f2 k hkl
      rw [hS.core, e2] at this
      rcases this with e | ⟨e, -⟩ <;> cases e
    | tile =>
      obtain ⟨_, _, _, _, _, -, -, -, -, -, -, e, -⟩ := ha
      rcases hS.proc with ⟨e1, -⟩ | ⟨_, _, _, _, e1⟩ | ⟨e1, -⟩
      · rw [e1, e] at f1; cases f1
      · rw [e1] at f1; cases f1
      · rw [e1] at f1; cases f1
  · obtain ⟨t, ht, x, hx, w, hw, hcw⟩ := hsome
    obtain ⟨x', h1, -, hT, hS⟩ := key t ht
    rw [hx] at h1
    injection h1 with h1
    subst h1
    obtain ⟨r, hr, -, -, e⟩ := waits hT hw
    refine ⟨t, ht, r, by rw [hS.ctrl]; exact hr, ?_⟩
    rw [hS.ctrl, ← e]
    exact hcw

/-- A check that finds a hang: there is a run that ends in it. -/
theorem hangs_run {c : Config} (hs : Simulable c) (hb : c.build = .ok cc)
    (hp : 0 < cc.mvmuConfig.xbarSize * cc.numMvmusPerCore) (sig tanh : Int → Int) {valid : Nat → Nat}
    {moves : List WaitMove} {i : SysInit} (h0 : i.ok) (hsz : ∀ t < cfg.net.tiles, (i.mem t).size = size)
    (hv : ∀ t < cfg.net.tiles, ∀ a, (i.valid t).getD a false = (valid t).testBit a)
    (hc : ∀ t < cfg.net.tiles, ∀ k < cfg.cores, ∃ fl hist, i.core t k = (Core.new cc).after fl hist)
    (ha : hangsWith (coreParamsOf cc sig tanh) size cfg.net.tiles cfg.cores valid i.prog i.ops moves) :
    ∃ as F, i.start.run cfg.instant as = some F ∧ F.crashed = none ∧ atRest cfg.instant F ∧ ¬finished cfg.instant F ∧
      strandedRead cfg.instant F := by
  obtain ⟨d', hd', hh⟩ := ha
  obtain ⟨d, hd, hr⟩ := Option.bind_eq_some_iff.1 hd'
  have h1 : SysRel cfg.instant cc (coreParamsOf cc sig tanh) size valid d i.start :=
    dry_start (cfg := cfg.instant) h0 hsz hv (fun t ht k hk => by
      obtain ⟨fl, hist, e⟩ := hc t ht k hk
      rw [e]
      exact coreOk_after c cc fl hs hb hp hist) hd
  obtain ⟨F, r1, k⟩ := wait_run (instant_ok cfg) ⟨rfl, rfl, rfl⟩ (electrical_of c cc hs hb)
    (latencies_of c cc hs hb) moves (wait_start h1) hr
  obtain ⟨F', r2, e1, e2, e3, e4⟩ := hung_end (instant_ok cfg) k hh
  obtain ⟨as, r⟩ := r1.trans r2
  exact ⟨as, F', r, e1, atRest_of_stuck e2, e3, e4⟩

end Ramwich
