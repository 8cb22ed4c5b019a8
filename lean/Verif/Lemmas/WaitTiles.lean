import Verif.Lemmas.WaitCores

/-! # Moves of tile processes of tiles with processes that wait -/
namespace Ramwich

open Pipeline (upd)
open Spec

variable {cfg : SysCfg} {cc : Config} {p : CoreParams}

/-- The tile submits the read of its Send. -/
theorem send_ask (s : Sys) {t : Nat} (ht : t < cfg.net.tiles) {addr : Nat} {target width vec : Int}
    {x : TileSt} (hcr : x.ctrl.crashed = none) {rest : List TileOp} (hp : x.phase = .ready)
    (hq : x.ops = .send addr target width vec :: rest) (n : Net)
    (g1 : (x.ctrl.submit (-1) addr (.read width vec)).crashed = none) :
    Reaches cfg (s.put t x n) (s.put t { x with
        ctrl := x.ctrl.submit (-1) addr (.read width vec), ops := rest,
        phase := .sendWait x.ctrl.submitted.length addr target width vec } n) := by
  refine tile_act s ht x n ?_
  unfold Sys.tileStep
  dsimp only
  rw [put_tile, hp]
  dsimp only
  rw [hq]
  dsimp only
  unfold Sys.tileStart
  dsimp only
  rw [put_ctrlAct cfg s t x n _ (submit_act hcr _ _ _ _) g1, put_tile, put_tile, put_setTile]

/-- The tile goes on with the words of its Send. -/
theorem send_resume (hi : Instant cfg) (s : Sys) {t : Nat} (ht : t < cfg.net.tiles) {target width vec addr : Int}
    (h1 : 0 ≤ target) (h2 : target < cfg.net.tiles) (h3 : target ≠ t) (hw : 0 < width) (hv : 0 < vec)
    {ups : Nat → Bool} (hu : ups t = true) {x : TileSt} {id : Nat} (hp : x.phase = .sendWait id addr target width vec)
    {data : List I32} (g4 : readAnswer id x.ctrl.answers = some data) (g5 : (data.length : Int) = width * vec)
    {outs : Nat → List (Nat × Nat)} {n : Net} (hn : NetRest cfg.net.tiles outs ups n) :
    ∃ log n', Reaches cfg (s.put t x n) (s.put t { x with log := log, phase := .ready } n') ∧
      NetRest cfg.net.tiles (upd outs t (outs t ++ List.replicate vec.toNat (target.toNat, width.toNat))) ups n' := by
  have g5 : data.length = width.toNat * vec.toNat := by
    rw [← Int.toNat_mul hw.le hv.le, ← g5, Int.toNat_natCast]
  obtain ⟨q1, q2⟩ := reshape_lengths g5
  let rows := reshape vec.toNat width.toNat data
  let log := x.log ++ [.sent addr target width vec rows]
  obtain ⟨n', b1, b2⟩ := send_rows hi s ht h1 h2 h3 hu { x with log := log } rows q2 hn
  refine ⟨log, n', ?_, by rw [← q1]; exact b2⟩
  refine Reaches.trans (tile_act s ht _ n ?_) b1
  unfold Sys.tileStep
  dsimp only
  rw [put_tile, hp]
  dsimp only
  rw [g4]
  dsimp only
  rw [if_neg (by omega), put_logPhase]

theorem same_tile {d d' : DryTile} {x x' : TileSt} (hd : d'.cores = d.cores) (hx : x'.core = x.core) :
    Same .tile d d' x x' :=
  ⟨fun h => absurd rfl h, fun k _ => ⟨by rw [hd], by rw [hx]⟩⟩

theorem tile_up {d : DryTile} {op : TileOp} {rest : List TileOp} (hd : d.ops = op :: rest)
    (h : d.up = false → d.ops = [] ∧ d.out = [] ∧ ∀ c ∈ d.cores, c = []) : d.up = true := by
  cases hu : d.up with
  | true => rfl
  | false => rw [(h hu).1] at hd; cases hd

variable {size t : Nat} {w : WaitTile} {s : Sys} {outs : Nat → List (Nat × Nat)} {ups : Nat → Bool}

/-- A Send whose words are there. -/
theorem wait_send (hi : Instant cfg) (hcr : s.crashed = none) (ht : t < cfg.net.tiles)
    (h : TileRelW cfg cc p size t w (s.tile t)) (hq : .tile ∉ w.waiting) (hs : .tile ∉ w.served)
    (hn : NetRest cfg.net.tiles outs ups s.net) (hu : ups t = w.dry.up) {addr : Nat} {target width vec : Int} {rest : List TileOp}
    (hops : w.dry.ops = .send addr target width vec :: rest) (h1 : 0 ≤ target) (h2 : target < cfg.net.tiles) (h3 : target ≠ t)
    (hw : 0 < width) (hv : 0 < vec) (hhas : w.dry.has addr (width * vec).toNat) :
    ∃ x' n', Reaches cfg s (s.put t x' n') ∧ TileRelW cfg cc p size t (w.after { w.dry with
        ops := rest, out := w.dry.out ++ List.replicate vec.toNat (target.toNat, width.toNat) }) x' ∧
      NetRest cfg.net.tiles (upd outs t (outs t ++ List.replicate vec.toNat (target.toNat, width.toNat))) ups n' := by
  have hup := tile_up hops h.down
  obtain ⟨P, hC, hF⟩ := h.ctrl
  rw [hup] at hC hu
  obtain ⟨hph, hxo⟩ := h.free _ hq hs
  have hpos := Int.mul_pos hw hv
  have hsz : addr + (width * vec).toNat ≤ size := by
    have := hC.bound (addr + (width * vec).toNat - 1) (has_bit hhas _ (by omega) (by omega))
    omega
  obtain ⟨r, q1, q2, q3, q4, q5⟩ := submit_read hC (-1) (n := (width * vec).toNat) (width := width) (vec := vec) (by omega)
    (by omega) hsz
  obtain ⟨c', data, b1, b2, b3, b4, ⟨bs, b5⟩, -⟩ := serve_next q4 ((ready_iff q4.vlen q4.bits q2 q3 hsz).2 (has_bit hhas))
  have r1 := send_ask s ht hC.crashed hph (hxo.trans hops) s.net q4.crashed
  have r2 := put_serve hi s ht s.net serveActs quiet_serve (x := { s.tile t with
        ctrl := (s.tile t).ctrl.submit (-1) addr (.read width vec), ops := rest,
        phase := .sendWait (s.tile t).ctrl.submitted.length addr target width vec }) b1 b2.crashed
  rw [q1] at b3
  obtain ⟨log, n', r3, b6⟩ := send_resume hi s ht h1 h2 h3 hw hv hu (x := { s.tile t with
        ctrl := c', ops := rest,
        phase := .sendWait (s.tile t).ctrl.submitted.length addr target width vec }) rfl b3 (by omega) hn
  rw [put_self hcr] at r1
  refine ⟨_, n', r1.trans (r2.trans r3), h.move hq hs (same_tile rfl rfl) rfl ⟨rfl, rfl⟩ rfl ?_ hF ?_ ⟨bs, ?_⟩, b6⟩
  · intro hu
    dsimp only at hu
    rw [hup] at hu
    cases hu
  · dsimp only; rw [hup]; exact b2
  · rw [← q5]; exact b5

/-- A Send has to wait. -/
theorem ask_tile (hi : Instant cfg) (hcr : s.crashed = none) (ht : t < cfg.net.tiles)
    (h : TileRelW cfg cc p size t w (s.tile t)) (hq : .tile ∉ w.waiting) (hs : .tile ∉ w.served)
    {addr : Nat} {target width vec : Int} {rest : List TileOp}
    (hops : w.dry.ops = .send addr target width vec :: rest) (h1 : 0 ≤ target) (h2 : target < cfg.net.tiles) (h3 : target ≠ t)
    (hw : 0 < width) (hv : 0 < vec) (hno : ¬w.dry.has addr (width * vec).toNat) (hsz : addr + (width * vec).toNat ≤ size) :
    ∃ x', Reaches cfg s (s.put t x' s.net) ∧ TileRelW cfg cc p size t { w with waiting := w.waiting ++ [.tile] } x' := by
  have hup := tile_up hops h.down
  obtain ⟨P, hC, hF⟩ := h.ctrl
  rw [hup] at hC
  obtain ⟨hph, hxo⟩ := h.free _ hq hs
  have hpos := Int.mul_pos hw hv
  obtain ⟨r, q1, q2, q3, q4, q5⟩ := submit_read hC (-1) (n := (width * vec).toNat) (width := width) (vec := vec) (by omega)
    (by omega) hsz
  have hnr : ready ((s.tile t).ctrl.submit (-1) addr (.read width vec)).valid r = false := by
    rw [Bool.eq_false_iff]
    intro hr
    exact hno ((has_iff _ _ _).2 ((ready_iff q4.vlen q4.bits q2 q3 hsz).1 hr))
  obtain ⟨c', b1, b2, b3⟩ := serve_wait q4 hnr
  have r1 := send_ask s ht hC.crashed hph (hxo.trans hops) s.net q4.crashed
  have r2 := put_serve hi s ht s.net [.pick, .dispatch] (by
    intro a ha
    simp only [List.mem_cons, List.not_mem_nil, or_false] at ha
    rcases ha with rfl | rfl <;> trivial) (x := { s.tile t with
        ctrl := (s.tile t).ctrl.submit (-1) addr (.read width vec), ops := rest,
        phase := .sendWait (s.tile t).ctrl.submitted.length addr target width vec }) b1 b2.crashed
  rw [put_self hcr] at r1
  refine ⟨_, r1.trans r2, h.ask hq hs (same_tile rfl rfl) (P := P) (r := r) hF ?_ ?_ ⟨[], ?_⟩⟩
  · exact ⟨addr, target, width, vec, rest, hops, h1, h2, h3, hw, hv, by rw [q1], rfl, q2, by rw [q3]; omega⟩
  · rw [hup]; exact b2
  · rw [List.append_nil, ← q5]; exact b3

/-- A Send goes on. -/
theorem resume_tile (hi : Instant cfg) (hcr : s.crashed = none) (ht : t < cfg.net.tiles)
    (h : TileRelW cfg cc p size t w (s.tile t)) (hs : .tile ∈ w.served)
    (hn : NetRest cfg.net.tiles outs ups s.net) (hu : ups t = w.dry.up) (ho : outs t = w.dry.out)
    {d' : DryTile} (hm : w.dry.resume .tile = some d') :
    ∃ x' n', Reaches cfg s (s.put t x' n') ∧
      TileRelW cfg cc p size t { w with dry := d', served := w.served.erase .tile } x' ∧
      NetRest cfg.net.tiles (upd outs t d'.out) ups n' ∧ d'.up = w.dry.up := by
  obtain ⟨r, data, ⟨addr, target, width, vec, rest, g1, g2, g3, g4, g5, g6, g7, g8, g9, g10⟩, g11, g12⟩ := h.served _ hs
  have hup := tile_up g1 h.down
  rw [hup] at hu
  unfold DryTile.resume at hm
  dsimp only at hm
  rw [g1] at hm
  injection hm with hm
  subst hm
  obtain ⟨log, n', r1, b6⟩ := send_resume hi s ht g2 g3 g4 g5 g6 hu g7 g11 (by rw [g12, g10]) hn
  rw [put_self hcr] at r1
  refine ⟨_, n', r1, h.resume hs (same_tile rfl rfl) rfl ⟨rfl, g8⟩ rfl rfl ?_ rfl, by rw [ho] at b6; exact b6, rfl⟩
  intro hu
  dsimp only at hu
  rw [hup] at hu
  cases hu

/-- A Recv whose rows have been sent. -/
theorem wait_recv (hi : Instant cfg) (hcr : s.crashed = none) (ht : t < cfg.net.tiles)
    (h : TileRelW cfg cc p size t w (s.tile t)) (hq : .tile ∉ w.waiting) (hs : .tile ∉ w.served)
    (hn : NetRest cfg.net.tiles outs ups s.net) {src : Nat} (hsrc : src < cfg.net.tiles) (hne : src ≠ t) (hu : ups src = true)
    {addr wd vec : Nat} {rest : List TileOp} (hops : w.dry.ops = .receive addr src wd vec :: rest) (hpos : 0 < wd * vec)
    (hfree : w.dry.free size addr (wd * vec))
    {left : List (Nat × Nat)} (ho : outs src = List.replicate vec (t, wd) ++ left) :
    ∃ x' n', Reaches cfg s (s.put t x' n') ∧ TileRelW cfg cc p size t (w.after { w.dry with
        ops := rest, valid := w.dry.valid ||| span addr (wd * vec) }) x' ∧
      NetRest cfg.net.tiles (upd outs src left) ups n' := by
  have hup := tile_up hops h.down
  obtain ⟨P, hC, hF⟩ := h.ctrl
  rw [hup] at hC
  obtain ⟨hph, hxo⟩ := h.free _ hq hs
  obtain ⟨n', got, log, b1, b2, b3, b4⟩ := recv_rows hi s ht hsrc hne hu (addr := addr) vec (x := { s.tile t with ops := rest })
    (got := []) (w := wd) (vec := vec) (by simp) (by simp) ho hn
  have hfl : got.flatten.length = wd * vec := by rw [flatten_rows b2, b1]
  obtain ⟨g1, acts, c', valid', g2, g3, g4, g5, g6, g7, g8, g9⟩ := serve_store hC (-1) (addr := addr) (data := got.flatten)
    (rows := vec) (by rw [hfl]; exact hfree.1)
  rw [hfl] at g5 g6
  let log' := log ++ [.received addr src wd vec got]
  have r1 : Reaches cfg (s.put t (s.tile t) s.net)
      (s.put t { s.tile t with ops := rest, phase := .recving addr src wd vec [] } s.net) := by
    refine tile_act s ht (s.tile t) s.net ?_
    unfold Sys.tileStep
    dsimp only
    rw [put_tile, hph]
    dsimp only
    rw [hxo, hops]
    dsimp only
    unfold Sys.tileStart
    dsimp only
    rw [if_neg (by omega), put_tile, put_setTile]
  have r2 : Reaches cfg (s.put t { s.tile t with ops := rest, phase := .recving addr src wd vec got, log := log } n')
      (s.put t { s.tile t with
        ctrl := (s.tile t).ctrl.submit (-1) addr (.write got.flatten vec), ops := rest,
        phase := .recvWrite (s.tile t).ctrl.submitted.length, log := log' } n') := by
    refine tile_act s ht _ n' ?_
    unfold Sys.tileStep
    dsimp only
    rw [put_tile]
    dsimp only
    rw [if_neg (by omega), Int.toNat_natCast, put_ctrlAct cfg s t
      { s.tile t with ops := rest, phase := .recving addr src wd vec got, log := log } n' _
      (submit_act (c := (s.tile t).ctrl) hC.crashed _ _ _ _) g1,
      put_logPhase]
  have r3 := put_serve hi s ht n' acts g2 (x := { s.tile t with
        ctrl := (s.tile t).ctrl.submit (-1) addr (.write got.flatten vec), ops := rest,
        phase := .recvWrite (s.tile t).ctrl.submitted.length, log := log' }) g3 g6.crashed
  have r4 : Reaches cfg (s.put t { s.tile t with
        ctrl := c', ops := rest, phase := .recvWrite (s.tile t).ctrl.submitted.length, log := log' } n')
      (s.put t { s.tile t with ctrl := c', ops := rest, log := log', phase := .ready } n') := by
    refine tile_act s ht _ n' ?_
    unfold Sys.tileStep
    dsimp only
    rw [put_tile]
    dsimp only
    rw [g7, if_pos rfl, put_setPhase]
  have r5 := (r1.trans b3).trans (r2.trans (r3.trans r4))
  rw [put_self hcr] at r5
  refine ⟨_, n', r5, h.write hq hs (same_tile rfl rfl) rfl ⟨rfl, rfl⟩ (valid_grows hpos (free_bit hfree)) ?_
    (fun r hr => hC.ok r hr) hF g4 g5 ?_ g8 g9, b4⟩
  · intro hu
    dsimp only at hu
    rw [hup] at hu
    cases hu
  · dsimp only; rw [hup]; exact g6

/-- The Halt of a tile whose cores have ended. -/
theorem wait_halt (hcr : s.crashed = none) (ht : t < cfg.net.tiles)
    (h : TileRelW cfg cc p size t w (s.tile t)) (hq : .tile ∉ w.waiting) (hs : .tile ∉ w.served)
    (hn : NetRest cfg.net.tiles outs ups s.net) (hu : ups t = w.dry.up) (ho : outs t = w.dry.out)
    (hops : w.dry.ops = [.halt]) (hout : w.dry.out = []) (hk : ∀ c ∈ w.dry.cores, c = []) :
    ∃ x' n', Reaches cfg s (s.put t x' n') ∧ TileRelW cfg cc p size t (w.after { w.dry with ops := [], up := false }) x' ∧
      NetRest cfg.net.tiles outs (upd ups t false) n' := by
  have hup := tile_up hops h.down
  obtain ⟨P, hC, hF⟩ := h.ctrl
  have hno : ∀ q r, ¬Asks cfg cc p t w.dry (s.tile t) q r := by
    intro q r ha
    cases q with
    | tile => obtain ⟨_, _, _, _, _, e, -⟩ := ha; rw [hops] at e; cases e
    | core k => obtain ⟨_, _, _, _, _, _, _, _, e, -⟩ := ha; cases hk _ (List.mem_of_getElem? e)
  have hP : ∀ l, List.Forall₂ (Asks cfg cc p t w.dry (s.tile t)) l P → P = [] ∧ l = [] := by
    intro l hl
    cases hl with
    | nil => exact ⟨rfl, rfl⟩
    | cons h1 _ => exact absurd h1 (hno _ _)
  have hserved : w.served = [] := by
    cases hh : w.served with
    | nil => rfl
    | cons q _ =>
      obtain ⟨r, _, ha, -⟩ := h.served q (by rw [hh]; exact List.mem_cons_self ..)
      exact absurd ha (hno _ _)
  obtain ⟨rfl, hw⟩ := hP _ hF
  rw [hup] at hC hu
  obtain ⟨hph, hxo⟩ := h.free _ hq hs
  obtain ⟨n1, n2, n3, a1, a2, a3, a4, a5, a6, a7, a8, a9⟩ := net_halt hn ht hu (ho.trans hout)
  let x := s.tile t
  let c' : Ctrl := { x.ctrl with
      running := false, handlerAlive := false
      stats := { x.ctrl.stats with
        activeCycles := x.ctrl.stats.activeCycles + (x.ctrl.now - x.ctrl.startTime : Int) } }
  have hstop : x.ctrl.act cfg.edramLat .stop = some c' := by
    rw [ctrl_act_alive hC.crashed]
    dsimp only
    unfold Ctrl.stop
    rw [if_neg (by rw [hC.running]; simp)]
    dsimp only
    rw [if_pos hC.pending]
  have hcores : ∀ k < cfg.cores, (x.core k).phase = .halted := by
    intro k hk'
    have hkl : k < w.dry.cores.length := by rw [h.len]; exact hk'
    have e := List.getElem?_eq_getElem hkl
    have e2 := hk _ (List.mem_of_getElem? e)
    rcases h.free (.core k) (by rw [hw]; simp) (by rw [hserved]; simp) _ e with ⟨-, h3⟩ | ⟨-, K, -, h3⟩
    · exact h3
    · rw [e2] at h3
      exact absurd h3 (trace_ne_nil p _ K)
  have r1 : Reaches cfg (s.put t x s.net) (s.put t { x with ops := [], phase := .haltCores } s.net) := by
    refine tile_act s ht x s.net ?_
    unfold Sys.tileStep
    dsimp only
    rw [put_tile, hph]
    dsimp only
    rw [hxo.trans hops]
    dsimp only
    unfold Sys.tileStart
    dsimp only
    rw [put_tile, put_setTile]
  have r2 : Reaches cfg (s.put t { x with ops := [], phase := .haltCores } s.net)
      (s.put t { x with ops := [], phase := .haltRouter } n1) := by
    refine tile_act s ht _ s.net ?_
    unfold Sys.tileStep
    dsimp only
    rw [put_tile]
    dsimp only
    rw [if_pos (by
      unfold Sys.coresHalted
      rw [put_tile, List.all_eq_true]
      intro k hk'
      dsimp only
      rw [hcores k (List.mem_range.1 hk')]
      rfl)]
    have hst : (s.put t { x with ops := [], phase := .haltCores } s.net).net.stopper t = .running := by
      show s.net.stopper t = _
      rw [hn.stopper, if_pos hu]
    rw [hst]
    dsimp only
    rw [put_netAct cfg s t _ s.net _ a1 a2, put_setPhase]
  have r3 : Reaches cfg (s.put t { x with ops := [], phase := .haltRouter } n1)
      (s.put t { x with ops := [], phase := .haltRouter } n2) := by
    refine tile_act s ht _ n1 ?_
    unfold Sys.tileStep
    dsimp only
    rw [put_tile]
    dsimp only
    have hst : (s.put t { x with ops := [], phase := .haltRouter } n1).net.stopper t ≠ .stopped := a3
    split
    · rename_i h; exact absurd h hst
    · rw [put_netAct cfg s t _ n1 _ a4 a5]; rfl
  have r4 : Reaches cfg (s.put t { x with ops := [], phase := .haltRouter } n2)
      (s.put t { x with ops := [], phase := .haltRouter } n3) := by
    refine tile_act s ht _ n2 ?_
    unfold Sys.tileStep
    dsimp only
    rw [put_tile]
    dsimp only
    have hst : (s.put t { x with ops := [], phase := .haltRouter } n2).net.stopper t ≠ .stopped := a6
    split
    · rename_i h; exact absurd h hst
    · rw [put_netAct cfg s t _ n2 _ a7 a9.crashed]; rfl
  have r5 : Reaches cfg (s.put t { x with ops := [], phase := .haltRouter } n3)
      (s.put t { x with ctrl := c', ops := [], log := x.log ++ [.halted], phase := .ready } n3) := by
    refine tile_act s ht _ n3 ?_
    unfold Sys.tileStep
    dsimp only
    rw [put_tile]
    dsimp only
    rw [show (s.put t { x with ops := [], phase := .haltRouter } n3).net.stopper t = .stopped from a8]
    dsimp only
    rw [put_ctrlAct cfg s t { x with ops := [], phase := .haltRouter } n3 _ hstop hC.crashed, put_logPhase]
  have r6 := (r1.trans r2).trans (r3.trans (r4.trans r5))
  rw [put_self hcr] at r6
  exact ⟨_, n3, r6, h.move hq hs (same_tile rfl rfl) rfl ⟨rfl, rfl⟩ rfl (fun _ => ⟨rfl, hout, hk⟩) hF
    { hC with running := rfl, alive := rfl } ⟨[], (List.append_nil _).symm⟩, a9⟩

end Ramwich
