import Verif.Lemmas.DrySteps

/-! # Moves of tile processes -/
namespace Ramwich

open Pipeline (upd)
open Spec

variable {cfg : SysCfg}

theorem tile_act (s : Sys) {t : Nat} (ht : t < cfg.net.tiles) (x : TileSt) (n : Net) {s' : Sys}
    (h : (s.put t x n).tileStep cfg t = some s') : Reaches cfg (s.put t x n) s' :=
  .act (a := .tile t) (by rw [act_tile_eq rfl ht]; exact h)

/-- Router actions that no process takes part in. -/
theorem put_netRun (s : Sys) (t : Nat) (x : TileSt) (as : List NetAct)
    (has : ∀ a ∈ as, (∃ i, a = .thread i) ∨ ∃ i, a = .take i) :
    ∀ {n n' : Net}, n.run cfg.net as = some n' → n'.crashed = none → Reaches cfg (s.put t x n) (s.put t x n') := by
  induction as with
  | nil =>
    intro n n' h _
    simp only [Net.run, Option.some.injEq] at h
    subst h
    exact .refl _ _
  | cons a as ih =>
    intro n n' h hc
    simp only [Net.run] at h
    cases ha : n.act cfg.net a with
    | none => rw [ha] at h; cases h
    | some n1 =>
      rw [ha] at h
      simp only [Option.bind_some] at h
      have hc1 : n1.crashed = none := by
        cases as with
        | nil => simp only [Net.run, Option.some.injEq] at h; rw [h]; exact hc
        | cons b bs =>
          cases hcc : n1.crashed with
          | none => rfl
          | some e => simp [Net.run, Net.act, hcc] at h
      have h1 : Reaches cfg (s.put t x n) (s.put t x n1) := by
        rcases has a (List.mem_cons_self ..) with ⟨i, rfl⟩ | ⟨i, rfl⟩
        · refine .act (a := .thread i) ?_
          rw [act_thread_eq rfl, put_netAct cfg s t x n id ha hc1]
          rfl
        · refine .act (a := .take i) ?_
          rw [act_take_eq rfl, put_netAct cfg s t x n id ha hc1]
          rfl
      exact h1.trans (ih (fun b hb => has b (List.mem_cons_of_mem _ hb)) h hc)

theorem put_setPhase (s : Sys) (t : Nat) (x : TileSt) (n : Net) (q : TilePhase) :
    (s.put t x n).setPhase t q = s.put t { x with phase := q } n := by
  unfold Sys.setPhase
  rw [put_tile, put_setTile]

theorem put_logPhase (s : Sys) (t : Nat) (x : TileSt) (n : Net) (e : TileEv) (q : TilePhase) :
    (s.put t x n).logPhase t e q = s.put t { x with phase := q, log := x.log ++ [e] } n := by
  unfold Sys.logPhase
  rw [put_tile, put_setTile]

/-! ## Send -/

theorem send_rows (hi : Instant cfg) (s : Sys) {t : Nat} (ht : t < cfg.net.tiles) {target : Int} (h1 : 0 ≤ target)
    (h2 : target < cfg.net.tiles) (h3 : target ≠ t) {ups : Nat → Bool} (hu : ups t = true) (x : TileSt) {w : Nat}
    (rows : List (List I32)) : ∀ {outs : Nat → List (Nat × Nat)} {n : Net}, (∀ r ∈ rows, r.length = w) →
      NetRest cfg.net.tiles outs ups n →
      ∃ n', Reaches cfg (s.put t { x with phase := .sending target rows } n) (s.put t { x with phase := .ready } n') ∧
        NetRest cfg.net.tiles (upd outs t (outs t ++ List.replicate rows.length (target.toNat, w))) ups n' := by
  induction rows with
  | nil =>
    intro outs n _ hn
    refine ⟨n, tile_act s ht _ n ?_, ?_⟩
    · unfold Sys.tileStep
      dsimp only
      rw [put_tile]
      dsimp only
      rw [put_setPhase]
    · rw [List.length_nil, List.replicate_zero, List.append_nil, upd_self]
      exact hn
  | cons r rows ih =>
    intro outs n hr hn
    obtain ⟨n1, n2, a1, a2, a3, a4⟩ := net_send hn ht hu h1 h2 h3 r
    obtain ⟨n', b1, b2⟩ := ih (fun r' h => hr r' (List.mem_cons_of_mem _ h)) a4
    refine ⟨n', ?_, ?_⟩
    · have r1 : Reaches cfg (s.put t { x with phase := .sending target (r :: rows) } n)
          (s.put t { x with phase := .adding target rows } n1) := by
        refine tile_act s ht _ n ?_
        unfold Sys.tileStep
        dsimp only
        rw [put_tile]
        dsimp only
        rw [hi.data, delay_ok (le_refl 0)]
        dsimp only
        rw [put_netAct cfg s t _ n _ a1 a2, put_setPhase]
      have r2 : Reaches cfg (s.put t { x with phase := .adding target rows } n1)
          (s.put t { x with phase := .sending target rows } n2) := by
        refine tile_act s ht _ n1 ?_
        unfold Sys.tileStep
        dsimp only
        rw [put_tile]
        dsimp only
        rw [put_netAct cfg s t _ n1 _ a3 a4.crashed, put_setPhase]
      exact (r1.trans r2).trans b1
    · rw [upd_same, upd_twice, hr r (List.mem_cons_self ..), List.append_assoc] at b2
      rw [List.length_cons, List.replicate_succ]
      exact b2

theorem reshape_lengths {vec width : Nat} {data : List I32} (h : data.length = width * vec) :
    (reshape vec width data).length = vec ∧ ∀ r ∈ reshape vec width data, r.length = width := by
  unfold reshape
  refine ⟨by simp, ?_⟩
  intro r hr
  obtain ⟨i, hi, rfl⟩ := List.mem_map.1 hr
  have hi := List.mem_range.1 hi
  rw [List.length_take, List.length_drop, h]
  have : width * (i + 1) ≤ width * vec := Nat.mul_le_mul_left _ hi
  rw [Nat.mul_add, Nat.mul_one, Nat.mul_comm] at this
  omega

/-- A Send whose words are there. -/
theorem move_send (hi : Instant cfg) (s : Sys) {t : Nat} (ht : t < cfg.net.tiles) {addr : Nat} {target width vec : Int}
    (h1 : 0 ≤ target) (h2 : target < cfg.net.tiles) (h3 : target ≠ t) (hw : 0 < width) (hv : 0 < vec)
    {ups : Nat → Bool} (hu : ups t = true) {x : TileSt} {size mask0 mask : Nat}
    (hcq : CtrlQuiet size mask0 mask true x.ctrl) (hb : ∀ i, addr ≤ i → i < addr + (width * vec).toNat → mask.testBit i = true)
    {rest : List TileOp} (hp : x.phase = .ready) (hq : x.ops = .send addr target width vec :: rest)
    {outs : Nat → List (Nat × Nat)} {n : Net} (hn : NetRest cfg.net.tiles outs ups n) :
    ∃ c' log n', Reaches cfg (s.put t x n) (s.put t { x with ctrl := c', ops := rest, log := log } n') ∧
      CtrlQuiet size mask0 mask true c' ∧
      NetRest cfg.net.tiles (upd outs t (outs t ++ List.replicate vec.toNat (target.toNat, width.toNat))) ups n' := by
  have hpos : 0 < width * vec := Int.mul_pos hw hv
  obtain ⟨g1, c', data, g2, g3, g4, g5⟩ := serve_read hcq (-1) (n := (width * vec).toNat) (width := width) (vec := vec)
    (by omega) (by omega) hb
  have g5 : data.length = width.toNat * vec.toNat := by
    rw [g5, Int.toNat_mul hw.le hv.le]
  obtain ⟨q1, q2⟩ := reshape_lengths g5
  let rows := reshape vec.toNat width.toNat data
  let log := x.log ++ [.sent addr target width vec rows]
  obtain ⟨n', b1, b2⟩ := send_rows hi s ht h1 h2 h3 hu
    { x with ctrl := c', ops := rest, log := log } rows q2 hn
  refine ⟨c', log, n', ?_, g3, ?_⟩
  · have r1 : Reaches cfg (s.put t x n) (s.put t { x with
        ctrl := x.ctrl.submit (-1) addr (.read width vec), ops := rest,
        phase := .sendWait x.ctrl.submitted.length addr target width vec } n) := by
      refine tile_act s ht x n ?_
      unfold Sys.tileStep
      dsimp only
      rw [put_tile, hp]
      dsimp only
      rw [hq]
      dsimp only
      unfold Sys.tileStart
      dsimp only
      rw [put_ctrlAct cfg s t x n _ (submit_act hcq.crashed _ _ _ _) g1, put_tile, put_tile, put_setTile]
    have r2 := put_serve hi s ht n serveActs serveActs_ok (x := { x with
        ctrl := x.ctrl.submit (-1) addr (.read width vec), ops := rest,
        phase := .sendWait x.ctrl.submitted.length addr target width vec }) g2 g3.crashed
    have r3 : Reaches cfg (s.put t { x with
        ctrl := c', ops := rest, phase := .sendWait x.ctrl.submitted.length addr target width vec } n)
        (s.put t { x with ctrl := c', ops := rest, log := log, phase := .sending target rows } n) := by
      refine tile_act s ht _ n ?_
      unfold Sys.tileStep
      dsimp only
      rw [put_tile]
      dsimp only
      rw [g4]
      dsimp only
      rw [if_neg (by omega), put_logPhase]
    have r4 := (r1.trans r2).trans (r3.trans b1)
    rw [show ({ x with ctrl := c', ops := rest, log := log } : TileSt) =
      { x with ctrl := c', ops := rest, log := log, phase := .ready } by rw [← hp]]
    exact r4
  · rw [← q1]; exact b2

/-! ## Recv -/

theorem recv_rows (hi : Instant cfg) (s : Sys) {t src : Nat} (ht : t < cfg.net.tiles) (hs : src < cfg.net.tiles)
    (hne : src ≠ t) {ups : Nat → Bool} (hu : ups src = true) {w vec : Nat} {addr : Int} {rest : List (Nat × Nat)} (m : Nat) :
    ∀ {outs : Nat → List (Nat × Nat)} {n : Net} {x : TileSt} {got : List (List I32)}, got.length + m = vec →
      (∀ r ∈ got, r.length = w) → outs src = List.replicate m (t, w) ++ rest → NetRest cfg.net.tiles outs ups n →
      ∃ n' got' log, got'.length = vec ∧ (∀ r ∈ got', r.length = w) ∧
        Reaches cfg (s.put t { x with phase := .recving addr src w vec got } n)
          (s.put t { x with phase := .recving addr src w vec got', log := log } n') ∧
        NetRest cfg.net.tiles (upd outs src rest) ups n' := by
  induction m with
  | zero =>
    intro outs n x got hg hw ho hn
    refine ⟨n, got, x.log, by omega, hw, .refl _ _, ?_⟩
    rw [List.replicate_zero, List.nil_append] at ho
    rw [← ho, upd_self]
    exact hn
  | succ m ih =>
    intro outs n x got hg hw ho hn
    rw [List.replicate_succ, List.cons_append] at ho
    obtain ⟨n1, n2, n3, data, a1, a2, ⟨as, a3, a4⟩, a5, a6, a7, a8, a9⟩ := net_recv hi hn ht hs hne hu ho
    obtain ⟨n', got', log, b1, b2, b3, b4⟩ := ih (outs := upd outs src (List.replicate m (t, w) ++ rest)) (n := n3)
      (x := { x with log := x.log ++ [.row src data] }) (got := got ++ [data]) (by
        rw [List.length_append, List.length_singleton]; omega) (by
        intro r hr
        rcases List.mem_append.1 hr with hr | hr
        · exact hw r hr
        · rw [List.mem_singleton.1 hr]; exact a7) (upd_same _ _ _) a9
    refine ⟨n', got', log, b1, b2, ?_, by rw [upd_twice] at b4; exact b4⟩
    have r1 : Reaches cfg (s.put t { x with phase := .recving addr src w vec got } n)
        (s.put t { x with phase := .recvWait addr src w vec got } n1) := by
      refine tile_act s ht _ n ?_
      unfold Sys.tileStep
      dsimp only
      rw [put_tile]
      dsimp only
      rw [if_pos (by omega), put_netAct cfg s t _ n _ a1 a2, put_setPhase]
    have r2 := put_netRun (cfg := cfg) s t { x with phase := .recvWait addr src w vec got } as (fun a ha => by
      rcases a3 a ha with h | h
      · exact .inl ⟨_, h⟩
      · exact .inr ⟨_, h⟩) a4 a5
    have r3 : Reaches cfg (s.put t { x with phase := .recvWait addr src w vec got } n2)
        (s.put t { x with phase := .recving addr src w vec (got ++ [data]), log := x.log ++ [.row src data] } n3) := by
      refine tile_act s ht _ n2 ?_
      unfold Sys.tileStep
      dsimp only
      rw [put_tile]
      dsimp only
      rw [show (s.put t { x with phase := .recvWait addr src w vec got } n2).net.reader t = .got src data from a6]
      dsimp only
      rw [put_netAct cfg s t _ n2 _ a8 a9.crashed, put_logPhase, if_pos (by rw [a7])]
    exact (r1.trans r2).trans (r3.trans b3)

theorem flatten_rows {w : Nat} {rows : List (List I32)} (h : ∀ r ∈ rows, r.length = w) :
    rows.flatten.length = w * rows.length := by
  induction rows with
  | nil => simp
  | cons r rows ih =>
    rw [List.flatten_cons, List.length_append, ih (fun r' h' => h r' (List.mem_cons_of_mem _ h')),
      h r (List.mem_cons_self ..), List.length_cons]
    ring

/-- A Recv whose rows have been sent. -/
theorem move_recv (hi : Instant cfg) (s : Sys) {t src : Nat} (ht : t < cfg.net.tiles) (hs : src < cfg.net.tiles)
    (hne : src ≠ t) {ups : Nat → Bool} (hu : ups src = true) {addr w vec : Nat} {x : TileSt} {size mask0 mask : Nat}
    (hcq : CtrlQuiet size mask0 mask true x.ctrl) (hsz : addr + w * vec ≤ size)
    (hb : ∀ i, addr ≤ i → i < addr + w * vec → mask.testBit i = false)
    {rest : List TileOp} (hp : x.phase = .ready) (hq : x.ops = .receive addr src w vec :: rest)
    {outs : Nat → List (Nat × Nat)} {left : List (Nat × Nat)} (ho : outs src = List.replicate vec (t, w) ++ left)
    {n : Net} (hn : NetRest cfg.net.tiles outs ups n) :
    ∃ c' log n', Reaches cfg (s.put t x n) (s.put t { x with ctrl := c', ops := rest, log := log } n') ∧
      CtrlQuiet size mask0 (mask ||| span addr (w * vec)) true c' ∧
      NetRest cfg.net.tiles (upd outs src left) ups n' := by
  obtain ⟨n', got, log, b1, b2, b3, b4⟩ := recv_rows hi s ht hs hne hu (addr := addr) vec (x := { x with ops := rest })
    (got := []) (w := w) (vec := vec) (by simp) (by simp) ho hn
  have hfl : got.flatten.length = w * vec := by rw [flatten_rows b2, b1]
  obtain ⟨g1, c', g2, g3, g4⟩ := serve_write hcq (-1) (addr := addr) (data := got.flatten) (rows := vec) (by rw [hfl]; exact hsz)
    (by rw [hfl]; exact hb)
  let log' := log ++ [.received addr src w vec got]
  refine ⟨c', log', n', ?_, by rw [hfl] at g3; exact g3, b4⟩
  have r1 : Reaches cfg (s.put t x n) (s.put t { x with ops := rest, phase := .recving addr src w vec [] } n) := by
    refine tile_act s ht x n ?_
    unfold Sys.tileStep
    dsimp only
    rw [put_tile, hp]
    dsimp only
    rw [hq]
    dsimp only
    unfold Sys.tileStart
    dsimp only
    rw [if_neg (by omega), put_tile, put_setTile]
  have r2 : Reaches cfg (s.put t { x with ops := rest, phase := .recving addr src w vec got, log := log } n')
      (s.put t { x with
        ctrl := x.ctrl.submit (-1) addr (.write got.flatten vec), ops := rest,
        phase := .recvWrite x.ctrl.submitted.length, log := log' } n') := by
    refine tile_act s ht _ n' ?_
    unfold Sys.tileStep
    dsimp only
    rw [put_tile]
    dsimp only
    rw [if_neg (by omega), Int.toNat_natCast, put_ctrlAct cfg s t
      { x with ops := rest, phase := .recving addr src w vec got, log := log } n' _
      (submit_act (c := x.ctrl) hcq.crashed _ _ _ _) g1,
      put_logPhase]
  have r3 := put_serve hi s ht n' serveActs serveActs_ok (x := { x with
        ctrl := x.ctrl.submit (-1) addr (.write got.flatten vec), ops := rest,
        phase := .recvWrite x.ctrl.submitted.length, log := log' }) g2 g3.crashed
  have r4 : Reaches cfg (s.put t { x with
        ctrl := c', ops := rest, phase := .recvWrite x.ctrl.submitted.length, log := log' } n')
      (s.put t { x with ctrl := c', ops := rest, log := log' } n') := by
    rw [show ({ x with ctrl := c', ops := rest, log := log' } : TileSt) =
      { x with ctrl := c', ops := rest, log := log', phase := .ready } by rw [← hp]]
    refine tile_act s ht _ n' ?_
    unfold Sys.tileStep
    dsimp only
    rw [put_tile]
    dsimp only
    rw [g4, if_pos rfl, put_setPhase]
  exact (r1.trans b3).trans (r2.trans (r3.trans r4))

/-! ## Halt -/

/-- The Halt of a tile whose cores have ended and whose rows have been received. -/
theorem move_halt (s : Sys) {t : Nat} (ht : t < cfg.net.tiles) {ups : Nat → Bool} (hu : ups t = true)
    {x : TileSt} {size mask0 mask : Nat} (hcq : CtrlQuiet size mask0 mask true x.ctrl) {rest : List TileOp}
    (hp : x.phase = .ready) (hq : x.ops = .halt :: rest) (hk : ∀ k < cfg.cores, (x.core k).phase = .halted)
    {outs : Nat → List (Nat × Nat)} (ho : outs t = []) {n : Net} (hn : NetRest cfg.net.tiles outs ups n) :
    ∃ c' log n', Reaches cfg (s.put t x n) (s.put t { x with ctrl := c', ops := rest, log := log } n') ∧
      CtrlQuiet size mask0 mask false c' ∧ NetRest cfg.net.tiles outs (upd ups t false) n' := by
  obtain ⟨n1, n2, n3, a1, a2, a3, a4, a5, a6, a7, a8, a9⟩ := net_halt hn ht hu ho
  let c' : Ctrl := { x.ctrl with
      running := false, handlerAlive := false
      stats := { x.ctrl.stats with
        activeCycles := x.ctrl.stats.activeCycles + (x.ctrl.now - x.ctrl.startTime : Int) } }
  have hstop : x.ctrl.act cfg.edramLat .stop = some c' := by
    rw [ctrl_act_alive hcq.crashed]
    dsimp only
    unfold Ctrl.stop
    rw [if_neg (by rw [hcq.running]; simp)]
    dsimp only
    rw [if_pos hcq.pending]
  refine ⟨c', x.log ++ [.halted], n3, ?_, ?_, a9⟩
  · have r1 : Reaches cfg (s.put t x n) (s.put t { x with ops := rest, phase := .haltCores } n) := by
      refine tile_act s ht x n ?_
      unfold Sys.tileStep
      dsimp only
      rw [put_tile, hp]
      dsimp only
      rw [hq]
      dsimp only
      unfold Sys.tileStart
      dsimp only
      rw [put_tile, put_setTile]
    have r2 : Reaches cfg (s.put t { x with ops := rest, phase := .haltCores } n)
        (s.put t { x with ops := rest, phase := .haltRouter } n1) := by
      refine tile_act s ht _ n ?_
      unfold Sys.tileStep
      dsimp only
      rw [put_tile]
      dsimp only
      rw [if_pos (by
        unfold Sys.coresHalted
        rw [put_tile, List.all_eq_true]
        intro k hk'
        dsimp only
        rw [hk k (List.mem_range.1 hk')]
        rfl)]
      have hst : (s.put t { x with ops := rest, phase := .haltCores } n).net.stopper t = .running := by
        show n.stopper t = _
        rw [hn.stopper, if_pos hu]
      rw [hst]
      dsimp only
      rw [put_netAct cfg s t _ n _ a1 a2, put_setPhase]
    have r3 : Reaches cfg (s.put t { x with ops := rest, phase := .haltRouter } n1)
        (s.put t { x with ops := rest, phase := .haltRouter } n2) := by
      refine tile_act s ht _ n1 ?_
      unfold Sys.tileStep
      dsimp only
      rw [put_tile]
      dsimp only
      have hst : (s.put t { x with ops := rest, phase := .haltRouter } n1).net.stopper t ≠ .stopped := a3
      split
      · rename_i h; exact absurd h hst
      · rw [put_netAct cfg s t _ n1 _ a4 a5]; rfl
    have r4 : Reaches cfg (s.put t { x with ops := rest, phase := .haltRouter } n2)
        (s.put t { x with ops := rest, phase := .haltRouter } n3) := by
      refine tile_act s ht _ n2 ?_
      unfold Sys.tileStep
      dsimp only
      rw [put_tile]
      dsimp only
      have hst : (s.put t { x with ops := rest, phase := .haltRouter } n2).net.stopper t ≠ .stopped := a6
      split
      · rename_i h; exact absurd h hst
      · rw [put_netAct cfg s t _ n2 _ a7 a9.crashed]; rfl
    have r5 : Reaches cfg (s.put t { x with ops := rest, phase := .haltRouter } n3)
        (s.put t { x with ctrl := c', ops := rest, log := x.log ++ [.halted] } n3) := by
      rw [show ({ x with ctrl := c', ops := rest, log := x.log ++ [.halted] } : TileSt) =
        { x with ctrl := c', ops := rest, log := x.log ++ [.halted], phase := .ready } by rw [← hp]]
      refine tile_act s ht _ n3 ?_
      unfold Sys.tileStep
      dsimp only
      rw [put_tile]
      dsimp only
      rw [show (s.put t { x with ops := rest, phase := .haltRouter } n3).net.stopper t = .stopped from a8]
      dsimp only
      rw [put_ctrlAct cfg s t { x with ops := rest, phase := .haltRouter } n3 _ hstop hcq.crashed, put_logPhase]
    exact (r1.trans r2).trans (r3.trans (r4.trans r5))
  · exact { hcq with running := rfl, alive := rfl }

end Ramwich
