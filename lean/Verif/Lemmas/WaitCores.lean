import Verif.Lemmas.WaitRel

/-! # Moves of cores of tiles with processes that wait -/
namespace Ramwich

open Pipeline (upd)
open Spec

variable {cfg : SysCfg} {cc : Config} {p : CoreParams}

/-- A core submits the read of its load. -/
theorem load_ask (s : Sys) {t k : Nat} (ht : t < cfg.net.tiles) (hk : k < cfg.cores) (x : TileSt)
    {c : Ctrl} (hcr : c.crashed = none) (n : Net) {y : CoreSt} {dest read width vec : Int} {rest : List CoreOp}
    (hp : y.phase = .ready) (hq : y.prog = .load dest read width vec :: rest) {addr : Nat} {c1 : Core}
    (ha : y.core.loadAddress read = (.ok (addr : Int), c1))
    (h1 : (c.submit k addr (.read width vec)).crashed = none) :
    Reaches cfg (s.put t (x.cc c k y) n) (s.put t (x.cc (c.submit k addr (.read width vec)) k
      { y with core := c1, prog := rest, phase := .loadWait c.submitted.length addr dest read width vec }) n) := by
  refine core_act s ht hk x c y n ?_
  unfold Sys.coreStep
  dsimp only
  rw [put_tile, cc_core, hp]
  dsimp only
  rw [hq]
  dsimp only
  unfold Sys.coreStart
  dsimp only
  rw [put_tile, cc_core, ha]
  dsimp only
  rw [put_ctrlAct cfg s t (x.cc c k y) n _ (submit_act hcr _ _ _ _) h1, cc_ctrl]
  rw [put_setCore]
  rfl

/-- A core goes on with the words of its load. -/
theorem load_resume (hi : Instant cfg) (s : Sys) {t k : Nat} (ht : t < cfg.net.tiles) (hk : k < cfg.cores) (x : TileSt)
    (c : Ctrl) (n : Net) {y : CoreSt} {dest read width vec addr : Int} {id : Nat} {data : List I32}
    (hp : y.phase = .loadWait id addr dest read width vec) (h4 : readAnswer id c.answers = some data) {c2 : Core}
    (h6 : y.core.loadFinish dest data = (.ok (), c2)) :
    ∃ log, Reaches cfg (s.put t (x.cc c k y) n) (s.put t (x.cc c k { core := c2, prog := y.prog, log := log }) n) := by
  let log := y.log ++ [⟨.load dest read width vec, addr, data, (y.core.loadFinish dest data).2⟩]
  let y2 : CoreSt := { y with phase := .loadGot dest data, log := log }
  refine ⟨log, ?_⟩
  have r3 : Reaches cfg (s.put t (x.cc c k y) n) (s.put t (x.cc c k y2) n) := by
    refine core_act s ht hk x c y n ?_
    unfold Sys.coreStep
    dsimp only
    rw [put_tile, cc_core, hp]
    dsimp only
    rw [show (x.cc c k _).ctrl = c from rfl, h4]
    dsimp only
    rw [hi.data, zero_mul, delay_ok (le_refl 0)]
    dsimp only
    rw [put_setCore]
  refine r3.trans (core_act s ht hk x c y2 n ?_)
  unfold Sys.coreStep
  dsimp only
  rw [put_tile, cc_core]
  dsimp only [y2]
  rw [h6]
  dsimp only
  rw [put_setCore]

/-- A store. -/
theorem store_go (hi : Instant cfg) (s : Sys) {t k : Nat} (ht : t < cfg.net.tiles) (hk : k < cfg.cores) (x : TileSt)
    {c : Ctrl} (hcr : c.crashed = none) (n : Net) {y : CoreSt}
    {dest read width vec : Int} {rest : List CoreOp} (hp : y.phase = .ready)
    (hq : y.prog = .store dest read width vec :: rest) {addr : Nat} {data : List I32} {c1 : Core}
    (ha : y.core.storeRequest dest read width vec = (.ok ((addr : Int), data), c1))
    (h1 : (c.submit k addr (.write data vec.toNat)).crashed = none) {acts : List CtrlAct} {c' : Ctrl} (hacts : Quiet acts)
    (h2 : (c.submit k addr (.write data vec.toNat)).run 0 acts = some c') (h3 : c'.crashed = none)
    (h4 : wroteAnswer c.submitted.length c'.answers = true) :
    ∃ log, Reaches cfg (s.put t (x.cc c k y) n) (s.put t (x.cc c' k { core := c1, prog := rest, log := log }) n) := by
  let log := y.log ++ [⟨.store dest read width vec, addr, data, c1⟩]
  let y1 : CoreSt := { core := c1, prog := rest, phase := .storeDelay addr data vec.toNat, log := log }
  let y2 : CoreSt := { y1 with phase := .storeWait c.submitted.length }
  let y3 : CoreSt := { core := c1, prog := rest, log := log }
  refine ⟨log, ?_⟩
  have r1 : Reaches cfg (s.put t (x.cc c k y) n) (s.put t (x.cc c k y1) n) := by
    refine core_act s ht hk x c y n ?_
    unfold Sys.coreStep
    dsimp only
    rw [put_tile, cc_core, hp]
    dsimp only
    rw [hq]
    dsimp only
    unfold Sys.coreStart
    dsimp only
    rw [put_tile, cc_core, ha]
    dsimp only
    rw [hi.data, zero_mul, delay_ok (le_refl 0)]
    dsimp only
    rw [put_setCore]
  have r2 : Reaches cfg (s.put t (x.cc c k y1) n) (s.put t (x.cc (c.submit k addr (.write data vec.toNat)) k y2) n) := by
    refine core_act s ht hk x c y1 n ?_
    unfold Sys.coreStep
    dsimp only
    rw [put_tile, cc_core]
    dsimp only [y1]
    rw [put_ctrlAct cfg s t _ n _ (submit_act (c := (x.cc c k _).ctrl) hcr _ _ _ _) h1, cc_ctrl]
    rw [put_setCore]
    rfl
  have r3 : Reaches cfg (s.put t (x.cc (c.submit k addr (.write data vec.toNat)) k y2) n) (s.put t (x.cc c' k y2) n) :=
    put_serve hi s ht n acts hacts (x := x.cc (c.submit k addr (.write data vec.toNat)) k y2) h2 h3
  have r4 : Reaches cfg (s.put t (x.cc c' k y2) n) (s.put t (x.cc c' k y3) n) := by
    refine core_act s ht hk x c' y2 n ?_
    unfold Sys.coreStep
    dsimp only
    rw [put_tile, cc_core]
    dsimp only [y2, y1]
    rw [show (x.cc c' k _).ctrl = c' from rfl, h4, if_pos rfl, put_setCore]
  exact ((r1.trans r2).trans r3).trans r4

theorem same_core {d : DryTile} {x : TileSt} {k : Nat} {c : Ctrl} {z : CoreSt} {d' : DryTile} (ho : d'.ops = d.ops)
    (hc : ∀ j, j ≠ k → d'.cores[j]? = d.cores[j]?) : Same (.core k) d d' x (x.cc c k z) := by
  refine ⟨fun _ => ⟨ho, rfl, rfl⟩, fun j hj => ?_⟩
  have hj : j ≠ k := fun e => hj (by rw [e])
  exact ⟨hc j hj, upd_ne _ _ _ _ hj⟩

theorem free_core {d' : DryTile} {x : TileSt} {k : Nat} {c : Ctrl} {z : CoreSt} {evs : List MemEv}
    (h : d'.cores[k]? = some evs) (hz : CoreRel cc p cfg.fl evs z) : Free cfg cc p d' (x.cc c k z) (.core k) := by
  intro evs' he
  rw [h] at he
  injection he with he
  subst he
  rw [cc_core]
  exact hz

theorem not_down {d : DryTile} {k : Nat} {e : MemEv} {evs : List MemEv} (hd : d.cores[k]? = some (e :: evs))
    (h : d.up = false → d.ops = [] ∧ d.out = [] ∧ ∀ c ∈ d.cores, c = []) : d.up = true := by
  cases hu : d.up with
  | true => rfl
  | false => cases (h hu).2.2 _ (List.mem_of_getElem? hd)

theorem valid_grows {v a n : Nat} (hn : 0 < n) (h : ∀ i, a ≤ i → i < a + n → v.testBit i = false) : v ||| span a n ≠ v := by
  intro he
  have h1 := h a (le_refl a) (by omega)
  rw [← he, Nat.testBit_or, span_bit, decide_eq_true ⟨le_refl a, by omega⟩, Bool.or_true] at h1
  cases h1

/-- A move of a core. -/
theorem wait_core (hi : Instant cfg) (hpp : ParamsOf cc p) (he : Electrical cc.mvmuConfig) {lat dlat : Nat}
    (hlat : Latencies cc.mvmuConfig lat dlat) {s : Sys} (hcr : s.crashed = none) {t k : Nat} (ht : t < cfg.net.tiles)
    {size : Nat} {w : WaitTile} (h : TileRelW cfg cc p size t w (s.tile t)) (hq : .core k ∉ w.waiting) (hs : .core k ∉ w.served)
    {d' : DryTile} (hm : w.dry.coreMove size k = some d') :
    ∃ x', Reaches cfg s (s.put t x' s.net) ∧ TileRelW cfg cc p size t (w.after d') x' ∧ d'.out = w.dry.out ∧ d'.up = w.dry.up := by
  cases hd : w.dry.cores[k]? with
  | none => unfold DryTile.coreMove at hm; rw [hd] at hm; cases hm
  | some l =>
  have hkc : k < cfg.cores := by rw [← h.len]; exact lt_of_some hd
  have hkl : k < w.dry.cores.length := lt_of_some hd
  cases l with
  | nil => unfold DryTile.coreMove at hm; rw [hd] at hm; cases hm
  | cons e evs =>
  have hup := not_down hd h.down
  obtain ⟨P, hC, hF⟩ := h.ctrl
  rw [hup] at hC
  rcases h.free _ hq hs _ hd with ⟨h0, -⟩ | ⟨hph, K, hK, htr⟩
  · cases h0
  obtain ⟨K', z, op, rest, k1, k2, k3, k4, k5, k6⟩ := step_inner hi hpp he hlat s ht hkc (s.tile t) (s.tile t).ctrl s.net
    ((s.tile t).core k).prog K ((s.tile t).core k) rfl hph hK htr
  rw [put_cc_self, put_self hcr] at k6
  rw [k3] at k5
  unfold DryTile.coreMove at hm
  rw [hd] at hm
  cases op with
  | load dest read width vec =>
    obtain ⟨a, len, c1, K2, evs', j1, j2, j3, j4, j5, j6, j7⟩ := trace_load hpp k2 k5
    injection j1 with j1 j1'
    subst j1; subst j1'
    dsimp only at hm
    split at hm
    · rename_i hhas
      injection hm with hm
      subst hm
      have hpos : 0 < len := by
        have := Int.mul_pos j3 j4
        omega
      have hsz : a + len ≤ size := by
        have := hC.bound (a + len - 1) (has_bit hhas _ (by omega) (by omega))
        omega
      obtain ⟨r, q1, q2, q3, q4, q5⟩ := submit_read hC (k : Int) j2 hpos hsz
      obtain ⟨c', data, b1, b2, b3, b4, ⟨bs, b5⟩, -⟩ := serve_next q4 ((ready_iff q4.vlen q4.bits q2 q3 hsz).2 (has_bit hhas))
      obtain ⟨c2, f1, f2⟩ := j7 data (by omega)
      have r1 := load_ask s ht hkc (s.tile t) hC.crashed s.net k1 k3 j5 q4.crashed
      have r2 := put_serve hi s ht s.net serveActs quiet_serve (x := (s.tile t).cc _ k
        { z with core := c1, prog := rest, phase := .loadWait (s.tile t).ctrl.submitted.length a dest read width vec }) b1 b2.crashed
      rw [cc_ctrl] at r2
      rw [q1] at b3
      obtain ⟨log, r3⟩ := load_resume hi s ht hkc (s.tile t) c' s.net
        (y := { z with core := c1, prog := rest, phase := .loadWait (s.tile t).ctrl.submitted.length a dest read width vec })
        rfl b3 f1
      refine ⟨_, (k6.trans r1).trans (r2.trans r3), h.move hq hs (same_core rfl fun j hj => ?_) (List.length_set ..)
        (free_core (List.getElem?_set_self hkl) (.inr ⟨rfl, K2, f2, j6⟩)) rfl ?_ hF ?_ ⟨bs, ?_⟩, rfl, rfl⟩
      · exact List.getElem?_set_ne (Ne.symm hj)
      · intro hu
        dsimp only at hu
        rw [hup] at hu
        cases hu
      · dsimp only; rw [hup]; exact b2
      · rw [← q5]; exact b5
    · cases hm
  | store dest read width vec =>
    obtain ⟨a, len, c1, data, evs', j1, j2, j3, j4, j5, j6, j7, j8⟩ := trace_store hpp k2 k5
    injection j1 with j1 j1'
    subst j1; subst j1'
    dsimp only at hm
    split at hm
    · rename_i hfree
      injection hm with hm
      subst hm
      have hpos : 0 < len := by
        have := Int.mul_pos j3 j4
        omega
      obtain ⟨g1, acts, c', valid', g2, g3, g4, g5, g6, g7, g8, g9⟩ := serve_store hC (k : Int) (addr := a) (data := data)
        (rows := vec.toNat) (by rw [j6]; exact hfree.1)
      rw [j6] at g5 g6
      obtain ⟨log, r1⟩ := store_go hi s ht hkc (s.tile t) hC.crashed s.net k1 k3 j5 g1 g2 g3 g6.crashed g7
      refine ⟨_, k6.trans r1, h.write hq hs (same_core rfl fun j hj => ?_) (List.length_set ..)
        (free_core (List.getElem?_set_self hkl) (.inr ⟨rfl, K', j7, j8⟩)) (valid_grows hpos (free_bit hfree)) ?_
        (fun r hr => hC.ok r hr) hF g4 g5 ?_ g8 g9, rfl, rfl⟩
      · exact List.getElem?_set_ne (Ne.symm hj)
      · intro hu
        dsimp only at hu
        rw [hup] at hu
        cases hu
      · dsimp only; rw [hup]; exact g6
    · cases hm
  | hlt =>
    simp only [CoreParams.trace, Option.some.injEq, List.cons.injEq] at k5
    obtain ⟨j1, j2⟩ := k5
    subst j1; subst j2
    injection hm with hm
    subst hm
    obtain ⟨z', l1, l2⟩ := step_hlt hi s ht hkc (s.tile t) (s.tile t).ctrl s.net k1 k3
    refine ⟨_, k6.trans l2, h.move hq hs (same_core rfl fun j hj => ?_) (List.length_set ..)
        (free_core (List.getElem?_set_self hkl) (.inl ⟨rfl, l1⟩)) rfl ?_ hF ?_ ⟨[], (List.append_nil _).symm⟩, rfl, rfl⟩
    · exact List.getElem?_set_ne (Ne.symm hj)
    · intro hu
      dsimp only at hu
      rw [hup] at hu
      cases hu
    · dsimp only; rw [hup]; exact hC
  | set => cases k4
  | copy => cases k4
  | vfu => cases k4
  | mvm => cases k4

/-- A core has to wait. -/
theorem ask_core (hi : Instant cfg) (hpp : ParamsOf cc p) (he : Electrical cc.mvmuConfig) {lat dlat : Nat}
    (hlat : Latencies cc.mvmuConfig lat dlat) {s : Sys} (hcr : s.crashed = none) {t k : Nat} (ht : t < cfg.net.tiles)
    {size : Nat} {w : WaitTile} (h : TileRelW cfg cc p size t w (s.tile t)) (hq : .core k ∉ w.waiting) (hs : .core k ∉ w.served)
    {a n : Nat} (hm : w.dry.wants (.core k) = some (a, n)) (hno : ¬w.dry.has a n) (hsz : a + n ≤ size) :
    ∃ x', Reaches cfg s (s.put t x' s.net) ∧
      TileRelW cfg cc p size t { w with waiting := w.waiting ++ [.core k] } x' := by
  have hd : ∃ evs, w.dry.cores[k]? = some (.read a n :: evs) := by
    unfold DryTile.wants at hm
    dsimp only at hm
    split at hm
    · rename_i a' n' evs heq
      simp only [Option.some.injEq, Prod.mk.injEq] at hm
      obtain ⟨rfl, rfl⟩ := hm
      exact ⟨evs, heq⟩
    · cases hm
  obtain ⟨evs, hd⟩ := hd
  have hkc : k < cfg.cores := by rw [← h.len]; exact lt_of_some hd
  have hup := not_down hd h.down
  obtain ⟨P, hC, hF⟩ := h.ctrl
  rw [hup] at hC
  rcases h.free _ hq hs _ hd with ⟨h0, -⟩ | ⟨hph, K, hK, htr⟩
  · cases h0
  obtain ⟨K', z, op, rest, k1, k2, k3, k4, k5, k6⟩ := step_inner hi hpp he hlat s ht hkc (s.tile t) (s.tile t).ctrl s.net
    ((s.tile t).core k).prog K ((s.tile t).core k) rfl hph hK htr
  rw [put_cc_self, put_self hcr] at k6
  rw [k3] at k5
  cases op with
  | load dest read width vec =>
    obtain ⟨a', len, c1, K2, evs', j1, j2, j3, j4, j5, j6, j7⟩ := trace_load hpp k2 k5
    injection j1 with j1 j1'
    injection j1 with j1 j1''
    subst j1; subst j1'; subst j1''
    have hpos : 0 < n := by
      have := Int.mul_pos j3 j4
      omega
    obtain ⟨r, q1, q2, q3, q4, q5⟩ := submit_read hC (k : Int) j2 hpos hsz
    have hnr : ready ((s.tile t).ctrl.submit k a (.read width vec)).valid r = false := by
      rw [Bool.eq_false_iff]
      intro hr
      exact hno ((has_iff _ _ _).2 ((ready_iff q4.vlen q4.bits q2 q3 hsz).1 hr))
    obtain ⟨c', b1, b2, b3⟩ := serve_wait q4 hnr
    have r1 := load_ask s ht hkc (s.tile t) hC.crashed s.net k1 k3 j5 q4.crashed
    have r2 := put_serve hi s ht s.net [.pick, .dispatch] (by
      intro a ha
      simp only [List.mem_cons, List.not_mem_nil, or_false] at ha
      rcases ha with rfl | rfl <;> trivial) (x := (s.tile t).cc _ k
        { z with core := c1, prog := rest, phase := .loadWait (s.tile t).ctrl.submitted.length a dest read width vec }) b1 b2.crashed
    rw [cc_ctrl] at r2
    refine ⟨_, (k6.trans r1).trans r2, h.ask hq hs (same_core rfl fun _ _ => rfl) (P := P) (r := r) hF ?_ ?_ ⟨[], ?_⟩⟩
    · refine ⟨a, n, evs, dest, read, width, vec, K2, hd, ?_, ?_, ?_, q2, q3⟩
      · rw [cc_core, q1]
      · rw [cc_core]; exact j6
      · rw [cc_core]; exact j7
    · rw [hup]; exact b2
    · rw [List.append_nil, ← q5]; exact b3
  | store dest read width vec =>
    obtain ⟨a', len, c1, data, evs', j1, -⟩ := trace_store hpp k2 k5
    cases j1
  | hlt =>
    simp only [CoreParams.trace, Option.some.injEq, List.cons.injEq] at k5
    cases k5.1
  | set => cases k4
  | copy => cases k4
  | vfu => cases k4
  | mvm => cases k4

/-- A core goes on. -/
theorem resume_core (hi : Instant cfg) {s : Sys} (hcr : s.crashed = none) {t k : Nat} (ht : t < cfg.net.tiles)
    {size : Nat} {w : WaitTile} (h : TileRelW cfg cc p size t w (s.tile t)) (hs : .core k ∈ w.served)
    {d' : DryTile} (hm : w.dry.resume (.core k) = some d') :
    ∃ x', Reaches cfg s (s.put t x' s.net) ∧
      TileRelW cfg cc p size t { w with dry := d', served := w.served.erase (.core k) } x' ∧ d'.out = w.dry.out ∧
      d'.up = w.dry.up := by
  obtain ⟨r, data, ⟨a, n, evs, dest, read, width, vec, K, g1, g2, g3, g4, g5, g6⟩, g7, g8⟩ := h.served _ hs
  have hkc : k < cfg.cores := by rw [← h.len]; exact lt_of_some g1
  have hkl : k < w.dry.cores.length := lt_of_some g1
  have hup := not_down g1 h.down
  unfold DryTile.resume at hm
  dsimp only at hm
  rw [g1] at hm
  injection hm with hm
  subst hm
  obtain ⟨c2, f1, f2⟩ := g4 data (by omega)
  obtain ⟨log, r1⟩ := load_resume hi s ht hkc (s.tile t) (s.tile t).ctrl s.net (y := (s.tile t).core k) g2 g7 f1
  rw [put_cc_self, put_self hcr] at r1
  refine ⟨_, r1, h.resume hs (same_core rfl fun j hj => ?_) (List.length_set ..)
    (free_core (List.getElem?_set_self hkl) (.inr ⟨rfl, K, f2, g3⟩)) rfl rfl ?_ rfl, rfl, rfl⟩
  · exact List.getElem?_set_ne (Ne.symm hj)
  · intro hu
    dsimp only at hu
    rw [hup] at hu
    cases hu

end Ramwich
