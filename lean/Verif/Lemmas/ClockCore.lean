import Verif.Lemmas.ClockPipe
import Verif.Lemmas.ClockCtrl
import Verif.Lemmas.DryStart
import Verif.Lemmas.TimedSysRel

/-! # The cores of the check with the clock -/
namespace Ramwich

open Pipeline Spec

/-- The parameters of the check are those of the node. -/
structure ClockOk (cfg : SysCfg) (cc : Config) (p : CoreParams) (l : StageLat) (q : ClockPar) : Prop where
  params : ParamsOf cc p
  electrical : Electrical cc.mvmuConfig
  latencies : ∃ lat dlat, Latencies cc.mvmuConfig lat dlat
  mem : cfg.dataMemLat = q.mem
  edram : cfg.edramLat = q.edram
  fetch : q.fetch = l.fetch
  decode : q.decode = l.decode
  tiles : q.tiles = cfg.net.tiles
  cores : q.cores = cfg.cores
  noc : cfg.net.intraLat = some (q.noc : Int)
  nodes : 1 ≤ cfg.net.nodes

/-- The latency of the operation is that of the check. -/
def LatOk (cfg : SysCfg) (q : ClockPar) : CoreOp → Prop
  | .load .. => True
  | .store .. => True
  | op => cfg.execLat op = .ok (q.exec op : Int)

/-- The core is in a state in which the rest of its program does what the check says. -/
def Goes (cfg : SysCfg) (cc : Config) (p : CoreParams) (pi : Timed CoreOp) (evs : List MemEv) (c : Core) : Prop :=
  ∃ K, CoreKnown cc cfg.fl K c ∧ p.trace K (left pi) = some evs

def PhaseR (cfg : SysCfg) (cc : Config) (p : CoreParams) (c : Ctrl) (pi : Timed CoreOp) (evs : List MemEv) (x : CoreSt)
    (due : Option Nat) : DPhase → Prop
  | .ready => x.phase = .ready ∧ Goes cfg cc p pi evs x.core
  | .timing d => x.phase = .timing ∧ due = some d ∧ Goes cfg cc p pi evs x.core
  | .loadWait id n v => ∃ addr dest read width vec, x.phase = .loadWait id addr dest read width vec ∧ vec.toNat = v ∧ 0 < vec ∧
      Ticket c id n ∧ ∀ data : List I32, data.length = n → ∃ c2, x.core.loadFinish dest data = (.ok (), c2) ∧ Goes cfg cc p pi evs c2
  | .loadGot d => ∃ dest data c2, x.phase = .loadGot dest data ∧ due = some d ∧ x.core.loadFinish dest data = (.ok (), c2) ∧
      Goes cfg cc p pi evs c2
  | .storeDelay d a n v => ∃ data, x.phase = .storeDelay a data v ∧ data.length = n ∧ due = some d ∧ Goes cfg cc p pi evs x.core
  | .storeWait id => x.phase = .storeWait id ∧ Goes cfg cc p pi evs x.core
  | .halting o => x.phase = .halting ∧ due = o
  | .halted => x.phase = .halted

structure CoreR (cfg : SysCfg) (cc : Config) (p : CoreParams) (q : ClockPar) (now : Nat) (c : Ctrl) (y : DCore) (x : CoreSt)
    (pi : Timed CoreOp) (due : Option Nat) : Prop where
  pipe : y.pipe = ofTimed pi
  now : pi.now = now
  lats : ∀ op ∈ left pi, LatOk cfg q op
  phase : PhaseR cfg cc p c pi y.evs x due y.phase

variable {cfg : SysCfg} {cc : Config} {p : CoreParams} {l : StageLat} {q : ClockPar} {now : Nat}

theorem PhaseR.mono {c c' : Ctrl} {pi pi' : Timed CoreOp} {evs : List MemEv} {x : CoreSt} {due : Option Nat} {ph : DPhase}
    (h : PhaseR cfg cc p c pi evs x due ph) (ht : ∀ id n, Ticket c id n → Ticket c' id n) (hl : left pi' = left pi) :
    PhaseR cfg cc p c' pi' evs x due ph := by
  cases ph <;> simp only [PhaseR, Goes, hl] at h ⊢
  case loadWait id n v =>
    obtain ⟨addr, dest, read, width, vec, h1, h2, h3, h4, h5⟩ := h
    exact ⟨addr, dest, read, width, vec, h1, h2, h3, ht _ _ h4, h5⟩
  all_goals exact h

theorem CoreR.mono {c c' : Ctrl} {y : DCore} {x : CoreSt} {pi : Timed CoreOp} {due : Option Nat}
    (h : CoreR cfg cc p q now c y x pi due) (ht : ∀ id n, Ticket c id n → Ticket c' id n) : CoreR cfg cc p q now c' y x pi due :=
  ⟨h.pipe, h.now, h.lats, h.phase.mono ht rfl⟩

/-- Core `k` of tile `t` and the controller of the tile change. -/
def TSys.putCore (s : TSys) (t k : Nat) (c : Ctrl) (x : CoreSt) (pi : Timed CoreOp) (due : Option Nat) : TSys :=
  { s with
    sys := s.sys.setTile t { s.sys.tile t with ctrl := c, core := upd (s.sys.tile t).core k x }
    pipe := upd2 s.pipe t k pi
    due := upd2 s.due t k due }

theorem upd_keep {β : Type} (f : Nat → β) (i : Nat) : upd f i (f i) = f := by
  funext j
  unfold upd
  split
  · rename_i h; rw [h]
  · rfl

theorem upd2_keep {β : Type} (f : Nat → Nat → β) (t k : Nat) : upd2 f t k (f t k) = f := by
  unfold upd2
  rw [upd_keep, upd_keep]

variable {s : TSys} {t k : Nat} {y y' : DCore} {d d' : DCtrl} {size : Nat}

/-- What a step of a core does. -/
def CoreStepR (cfg : SysCfg) (cc : Config) (p : CoreParams) (q : ClockPar) (size now : Nat) (s : TSys) (t k : Nat) (y' : DCore)
    (d' : DCtrl) (r : Option TSys) : Prop :=
  ∃ c' x' pi' due', r = some (s.putCore t k c' x' pi' due') ∧ ClockCtrl size now d' c' ∧
    CoreR cfg cc p q now c' y' x' pi' due' ∧ ∀ id n, Ticket (s.sys.tile t).ctrl id n → Ticket c' id n

theorem putCore_crashed (s : TSys) (t k : Nat) (c : Ctrl) (x : CoreSt) (pi : Timed CoreOp) (due : Option Nat) :
    (s.putCore t k c x pi due).sys.crashed = s.sys.crashed := rfl

theorem core_move (ho : ClockOk cfg cc p l q) (hctl : ClockCtrl size now d (s.sys.tile t).ctrl)
    (hc : CoreR cfg cc p q now (s.sys.tile t).ctrl y ((s.sys.tile t).core k) (s.pipe t k) (s.due t k)) {a : PAct}
    (h2 : a ≠ .start 2) (h3 : a ≠ .finish 2) {pp : DPipe} (hm : y.pipe.move q now a = some pp) :
    CoreStepR cfg cc p q size now s t k { y with pipe := pp } d (s.pipeAct l t k a) := by
  rw [hc.pipe] at hm
  obtain ⟨p', k1, rfl, k3, k4⟩ := pipe_move ho.fetch ho.decode hc.now h2 hm
  refine ⟨(s.sys.tile t).ctrl, (s.sys.tile t).core k, p', s.due t k, ?_, hctl, ⟨rfl, k3, by rw [k4]; exact hc.lats,
    hc.phase.mono (fun _ _ h => h) k4⟩, fun _ _ h => h⟩
  have : s.pipeAct l t k a = ((s.pipe t k).move isHlt 3 l.lat a).map fun p => { s with pipe := upd2 s.pipe t k p } := by
    unfold TSys.pipeAct
    split
    · exact absurd rfl h2
    · exact absurd rfl h3
    · rfl
  rw [this, k1]
  unfold TSys.putCore Sys.setTile
  rw [upd2_keep, upd_keep, upd_keep]
  rfl

theorem core_ret (hcr : s.sys.crashed = none) (hctl : ClockCtrl size now d (s.sys.tile t).ctrl)
    (hc : CoreR cfg cc p q now (s.sys.tile t).ctrl y ((s.sys.tile t).core k) (s.pipe t k) (s.due t k))
    (hm : y.ret = some y') :
    CoreStepR cfg cc p q size now s t k y' d (s.ret cfg t k) := by
  unfold DCore.ret at hm
  split at hm
  · rename_i hph
    rw [Option.ite_none_right_eq_some] at hm
    obtain ⟨hdone, hm⟩ := hm
    injection hm with hm
    subst hm
    have hp := hc.phase
    rw [hph] at hp
    obtain ⟨hp, -⟩ := hp
    rw [hc.pipe] at hdone
    have hdone : (s.pipe t k).st.done = true := hdone
    refine ⟨(s.sys.tile t).ctrl, { (s.sys.tile t).core k with phase := .halted }, s.pipe t k, s.due t k, ?_, hctl,
      ⟨hc.pipe, hc.now, hc.lats, rfl⟩, fun _ _ h => h⟩
    unfold TSys.ret Sys.coreStep
    simp only [hp, hdone, if_true, Option.map_some]
    unfold TSys.putCore Sys.setCore
    rw [upd2_keep, upd2_keep]
  · cases hm

theorem core_exec (ho : ClockOk cfg cc p l q) (hq : q.size = size) (hcr : s.sys.crashed = none) (hnow : s.now = now)
    (hctl : ClockCtrl size now d (s.sys.tile t).ctrl)
    (hc : CoreR cfg cc p q now (s.sys.tile t).ctrl y ((s.sys.tile t).core k) (s.pipe t k) (s.due t k))
    (hm : y.exec q now d = some (y', d')) :
    CoreStepR cfg cc p q size now s t k y' d' (s.exec cfg l t k) := by
  unfold DCore.exec at hm
  split at hm
  rotate_left
  · cases hm
  rename_i op pp e1 e2 e3
  rw [hc.pipe] at e1 e2
  have e1 : (s.pipe t k).st.ctl 2 = .got op := e1
  obtain ⟨p', k1, rfl, k3, -, k5⟩ := pipe_start ho.fetch ho.decode (by omega) hc.now e2
  obtain ⟨op', k6, k7⟩ := k5 rfl
  have : op' = op := by rw [e1] at k6; injection k6 with k6; exact k6.symm
  subst this
  have hp := hc.phase
  rw [e3] at hp
  obtain ⟨hrd, K, hK, htr⟩ := hp
  rw [k7] at htr
  have hlats : ∀ op ∈ left p', LatOk cfg q op := fun o h => hc.lats o (by rw [k7]; exact List.mem_cons_of_mem _ h)
  have hlat : LatOk cfg q op' := hc.lats op' (by rw [k7]; exact List.mem_cons_self ..)
  have hex : ∀ sys', s.sys.coreStart cfg t k op' [] = some sys' → sys'.crashed = none →
      s.exec cfg l t k = some (s.setPipe sys' t k p' (s.startDue cfg op')) := by
    intro sys' h1 h2
    unfold TSys.exec
    simp only [e1, k1, h1, Option.map_some, h2, Option.isSome_none, Bool.false_eq_true, if_false]
  -- operations without DRAM access
  have plain : (match op' with | .load .. | .store .. | .hlt => False | _ => True) →
      y' = { y with pipe := ofTimed p', phase := .timing (now + q.exec op') } → d' = d →
      CoreStepR cfg cc p q size now s t k y' d' (s.exec cfg l t k) := by
    intro hop hy hd
    subst hy hd
    obtain ⟨lat, dlat, hll⟩ := ho.latencies
    obtain ⟨K', c', j1, j2, j3⟩ := trace_plain ho.params ho.electrical hll (cfg.noise t k ((s.sys.tile t).core k).log.length) hK htr
      (by cases op' <;> first | exact hop.elim | trivial)
    have hle : cfg.execLat op' = .ok (q.exec op' : Int) := by
      cases op' <;> first | exact hop.elim | exact hlat
    have hnh : op' ≠ .hlt := by rintro rfl; exact hop
    have hst : s.startDue cfg op' = some (now + q.exec op') := by
      cases op' <;> first | exact hop.elim | (simp only [TSys.startDue, hle, TSys.after, hnow, Int.toNat_natCast])
    let X : CoreSt := { core := c', prog := [], phase := .timing, log := ((s.sys.tile t).core k).log ++ [⟨op', 0, [], c'⟩] }
    have hcs : s.sys.coreStart cfg t k op' [] = some (s.sys.setCore t k X) := by
      have hb : badDelay (cfg.execLat op') = none := by rw [hle]; unfold badDelay; dsimp only; rw [if_neg (by omega)]
      unfold Sys.coreStart
      cases op' <;> first | exact hop.elim | (simp only [j1, hb, if_neg hnh]; rfl)
    refine ⟨(s.sys.tile t).ctrl, X, p', some (now + q.exec op'), ?_, hctl, ⟨rfl, k3, hlats, ?_⟩, fun _ _ h => h⟩
    · rw [hex _ hcs hcr, hst]
      rfl
    · exact ⟨rfl, rfl, K', j2, j3⟩
  cases op' with
  | load dest read width vec =>
    dsimp only at hm
    split at hm
    rotate_left
    · cases hm
    rename_i a n evs hev
    obtain ⟨c', hsub, hm⟩ := Option.map_eq_some_iff.1 hm
    injection hm with hm1 hm2
    subst hm1 hm2
    obtain ⟨a', n', c1, K', rest, g1, g2, g3, g4, g5, g6, g7⟩ := trace_load ho.params hK htr
    rw [hev] at g1
    injection g1 with g1 g1'
    injection g1 with ga gn
    subst ga gn g1'
    obtain ⟨cc', m1, m2, m3, m4, m5⟩ := clock_submit hctl hq hsub cfg.edramLat k (start := (a : Int)) rfl (kind := .read width vec)
      rfl g2.symm (by show vec = _; omega)
    let X : CoreSt := { (s.sys.tile t).core k with
      core := c1, prog := []
      phase := .loadWait (s.sys.tile t).ctrl.submitted.length a dest read width vec }
    have hcs : s.sys.coreStart cfg t k (.load dest read width vec) [] = some
        ((s.sys.setTile t { s.sys.tile t with ctrl := cc' }).setCore t k X) := by
      unfold Sys.coreStart
      simp only [g5]
      unfold Sys.ctrlAct
      rw [m1]
      simp only [Option.map_some, m2]
      rfl
    refine ⟨cc', X, p', none, ?_, m3, ⟨rfl, k3, hlats, ?_⟩, m5⟩
    · rw [hex _ hcs hcr]
      unfold TSys.setPipe TSys.putCore TSys.startDue Sys.setCore Sys.setTile
      simp only [upd_same, upd_upd]
    · refine ⟨a, dest, read, width, vec, ?_, rfl, g4, ?_, ?_⟩
      · rw [hctl.next]
      · rw [hctl.next]; exact m4
      · intro data hd
        obtain ⟨c2, f1, f2⟩ := g7 data hd
        exact ⟨c2, f1, K', f2, g6⟩
  | store dest read width vec =>
    dsimp only at hm
    split at hm
    rotate_left
    · cases hm
    rename_i a n evs hev
    injection hm with hm
    injection hm with hm1 hm2
    subst hm1 hm2
    obtain ⟨a', n', c1, data, rest, g1, g2, g3, g4, g5, g6, g7, g8⟩ := trace_store ho.params hK htr
    rw [hev] at g1
    injection g1 with g1 g1'
    injection g1 with ga gn
    subst ga gn g1'
    have hnn : (0 : Int) ≤ cfg.dataMemLat * vec := by rw [ho.mem]; exact Int.mul_nonneg (by omega) (by omega)
    have hb : badDelay (.ok (cfg.dataMemLat * vec)) = none := by unfold badDelay; dsimp only; rw [if_neg (by omega)]
    let X : CoreSt := {
      core := c1, prog := []
      phase := .storeDelay a data vec.toNat
      log := ((s.sys.tile t).core k).log ++ [⟨.store dest read width vec, a, data, c1⟩] }
    have hcs : s.sys.coreStart cfg t k (.store dest read width vec) [] = some (s.sys.setCore t k X) := by
      unfold Sys.coreStart
      simp only [g5, hb]
      rfl
    refine ⟨(s.sys.tile t).ctrl, X, p', some (now + q.mem * vec.toNat), ?_, hctl, ⟨rfl, k3, hlats, ?_⟩, fun _ _ h => h⟩
    · rw [hex _ hcs hcr]
      unfold TSys.setPipe TSys.putCore TSys.startDue Sys.setCore TSys.after
      dsimp only
      rw [ho.mem, Int.toNat_mul (by omega) (by omega), Int.toNat_natCast, hnow]
    · exact ⟨data, rfl, g6, rfl, K, g7, g8⟩
  | hlt =>
    injection hm with hm
    injection hm with hm1 hm2
    subst hm1 hm2
    have hle : cfg.execLat .hlt = .ok (q.exec .hlt : Int) := hlat
    have hb : badDelay (cfg.execLat .hlt) = none := by rw [hle]; unfold badDelay; dsimp only; rw [if_neg (by omega)]
    obtain ⟨x', hcs, hx'⟩ : ∃ x', s.sys.coreStart cfg t k .hlt [] = some (s.sys.setCore t k x') ∧ x'.phase = .halting := by
      refine ⟨{ core := ((s.sys.tile t).core k).core, prog := [], phase := .halting,
                log := ((s.sys.tile t).core k).log ++ [⟨.hlt, 0, [], ((s.sys.tile t).core k).core⟩] }, ?_, rfl⟩
      unfold Sys.coreStart
      simp only [Core.execute, hb, if_true]
    refine ⟨(s.sys.tile t).ctrl, x', p', some (now + q.exec .hlt), ?_, hctl, ⟨rfl, k3, hlats, ?_⟩, fun _ _ h => h⟩
    · rw [hex _ hcs hcr]
      unfold TSys.setPipe TSys.putCore TSys.startDue Sys.setCore
      dsimp only
      rw [hle]
      simp only [TSys.after, hnow, Int.toNat_natCast]
    · exact ⟨hx', rfl⟩
  | set => injection hm with hm; injection hm with hm1 hm2; exact plain trivial hm1.symm hm2.symm
  | copy => injection hm with hm; injection hm with hm1 hm2; exact plain trivial hm1.symm hm2.symm
  | vfu => injection hm with hm; injection hm with hm1 hm2; exact plain trivial hm1.symm hm2.symm
  | mvm => injection hm with hm; injection hm with hm1 hm2; exact plain trivial hm1.symm hm2.symm

theorem core_mid (ho : ClockOk cfg cc p l q) (hq : q.size = size) (hcr : s.sys.crashed = none) (hnow : s.now = now)
    (hctl : ClockCtrl size now d (s.sys.tile t).ctrl)
    (hc : CoreR cfg cc p q now (s.sys.tile t).ctrl y ((s.sys.tile t).core k) (s.pipe t k) (s.due t k))
    (hm : y.mid q now d = some (y', d')) :
    CoreStepR cfg cc p q size now s t k y' d' (s.mid cfg t k) := by
  have hp := hc.phase
  unfold DCore.mid at hm
  split at hm
  · rename_i id n v e
    rw [Option.ite_none_right_eq_some] at hm
    obtain ⟨hbit, hm⟩ := hm
    injection hm with hm
    injection hm with hm1 hm2
    subst hm1 hm2
    rw [e] at hp
    obtain ⟨addr, dest, read, width, vec, h1, h2, h3, h4, h5⟩ := hp
    rw [hctl.reads] at hbit
    obtain ⟨data, hdata⟩ := Option.isSome_iff_exists.1 hbit
    obtain ⟨c2, g1, g2⟩ := h5 data (h4.answer _ hdata)
    have hnn : (0 : Int) ≤ cfg.dataMemLat * vec := by rw [ho.mem]; exact Int.mul_nonneg (by omega) (by omega)
    have hb : badDelay (.ok (cfg.dataMemLat * vec)) = none := by unfold badDelay; dsimp only; rw [if_neg (by omega)]
    let X : CoreSt := { (s.sys.tile t).core k with
          phase := .loadGot dest data
          log := ((s.sys.tile t).core k).log ++
            [⟨.load dest read width vec, addr, data, (((s.sys.tile t).core k).core.loadFinish dest data).2⟩] }
    have hcs : s.sys.coreStep cfg t k = some (s.sys.setCore t k X) := by
      unfold Sys.coreStep
      simp only [h1, hdata, hb]
      rfl
    refine ⟨(s.sys.tile t).ctrl, X, s.pipe t k, some (now + q.mem * v), ?_, hctl, ⟨hc.pipe, hc.now, hc.lats, ?_⟩, fun _ _ h => h⟩
    · unfold TSys.mid
      simp only [h1, hcs, Option.map_some]
      have : (s.sys.setCore t k X).crashed.isSome = false := by
        show s.sys.crashed.isSome = false
        rw [hcr]; rfl
      rw [this]
      unfold TSys.setPipe TSys.putCore TSys.after
      simp only [Bool.false_eq_true, if_false]
      rw [ho.mem, Int.toNat_mul (by omega) (by omega), Int.toNat_natCast, hnow, h2]
      rfl
    · exact ⟨dest, data, c2, rfl, rfl, g1, g2⟩
  · rename_i dd a n v e
    rw [Option.ite_none_right_eq_some] at hm
    obtain ⟨hdd, hm⟩ := hm
    obtain ⟨c', hsub, hm⟩ := Option.map_eq_some_iff.1 hm
    injection hm with hm1 hm2
    subst hm1 hm2
    rw [e] at hp
    obtain ⟨data, h1, h2, h3, h4⟩ := hp
    obtain ⟨cc', m1, m2, m3, -, m5⟩ := clock_submit hctl hq hsub cfg.edramLat k (start := (a : Int)) rfl (kind := .write data v)
      rfl (by show (data.length : Int) = _; rw [h2]) rfl
    let X : CoreSt := { (s.sys.tile t).core k with phase := .storeWait (s.sys.tile t).ctrl.submitted.length }
    have hcs : s.sys.coreStep cfg t k = some ((s.sys.setTile t { s.sys.tile t with ctrl := cc' }).setCore t k X) := by
      unfold Sys.coreStep
      simp only [h1]
      unfold Sys.ctrlAct
      rw [m1]
      simp only [Option.map_some, m2]
      rfl
    have hexp : s.expired t k = true := by
      unfold TSys.expired
      rw [h3, hdd, hnow]; simp
    refine ⟨cc', X, s.pipe t k, none, ?_, m3, ⟨hc.pipe, hc.now, hc.lats, ?_⟩, m5⟩
    · unfold TSys.mid
      simp only [h1, hexp, if_true, hcs, Option.map_some]
      have : ((s.sys.setTile t { s.sys.tile t with ctrl := cc' }).setCore t k X).crashed.isSome = false := by
        show s.sys.crashed.isSome = false
        rw [hcr]; rfl
      rw [this]
      unfold TSys.setPipe TSys.putCore Sys.setCore Sys.setTile
      simp only [Bool.false_eq_true, if_false, upd_same, upd_upd]
    · refine ⟨?_, h4⟩
      rw [hctl.next]
  · cases hm

theorem finish_execution (hc : y.pipe = ofTimed (s.pipe t k)) (hnow : (s.pipe t k).now = now) {pp : DPipe}
    (hm : y.pipe.finish now 2 = some pp) :
    ∃ p', (s.pipe t k).finish 3 2 = some p' ∧ pp = ofTimed p' ∧ p'.now = now ∧ left p' = left (s.pipe t k) := by
  rw [hc] at hm
  exact pipe_finish (by omega) hnow hm

theorem core_fin (hcr : s.sys.crashed = none) (hnow : s.now = now) (hctl : ClockCtrl size now d (s.sys.tile t).ctrl)
    (hc : CoreR cfg cc p q now (s.sys.tile t).ctrl y ((s.sys.tile t).core k) (s.pipe t k) (s.due t k))
    (hm : y.fin now d = some y') :
    CoreStepR cfg cc p q size now s t k y' d (s.fin cfg t k) := by
  have hp := hc.phase
  have hcr' : ∀ X, (s.sys.setCore t k X).crashed.isSome = false := fun X => by
    show s.sys.crashed.isSome = false
    rw [hcr]; rfl
  have hexp : ∀ dd, s.due t k = some dd → dd = now → s.expired t k = true := by
    intro dd h1 h2
    unfold TSys.expired
    rw [h1, h2, hnow]; simp
  have hset : ∀ X p', s.setPipe (s.sys.setCore t k X) t k p' none = s.putCore t k (s.sys.tile t).ctrl X p' none :=
    fun _ _ => rfl
  unfold DCore.fin at hm
  split at hm
  · rename_i dd e
    rw [Option.ite_none_right_eq_some] at hm
    obtain ⟨hdd, hm⟩ := hm
    obtain ⟨pp, hpp, hm⟩ := Option.map_eq_some_iff.1 hm
    subst hm
    obtain ⟨p', k1, rfl, k3, k4⟩ := finish_execution hc.pipe hc.now hpp
    rw [e] at hp
    obtain ⟨h1, h2, K, hK, htr⟩ := hp
    refine ⟨(s.sys.tile t).ctrl, { (s.sys.tile t).core k with phase := .ready }, p', none, ?_, hctl,
      ⟨rfl, k3, by rw [k4]; exact hc.lats, rfl, K, hK, by rw [k4]; exact htr⟩, fun _ _ h => h⟩
    unfold TSys.fin Sys.coreStep
    simp only [h1, hexp _ h2 hdd, if_true, k1, hcr', Bool.false_eq_true, if_false, hset]
  · rename_i dd e
    rw [Option.ite_none_right_eq_some] at hm
    obtain ⟨hdd, hm⟩ := hm
    obtain ⟨pp, hpp, hm⟩ := Option.map_eq_some_iff.1 hm
    subst hm
    obtain ⟨p', k1, rfl, k3, k4⟩ := finish_execution hc.pipe hc.now hpp
    rw [e] at hp
    obtain ⟨dest, data, c2, h1, h2, h3, K, hK, htr⟩ := hp
    refine ⟨(s.sys.tile t).ctrl, { (s.sys.tile t).core k with core := c2, phase := .ready }, p', none, ?_, hctl,
      ⟨rfl, k3, by rw [k4]; exact hc.lats, rfl, K, hK, by rw [k4]; exact htr⟩, fun _ _ h => h⟩
    unfold TSys.fin Sys.coreStep
    simp only [h1, hexp _ h2 hdd, if_true, k1, h3, hcr', Bool.false_eq_true, if_false, hset]
  · rename_i id e
    rw [Option.ite_none_right_eq_some] at hm
    obtain ⟨hbit, hm⟩ := hm
    obtain ⟨pp, hpp, hm⟩ := Option.map_eq_some_iff.1 hm
    subst hm
    obtain ⟨p', k1, rfl, k3, k4⟩ := finish_execution hc.pipe hc.now hpp
    rw [e] at hp
    obtain ⟨h1, K, hK, htr⟩ := hp
    rw [hctl.writes] at hbit
    refine ⟨(s.sys.tile t).ctrl, { (s.sys.tile t).core k with phase := .ready }, p', none, ?_, hctl,
      ⟨rfl, k3, by rw [k4]; exact hc.lats, rfl, K, hK, by rw [k4]; exact htr⟩, fun _ _ h => h⟩
    unfold TSys.fin Sys.coreStep
    simp only [h1, hbit, if_true, k1, hcr', Bool.false_eq_true, if_false, hset]
  · rename_i dd e
    rw [Option.ite_none_right_eq_some] at hm
    obtain ⟨hdd, hm⟩ := hm
    obtain ⟨pp, hpp, hm⟩ := Option.map_eq_some_iff.1 hm
    subst hm
    obtain ⟨p', k1, rfl, k3, k4⟩ := finish_execution hc.pipe hc.now hpp
    rw [e] at hp
    obtain ⟨h1, h2⟩ := hp
    refine ⟨(s.sys.tile t).ctrl, (s.sys.tile t).core k, p', none, ?_, hctl,
      ⟨rfl, k3, by rw [k4]; exact hc.lats, h1, rfl⟩, fun _ _ h => h⟩
    unfold TSys.fin
    simp only [h1, hexp now (by rw [h2, hdd]) rfl, if_true, k1, Option.map_some]
    unfold TSys.setPipe TSys.putCore Sys.setTile
    rw [upd_keep, upd_keep]
  · cases hm

/-- A core that has nothing to do yet. -/
theorem core_quiet (hnow : s.now = now) (hctl : ClockCtrl size now d (s.sys.tile t).ctrl)
    (hc : CoreR cfg cc p q now (s.sys.tile t).ctrl y ((s.sys.tile t).core k) (s.pipe t k) (s.due t k))
    (hm : now < y.until d.reads d.writes) : s.coreQuiet cfg l t k = true := by
  unfold DCore.until at hm
  rw [Nat.lt_min] at hm
  obtain ⟨hm1, hm2⟩ := hm
  rw [hc.pipe] at hm2
  have hpq : (s.pipe t k).quiet isHlt 3 l.lat = true := pipe_quiet (by rw [hc.now]; exact hm2)
  have hdone : (s.pipe t k).st.done = y.pipe.done := by rw [hc.pipe]; rfl
  have hexec : s.exec cfg l t k = none := by
    have := hpq
    unfold TSys.exec
    cases hctl2 : (s.pipe t k).st.ctl 2 with
    | got op =>
      exfalso
      have : (ofTimed (s.pipe t k)).until = 0 := by
        have h2 : (ofTimed (s.pipe t k)).stageUntil 2 = 0 := by
          unfold DPipe.stageUntil
          have : (ofTimed (s.pipe t k)).ctl.getD 2 .idle = .got op := hctl2
          rw [this]
        unfold DPipe.until
        split
        · rw [h2]; simp
        · rfl
      omega
    | _ => rfl
  have hexp : ∀ dd, s.due t k = some dd → now < dd → s.expired t k = false := by
    intro dd h1 h2
    unfold TSys.expired
    rw [h1, hnow, decide_eq_false_iff_not]
    intro h
    injection h with h
    omega
  have hp := hc.phase
  have key : s.mid cfg t k = none ∧ s.fin cfg t k = none ∧ s.ret cfg t k = none := by
    unfold TSys.mid TSys.fin TSys.ret Sys.coreStep
    cases e : y.phase with
    | ready =>
      rw [e] at hp
      obtain ⟨h1, -⟩ := hp
      simp only [h1, and_self]
    | timing dd =>
      rw [e] at hp hm1
      obtain ⟨h1, h2, -⟩ := hp
      simp only [h1, hexp _ h2 hm1, Bool.false_eq_true, if_false, and_self]
    | loadWait id n v =>
      rw [e] at hp hm1
      obtain ⟨addr, dest, read, width, vec, h1, -⟩ := hp
      have : readAnswer id (s.sys.tile t).ctrl.answers = none := by
        cases hr : readAnswer id (s.sys.tile t).ctrl.answers with
        | none => rfl
        | some x =>
          have hb : d.reads.testBit id = true := by rw [hctl.reads, hr]; rfl
          simp only [hb, if_true] at hm1
          omega
      simp only [h1, this, Option.map_none, and_self]
    | loadGot dd =>
      rw [e] at hp hm1
      obtain ⟨dest, data, c2, h1, h2, -⟩ := hp
      simp only [h1, hexp _ h2 hm1, Bool.false_eq_true, if_false, and_self]
    | storeDelay dd a n v =>
      rw [e] at hp hm1
      obtain ⟨data, h1, -, h2, -⟩ := hp
      simp only [h1, hexp _ h2 hm1, Bool.false_eq_true, if_false, and_self]
    | storeWait id =>
      rw [e] at hp hm1
      obtain ⟨h1, -⟩ := hp
      have : wroteAnswer id (s.sys.tile t).ctrl.answers = false := by
        cases hr : wroteAnswer id (s.sys.tile t).ctrl.answers with
        | false => rfl
        | true =>
          have hb : d.writes.testBit id = true := by rw [hctl.writes, hr]
          simp only [hb, if_true] at hm1
          omega
      simp only [h1, this, Bool.false_eq_true, if_false, and_self]
    | halting o =>
      rw [e] at hp hm1
      obtain ⟨h1, h2⟩ := hp
      have h3 : (s.pipe t k).st.done = false := by
        rw [hdone]
        cases hd : y.pipe.done with
        | false => rfl
        | true =>
          rw [hd] at hm1
          cases o <;> simp at hm1
      have h4 : s.expired t k = false := by
        cases o with
        | none => unfold TSys.expired; rw [h2]; rfl
        | some dd =>
          refine hexp dd h2 ?_
          rw [← hdone, h3] at hm1
          simpa using hm1
      simp only [h1, h3, h4, Bool.false_eq_true, if_false, and_self]
    | halted =>
      rw [e] at hp
      have h1 : ((s.sys.tile t).core k).phase = .halted := hp
      simp only [h1, and_self]
  unfold TSys.coreQuiet
  rw [hpq, hexec, key.1, key.2.1, key.2.2]
  rfl

/-- Time passes. -/
theorem core_tick {c c' : Ctrl} {x : CoreSt} {pi : Timed CoreOp} {due : Option Nat} (h : CoreR cfg cc p q now c y x pi due)
    (ht : ∀ id n, Ticket c id n → Ticket c' id n) : CoreR cfg cc p q (now + 1) c' y x { pi with now := now + 1 } due :=
  ⟨h.pipe, rfl, h.lats, h.phase.mono ht rfl⟩

end Ramwich
