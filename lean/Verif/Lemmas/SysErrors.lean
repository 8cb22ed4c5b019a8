import Verif.Lemmas.SysHist
import Verif.Spec.SysErrors

/-! # A node that has not raised once never raises -/
namespace Ramwich

open Pipeline (upd)
open Spec

/-! ## Actions that do not raise -/

theorem ctrlAct_clean {cfg : SysCfg} {s s' : Sys} {t : Nat} {a : CtrlAct} {g : Sys → Sys}
    (h : s.ctrlAct cfg t a g = some s') (hc : s.crashed = none)
    (hok : ∀ c, (s.tile t).ctrl.act cfg.edramLat a = some c → c.crashed = none)
    (hg : ∀ s1 : Sys, s1.crashed = none → (g s1).crashed = none) : s'.crashed = none := by
  unfold Sys.ctrlAct at h
  cases ha : (s.tile t).ctrl.act cfg.edramLat a with
  | none => rw [ha] at h; cases h
  | some c =>
    rw [ha] at h
    simp only [Option.map_some, Option.some.injEq] at h
    rw [hok c ha] at h
    rw [← h]
    exact hg _ hc

theorem netAct_clean {cfg : SysCfg} {s s' : Sys} {a : NetAct} {g : Sys → Sys}
    (h : s.netAct cfg a g = some s') (hc : s.crashed = none)
    (hok : ∀ n, s.net.act cfg.net a = some n → n.crashed = none)
    (hg : ∀ s1 : Sys, s1.crashed = none → (g s1).crashed = none) : s'.crashed = none := by
  unfold Sys.netAct at h
  cases ha : s.net.act cfg.net a with
  | none => rw [ha] at h; cases h
  | some n =>
    rw [ha] at h
    simp only [Option.map_some, Option.some.injEq] at h
    rw [hok n ha] at h
    rw [← h]
    exact hg _ hc

theorem delay_ok {d : Int} (h : 0 ≤ d) : badDelay (.ok d) = none := by
  unfold badDelay
  dsimp only
  rw [if_neg (by omega)]

theorem storeRequest_vec {c c' : Core} {dest read width vec addr : Int} {data : List I32}
    (h : c.storeRequest dest read width vec = (.ok (addr, data), c')) : 0 ≤ vec := by
  unfold Core.storeRequest at h
  rcases h1 : c.loadAddress dest with ⟨e | a, c1⟩
  · rw [h1] at h; cases h
  rw [h1] at h
  simp only [Res.andThen] at h
  rcases h2 : c1.readFromRegister read (width * vec) with ⟨e | v, c2⟩
  · rw [h2] at h; cases h
  rw [h2] at h
  dsimp only at h
  by_cases hn : width < 0 ∨ vec < 0
  · rw [if_pos hn] at h; cases h
  · omega

theorem submit_clean {lat : Int} {c c' : Ctrl} {core start : Int} {kind : ReqKind} (hr : c.running = true)
    (h : c.act lat (.submit core start kind) = some c') : c'.crashed = none := by
  have hc : c.crashed = none := by
    unfold Ctrl.act at h
    split at h
    · cases h
    · rename_i hc; simpa using hc
  rw [ctrl_act_alive hc] at h
  injection h with h
  subst h
  unfold Ctrl.submit
  rw [if_neg (by simp [hr])]
  exact hc

theorem coresHalted_iff {cfg : SysCfg} {i : SysInit} {t : Nat} {v : NetView} {x : TileSt} (ha : TileAll cfg i t v x)
    (hw : TileWaits v x) {k : Nat} (hk : k < cfg.cores) (hp : (x.core k).phase.isHalted = false) :
    x.ctrl.running = true := by
  cases hr : x.ctrl.running with
  | true => rfl
  | false =>
    have := ha.halting (hw.off hr).symm k hk
    rw [hp] at this
    cases this

/-! ## Two runs -/

/-- `F` has finished without raising, `s` is on its way. -/
structure Clean (cfg cfg' : SysCfg) (i : SysInit) (F s : Sys) : Prop where
  same : sameMachine cfg cfg'
  good : ∀ t, GoodStart (i.mem t) (i.valid t)
  lat : latenciesOk cfg' i
  fin : finished cfg F
  rest : Resting cfg i F
  histF : ∀ t, TileHist cfg i t (F.tile t)
  inv : SysInv cfg' i s
  hist : ∀ t, TileHist cfg' i t (s.tile t)
  waits : ∀ t, TileWaits (s.net.view t) (s.tile t)
  order : ∀ t, SentInOrder (s.net.view t) (s.tile t)
  le : logsLe s F
  alive : s.crashed = none

section clean

variable {cfg cfg' : SysCfg} {i : SysInit} {F s : Sys}

/-- The next operation of a core process has been executed by `F`. -/
theorem Clean.core_next (h : Clean cfg cfg' i F s) {t k : Nat} (ht : t < cfg'.net.tiles) (hk : k < cfg'.cores)
    {cv : Core} {op : CoreOp} {rest : List CoreOp}
    (hr : coreRan cfg'.fl (cfg'.noise t k) 0 (i.core t k) (i.prog t k) ((s.tile t).core k).log cv (op :: rest)) :
    ∃ e, ((s.tile t).core k).log ++ [e] <+: ((F.tile t).core k).log ∧ e.op = op ∧
      e.follows cfg'.fl (cfg'.noise t k ((s.tile t).core k).log.length) cv := by
  have h1 := (finished_core h.rest.inv h.fin (t := t) (k := k) (by rw [← h.same.tiles]; exact ht)
    (by rw [← h.same.cores]; exact hk)).1
  rw [← h.same.fl, ← h.same.noise] at h1
  exact Ramwich.core_next ((h.le t).1 k) hr h1

/-- The next thing that a tile process does has been done by `F`. -/
theorem Clean.tile_next (h : Clean cfg cfg' i F s) {t : Nat} (ht : t < cfg'.net.tiles) {rest : List TileOp}
    {got : List (List I32)} (hr : tileRan (i.ops t, []) (s.tile t).log = some (rest, got)) (hne : rest ≠ []) :
    ∃ e st, (s.tile t).log ++ [e] <+: (F.tile t).log ∧ tileNext (rest, got) e = some st :=
  Ramwich.tile_next ((h.le t).2) hr hne
    (finished_tile h.rest.inv h.fin (by rw [← h.same.tiles]; exact ht)).1

/-- The controller of a tile whose next event needs it runs. -/
theorem Clean.running (h : Clean cfg cfg' i F s) {t : Nat} {e : TileEv}
    (he : (s.tile t).log ++ [e] <+: (F.tile t).log) (hs : e.served = true) (hp : (s.tile t).phase ≠ .haltRouter) :
    (s.tile t).ctrl.running = true := by
  cases hr : (s.tile t).ctrl.running with
  | true => rfl
  | false =>
    exfalso
    have h1 := ((h.waits t).off hr).resolve_right hp
    obtain ⟨l1, l2, hl⟩ := List.append_of_mem h1
    obtain ⟨more, hm⟩ := he
    have h2 := (h.histF t).after l1 (l2 ++ e :: more) (by rw [← hm, hl]; simp) e (by simp)
    rw [hs] at h2
    cases h2

/-- A request that is not answered has been answered in `F`. -/
theorem Clean.request (h : Clean cfg cfg' i F s) {t : Nat} (ht : t < cfg'.net.tiles) {r : Req}
    (hr : r ∈ (s.tile t).ctrl.submitted) (hna : ¬answered (s.tile t).ctrl r) :
    0 ≤ r.start ∧ r.start + r.length ≤ (i.mem t).size ∧ (r.isWrite = false → 0 < r.length) ∧ 0 ≤ r.numBatches := by
  have htF : t < cfg.net.tiles := by rw [← h.same.tiles]; exact ht
  have hciF := ctrlInv_of (h.good t) (h.rest.inv.tile t).ctrl
  have hci := ctrlInv_of (h.good t) (h.inv.tile t).ctrl
  have hidx := (submitted_mem _ hci.line r hr).2
  cases hk : r.kind with
  | write data rows =>
    have hlen : r.length = data.length := by simp [Req.length, hk]
    refine ⟨?_, ?_, ?_, ?_⟩
    rotate_left 2
    · intro hw; simp [Req.isWrite, hk] at hw
    · simp [Req.numBatches, hk]
    all_goals
      rcases (h.inv.tile t).writes r hr data rows hk with ⟨k, hkc, e, he, dest, read, wd, v, h1, h2, h3⟩ |
        ⟨a, src, wd, n, rws, h1, h2, h3⟩
      · obtain ⟨r', tm', h4, h5, h6⟩ := (finished_core h.rest.inv h.fin htF (h.same.cores ▸ hkc)).2 e
          (((h.le t).1 k).subset he) _ _ _ _ h1
        have h7 := hciF.ans.writes _ _ h4
        have hlen' : r'.length = data.length := by simp [Req.length, h6, h3]
        unfold inDram at h7
        rw [hlen', h5, h2] at h7
        omega
      · obtain ⟨r', tm', h4, h5, h6⟩ := (finished_tile h.rest.inv h.fin htF).2 _ _ _ _ _ ((h.le t).2.subset h1)
        have h7 := hciF.ans.writes _ _ h4
        have hlen' : r'.length = data.length := by
          have hw : (ReqKind.write rws.flatten n.toNat) = .write data n.toNat := by rw [h3]
          rw [hw] at h6
          simp [Req.length, h6]
        unfold inDram at h7
        rw [hlen', h5, h2] at h7
        omega
  | read w n =>
    have hlen : r.length = w * n := by simp [Req.length, hk]
    have hnb : r.numBatches = n := by simp [Req.numBatches, hk]
    -- an answer of the same read in the other run
    have key : (∃ r' tm d, .read r' tm d ∈ (F.tile t).ctrl.answers ∧ r'.start = r.start ∧ r'.kind = .read w n) →
        0 ≤ n → 0 ≤ r.start ∧ r.start + r.length ≤ (i.mem t).size ∧ (r.isWrite = false → 0 < r.length) ∧
          0 ≤ r.numBatches := by
      rintro ⟨r', tm, d, h1, h2, h3⟩ hn
      obtain ⟨l1, l2, hl⟩ := List.append_of_mem h1
      have g := hciF.ans.reads l1 r' tm d l2 hl
      have hlen' : r'.length = w * n := by simp [Req.length, h3]
      have hin := g.inside
      have hpos := g.pos
      unfold inDram at hin
      rw [hlen', h2] at hin
      rw [hlen'] at hpos
      rw [hlen, hnb]
      exact ⟨hin.1, hin.2, fun _ => hpos, hn⟩
    rcases (h.inv.tile t).owner r hr with h1 | ⟨hcore, h1⟩ | ⟨k, hkc, hcore, h1⟩
    · exact absurd h1 hna
    · -- a Send
      have hti := (h.inv.tile t).tile
      obtain ⟨rs, got, h2, h3⟩ := hti.ran
      cases hp : (s.tile t).phase with
      | sendWait id addr target width vec =>
        rw [hp] at h1 h3
        have h1 : id = r.id := h1
        obtain ⟨h4, h5, r0, h6, -, h7, h8⟩ := h3
        rw [h1, hidx] at h6
        injection h6 with h6
        subst h6
        rw [hk] at h8
        injection h8 with e1 e2
        subst e1 e2
        obtain ⟨e, st, h9, h10⟩ := h.tile_next ht h2 (by rw [h4]; simp)
        rw [h4, h5] at h10
        rcases tileNext_cases h10 with ⟨a', t', w', v', rows, rest, h11, -, h12, -⟩ | ⟨_, _, _, _, _, _, h11, -⟩ |
          ⟨_, _, _, _, _, h11, -⟩ | ⟨_, h11, -⟩
        · injection h11 with h11 _
          injection h11 with e1 e2 e3 e4
          subst e1 e2 e3 e4
          have hmem : TileEv.sent addr target w n rows ∈ (F.tile t).log := by
            rw [← h12]; exact h9.subset (by simp)
          obtain ⟨-, hn, r', tm, data, h13, h14, h15, -⟩ := (h.rest.inv.tile t).tile.sent _ _ _ _ _ hmem
          exact key ⟨r', tm, data, h13, by rw [h14, h7], h15⟩ hn
        all_goals (injection h11 with h11 _; cases h11)
      | recvWrite id =>
        rw [hp] at h1
        have h1 : id = r.id := h1
        obtain ⟨r0, h4, h5⟩ := (h.waits t).recv id hp
        rw [h1, hidx] at h4
        injection h4 with h4
        subst h4
        simp [Req.isWrite, hk] at h5
      | _ => rw [hp] at h1; cases h1
    · -- a load
      have hco := (h.inv.tile t).cores k
      obtain ⟨cv, rs, h2, h3⟩ := hco.ran
      unfold CorePhaseOk at h3
      cases hp : ((s.tile t).core k).phase with
      | loadWait id addr dest read width vec =>
        rw [hp] at h1 h3
        have h1 : id = r.id := h1
        obtain ⟨h4, h5, r0, h6, -, h7, h8⟩ := h3
        rw [h1, hidx] at h6
        injection h6 with h6
        subst h6
        rw [hk] at h8
        injection h8 with e1 e2
        subst e1 e2
        rw [h4] at h2
        obtain ⟨e, h9, h10, h11⟩ := h.core_next ht hkc h2
        have hn : 0 ≤ n := h.lat.exec t ht k hkc (.load dest read w n)
          (coreRan_rest _ _ _ _ _ _ h2 _ (List.mem_cons_self ..))
        unfold CoreEv.follows at h11
        rw [h10] at h11
        obtain ⟨c1, h12, -⟩ := h11
        rw [h5] at h12
        injection h12 with h12 _
        injection h12 with h12
        obtain ⟨r', tm, h13, h14, h15⟩ := ((h.rest.inv.tile t).cores k).loads e (h9.subset (by simp)) _ _ _ _ h10
        exact key ⟨r', tm, _, h13, by rw [h14, h7, h12], h15⟩ hn
      | storeWait id =>
        rw [hp] at h1
        have h1 : id = r.id := h1
        obtain ⟨r0, h4, h5⟩ := (h.waits t).store k id hp
        rw [h1, hidx] at h4
        injection h4 with h4
        subst h4
        simp [Req.isWrite, hk] at h5
      | _ => rw [hp] at h1; cases h1

/-- The controllers do not raise. -/
theorem Clean.ctrl (h : Clean cfg cfg' i F s) {t : Nat} (ht : t < cfg'.net.tiles) {a : CtrlAct}
    (hi : a.internal = true) {c : Ctrl} (hc : (s.tile t).ctrl.act cfg'.edramLat a = some c) : c.crashed = none := by
  have hcr := (h.inv.alive h.alive).2 t
  have hci := ctrlInv_of (h.good t) (h.inv.tile t).ctrl
  have hbus : ∀ r rest, (s.tile t).ctrl.bus = r :: rest → r ∈ (s.tile t).ctrl.submitted ∧
      ¬answered (s.tile t).ctrl r := by
    intro r rest hb
    have hl : r ∈ (s.tile t).ctrl.line := by unfold Ctrl.line; rw [hb]; simp
    refine ⟨line_mem _ hci.line r hl, ?_⟩
    rintro ⟨an, h1, h2⟩
    have hnd : ((s.tile t).ctrl.line ++ (s.tile t).ctrl.pending ++ (s.tile t).ctrl.answers.map Answer.req).Nodup :=
      hci.line.perm.nodup_iff.2 (submitted_nodup _ hci.line)
    exact (List.nodup_append.1 hnd).2.2 r (List.mem_append_left _ hl) an.req (List.mem_map_of_mem h1) h2.symm
  rw [ctrl_act_alive hcr] at hc
  cases a with
  | submit => cases hi
  | stop => cases hi
  | pick =>
    dsimp only at hc
    unfold Ctrl.pick at hc
    split at hc
    · injection hc with hc; subst hc; exact hcr
    · cases hc
  | dispatch =>
    dsimp only at hc
    unfold Ctrl.dispatch at hc
    split at hc
    · split at hc <;> (injection hc with hc; subst hc; exact hcr)
    · cases hc
  | grant =>
    dsimp only at hc
    unfold Ctrl.grant at hc
    split at hc
    · rename_i r rest hb hd
      obtain ⟨h1, h2⟩ := hbus r rest hb
      have h3 := (h.request ht h1 h2).2.2.2
      rw [if_neg (by have := Int.mul_nonneg h.lat.edram h3; omega)] at hc
      injection hc with hc; subst hc; exact hcr
    · cases hc
  | complete =>
    dsimp only at hc
    unfold Ctrl.complete at hc
    split at hc
    · rename_i r rest d hb hd
      obtain ⟨h1, h2⟩ := hbus r rest hb
      obtain ⟨h3, h4, h5, -⟩ := h.request ht h1 h2
      split at hc
      · cases hc
      dsimp only at hc
      have hsz := hci.mem.size
      split at hc
      · rename_i b n hk
        have h5 := h5 (by simp [Req.isWrite, hk])
        have hok : ((s.tile t).ctrl.mem.read r.start r.length r.numBatches) =
            (.ok (pySlice (s.tile t).ctrl.mem.cells r.start (r.start + r.length)),
              { (s.tile t).ctrl.mem with stats := (s.tile t).ctrl.mem.stats.addRead r.numBatches r.length }) := by
          unfold Memory.read
          dsimp only
          rw [if_neg (by rw [hsz]; omega), if_neg (by omega)]
        rw [hok] at hc
        injection hc with hc; subst hc; exact hcr
      · rename_i data n hk
        have hlen : r.length = data.length := by simp [Req.length, hk]
        rw [hlen] at h4
        have hok : ((s.tile t).ctrl.mem.write r.start data r.numBatches) =
            (.ok (), { (s.tile t).ctrl.mem with
              cells := pySliceSet (s.tile t).ctrl.mem.cells r.start.toNat data
              stats := (s.tile t).ctrl.mem.stats.addWrite r.numBatches data.length }) := by
          unfold Memory.write
          dsimp only
          rw [if_neg (by rw [hsz]; omega)]
        rw [hok] at hc
        injection hc with hc; subst hc; exact hcr
    · cases hc
  | tick =>
    dsimp only at hc
    unfold Ctrl.tick at hc
    split at hc
    · injection hc with hc; subst hc; exact hcr
    · cases hc

/-- The core processes do not raise. -/
theorem Clean.coreStep (h : Clean cfg cfg' i F s) {t k : Nat} (ht : t < cfg'.net.tiles) (hk : k < cfg'.cores)
    {s' : Sys} (ha : s.coreStep cfg' t k = some s') : s'.crashed = none := by
  have hco := (h.inv.tile t).cores k
  obtain ⟨cv, rs, hran, hph⟩ := hco.ran
  unfold CorePhaseOk at hph
  have hrun : (((s.tile t).core k).phase.isHalted = false) → (s.tile t).ctrl.running = true :=
    coresHalted_iff (h.inv.tile t) (h.waits t) hk
  unfold Sys.coreStep at ha
  dsimp only at ha
  cases hp : ((s.tile t).core k).phase with
  | ready =>
    rw [hp] at ha hph hrun
    dsimp only at ha
    have hrun := hrun rfl
    cases hq : ((s.tile t).core k).prog with
    | nil => rw [hq] at ha; cases ha
    | cons op rest =>
      rw [hq] at ha
      dsimp only at ha
      rw [← hph.2, hq] at hran
      have hop := coreRan_rest _ _ _ _ _ _ hran op (List.mem_cons_self ..)
      obtain ⟨e, h1, h2, h3⟩ := h.core_next ht hk hran
      rw [← hph.1] at h3
      unfold CoreEv.follows at h3
      unfold Sys.coreStart at ha
      dsimp only at ha
      have hlat := h.lat.exec t ht k hk op hop
      cases op with
      | load dest read width vec =>
        rw [h2] at h3
        obtain ⟨c1, h4, -⟩ := h3
        dsimp only at ha
        rw [h4] at ha
        exact ctrlAct_clean ha h.alive (fun c hc => submit_clean hrun hc) (fun s1 h1 => h1)
      | store dest read width vec =>
        rw [h2] at h3
        have h3 : ((s.tile t).core k).core.storeRequest dest read width vec = (.ok (e.addr, e.data), e.after) := h3
        dsimp only at ha
        rw [h3] at ha
        have hv : 0 ≤ vec := by
          exact storeRequest_vec h3
        dsimp only at ha
        rw [delay_ok (Int.mul_nonneg h.lat.dataMem hv)] at ha
        injection ha with ha
        subst ha
        exact h.alive
      | _ =>
        rw [h2] at h3
        obtain ⟨d, h4, h5⟩ := hlat
        dsimp only at ha h3
        rw [h3.1, h4] at ha
        dsimp only at ha
        rw [delay_ok h5] at ha
        injection ha with ha
        subst ha
        exact h.alive
  | timing =>
    rw [hp] at ha
    injection ha with ha
    subst ha
    exact h.alive
  | loadWait id addr dest read width vec =>
    rw [hp] at ha hph
    dsimp only at ha
    rw [hph.1] at hran
    have hv : 0 ≤ vec := h.lat.exec t ht k hk (.load dest read width vec)
      (coreRan_rest _ _ _ _ _ _ hran _ (List.mem_cons_self ..))
    split at ha
    · cases ha
    · rw [delay_ok (Int.mul_nonneg h.lat.dataMem hv)] at ha
      injection ha with ha
      subst ha
      exact h.alive
  | loadGot dest data =>
    rw [hp] at ha
    dsimp only at ha
    obtain ⟨l1, e, read, w, v, h1, h2, h3, h4⟩ := ((h.hist t).cores k).opened dest data hp
    rw [h1] at hran
    obtain ⟨cv1, rs1, h5, h6⟩ := coreRan_prefix _ _ _ _ _ _ _ hran
    obtain ⟨r2, h7, h8, -⟩ := h6
    unfold CoreEv.follows at h8
    rw [h2] at h8
    obtain ⟨c1, h9, -⟩ := h8
    have hc1 := h4 cv1 rs1 c1 h5 h9
    obtain ⟨more, hmore⟩ := (h.le t).1 k
    rw [h1] at hmore
    rw [h.same.fl, h.same.noise] at h5
    have hF := ((h.histF t).cores k).done l1 e more dest read w v (by rw [← hmore]; simp) h2 cv1 rs1 c1 h5 h9
      (Or.inr (by
        intro d z hz
        rcases (h.fin.2 t (by rw [← h.same.tiles]; exact ht)).2.2 k (by rw [← h.same.cores]; exact hk) with h10 | ⟨h10, -⟩ <;>
          (rw [h10] at hz; cases hz)))
    rw [← hc1, h3] at hF
    split at ha
    · rename_i e' c' heq
      rw [heq] at hF
      cases hF
    · injection ha with ha
      subst ha
      exact h.alive
  | storeDelay addr data rows =>
    rw [hp] at ha hrun
    exact ctrlAct_clean ha h.alive (fun c hc => submit_clean (hrun rfl) hc) (fun s1 h1 => h1)
  | storeWait id =>
    rw [hp] at ha
    dsimp only at ha
    split at ha
    · injection ha with ha
      subst ha
      exact h.alive
    · cases ha
  | halting =>
    rw [hp] at ha
    injection ha with ha
    subst ha
    exact h.alive
  | halted => rw [hp] at ha; cases ha

/-- `F` has taken every packet that `s` has taken. -/
theorem Clean.taken (h : Clean cfg cfg' i F s) : takenLe s F := by
  intro a d
  have hti := (h.inv.tile d).tile
  have h1 : s.net.readLog d a = rowsFrom a (s.tile d).log := (hti.reads a).symm
  have h2 : F.net.readLog d a = rowsFrom a (F.tile d).log := ((h.rest.inv.tile d).tile.reads a).symm
  unfold takenOf
  rw [h1, h2, List.length_append, List.length_append]
  have hle := (rowsFrom_mono (d := a) (h.le d).2).length_le
  by_cases hd : d < cfg'.net.tiles
  case neg =>
    obtain ⟨as, hr⟩ := h.inv.net
    rw [((netInv_run cfg'.net as _ hr).quiet d hd).2.2.1]
    simp only [takenFrom, List.length_nil]
    omega
  have hrd := hti.reader
  have hview : (s.net.view d).reader = s.net.reader d := rfl
  rw [hview] at hrd
  have hidle : s.net.reader d = .idle → (rowsFrom a (s.tile d).log).length + (takenFrom a (s.net.reader d)).length ≤
      (rowsFrom a (F.tile d).log).length + (takenFrom a (F.net.reader d)).length := by
    intro hi
    rw [hi]
    simp only [takenFrom, List.length_nil]
    omega
  cases hp : (s.tile d).phase with
  | recvWait addr source width vec got =>
    rw [hp] at hrd
    rcases hrd with hrd | ⟨x, hrd⟩
    · rw [hrd]; simp only [takenFrom, List.length_nil]; omega
    rw [hrd]
    by_cases hs : a = source.toNat
    case neg => simp [takenFrom, Ne.symm hs]; omega
    obtain ⟨rs, g, h3, h4⟩ := hti.ran
    rw [hp] at h4
    obtain ⟨h5, h6, h7, -, h8⟩ := h4
    obtain ⟨e, st, h9, h10⟩ := h.tile_next hd h3 (by rw [h5]; simp)
    rw [h5, h6] at h10
    rcases tileNext_cases h10 with ⟨_, _, _, _, _, _, h11, -⟩ | ⟨a', s', w', v', y, rest, h11, h12, -⟩ |
      ⟨_, _, _, _, _, h11, -, h12, -⟩ | ⟨_, h11, -⟩
    · injection h11 with h11 _; cases h11
    · injection h11 with h11 _
      injection h11 with e1 e2 e3 e4
      have hm := (rowsFrom_mono (d := a) h9).length_le
      rw [rowsFrom_snoc, List.length_append, h12] at hm
      have hone : rowsFrom a [TileEv.row s' y] = [y] := by
        have : s' = (a : Int) := by rw [← e2]; omega
        simp [rowsFrom, this]
      rw [hone] at hm
      simp only [takenFrom, if_pos hs.symm, List.length_singleton] at hm ⊢
      omega
    · injection h11 with h11 _
      injection h11 with e1 e2 e3 e4
      rw [← e4] at h12
      exact absurd h7 h12
    · injection h11 with h11 _; cases h11
  | _ => rw [hp] at hrd; exact hidle hrd

/-- A packet that the send thread holds has been sent in `F` too. -/
theorem Clean.routed (h : Clean cfg cfg' i F s) {t : Nat} (ht : t < cfg'.net.tiles) {p : Packet}
    (hk : (s.net.sender t).held = some p) : routeOk cfg'.net t p := by
  have htF : t < cfg.net.tiles := by rw [← h.same.tiles]; exact ht
  obtain ⟨PG, hP1, hP2⟩ := processed h.inv t
  obtain ⟨PF, -, hF2, hF3⟩ := delivered_rest h.good htF h.inv (h.order t) h.rest (h.le t).2 h.taken hP1 hP2
  have hall := processed_prefix (rest := []) (h.order t) (h.rest.order t) (todo_rest h.good h.rest htF) (h.le t).2
    (List.append_nil _).symm
  have hone : PG.map Packet.td ++ [p.td] <+: (F.net.sent t).map Packet.td := by
    refine List.IsPrefix.trans ?_ hall
    rw [hP1, hk]
    simp
  obtain ⟨bs, hb⟩ := h.rest.inv.net
  have hgone : ∀ q ∈ PF, routeOk cfg.net t q := by
    obtain ⟨P, h1, h2⟩ := netGone_run cfg.net bs _ hb t
    rw [hF2] at h1
    rw [List.append_cancel_right h1]
    exact h2
  have hroute : ∀ q : Packet, q.td = p.td → routeOk cfg.net t q → routeOk cfg'.net t p := by
    intro q h1 h2
    have h3 : q.target = p.target := congrArg Prod.fst h1
    unfold routeOk at h2 ⊢
    rw [← h3, h.same.tiles]
    exact h2
  rcases Nat.lt_or_ge PG.length PF.length with hl | hl
  · have h1 : PG.map Packet.td ++ [p.td] <+: PF.map Packet.td := by
      refine List.prefix_of_prefix_length_le hone ?_ (by simp; omega)
      rw [hF2, List.map_append]
      exact List.prefix_append _ _
    obtain ⟨q, h2, h3⟩ := List.mem_map.1 (h1.subset (List.mem_append_right _ (List.mem_singleton_self _)))
    exact hroute q h3 (hgone q h2)
  · have h1 : PG.map Packet.td = PF.map Packet.td :=
      hF3.eq_of_length_le (by simpa using hl)
    rw [hF2, List.map_append, ← h1, List.prefix_append_right_inj] at hone
    rcases thread_rest h.rest htF with ⟨h2, h3⟩ | ⟨q, inter, h2, -⟩
    · rw [h2, h3] at hone
      simp [Sender.held] at hone
    · rw [h2] at hone
      have h3 : q.td = p.td := by
        obtain ⟨z, hz⟩ := hone
        simp only [Sender.held, Option.toList_some, List.singleton_append, List.map_cons, List.cons.injEq] at hz
        exact hz.1.symm
      have hi := netInv_run cfg.net bs _ hb
      have h4 := hi.route t q inter (by rw [h2]; rfl)
      have h5 := hi.atTarget t q (by rw [h2]; rfl)
      have h6 := (hi.src t).2 q (by rw [h2]; rfl)
      exact hroute q h3 ⟨h4.1, h4.2.1, by rw [← h6]; exact h5⟩

/-- The send threads do not raise. -/
theorem Clean.thread (h : Clean cfg cfg' i F s) {t : Nat} {n : Net} (ha : s.net.act cfg'.net (.thread t) = some n) :
    n.crashed = none := by
  have hcr := (h.inv.alive h.alive).1
  obtain ⟨-, ht, ha⟩ := net_act_cases ha
  have ht : t < cfg'.net.tiles := ht
  obtain ⟨bs, hb⟩ := h.inv.net
  have hi := netInv_run cfg'.net bs _ hb
  have hr := fun p => h.routed ht (p := p)
  dsimp only at ha
  unfold Net.thread at ha
  split at ha
  · cases ha
  dsimp only at ha
  cases hk : s.net.sender t with
  | idle =>
    rw [hk] at ha
    dsimp only at ha
    split at ha
    · cases ha
    · injection ha with ha; subst ha; exact hcr
  | handed p =>
    rw [hk] at ha hr
    obtain ⟨h1, h2, h3⟩ := hr p rfl
    have h4 := (hi.src t).2 p (by rw [hk]; rfl)
    obtain ⟨l, h5, h6⟩ := h.lat.net
    dsimp only at ha
    rw [if_neg (not_not.2 ⟨h1, h2⟩), h4, latency_intra cfg'.net t p.target ht h1 h2, h5] at ha
    dsimp only at ha
    rw [if_neg (by omega)] at ha
    injection ha with ha; subst ha; exact hcr
  | flying p b =>
    rw [hk] at ha hr
    obtain ⟨h1, h2, h3⟩ := hr p rfl
    have h4 := (hi.src t).2 p (by rw [hk]; rfl)
    have hbuf : cfg'.net.hasBuffer p.target.toNat p.src = true := by
      unfold NetConfig.hasBuffer
      have := h.lat.nodes
      have h5 : cfg'.net.tiles ≤ cfg'.net.nodes * cfg'.net.tiles := Nat.le_mul_of_pos_left _ this
      have h6 : ((cfg'.net.nodes * cfg'.net.tiles : Nat) : Int) = cfg'.net.nodes * cfg'.net.tiles := by push_cast; rfl
      simp only [Bool.and_eq_true, decide_eq_true_eq]
      rw [h4, ← h6]
      omega
    dsimp only at ha
    rw [if_pos hbuf] at ha
    injection ha with ha; subst ha; exact hcr
  | putting p b =>
    rw [hk] at ha
    dsimp only at ha
    split at ha
    · injection ha with ha; subst ha; exact hcr
    · cases ha
  | deposited p b => rw [hk] at ha; injection ha with ha; subst ha; exact hcr
  | delivered p b => rw [hk] at ha; injection ha with ha; subst ha; exact hcr

/-- Actions of the routers other than those that look for a buffer do not raise. -/
theorem net_clean {c : NetConfig} {n n' : Net} {a : NetAct} (h : n.act c a = some n')
    (h1 : ∀ t, a ≠ .thread t) (h2 : ∀ t src, a ≠ .startRead t src) : n'.crashed = none := by
  obtain ⟨hcr, -, ha⟩ := net_act_cases h
  cases a with
  | send i target data => obtain ⟨rfl, -⟩ := sendIf_send ha; exact hcr
  | added i =>
    dsimp only at ha
    unfold Net.added at ha
    split at ha
    · cases ha
    · injection ha with ha; subst ha; exact hcr
  | thread i => exact absurd rfl (h1 i)
  | startRead i src => exact absurd rfl (h2 i src)
  | take i => obtain ⟨_, _, _, -, -, rfl⟩ := view_take ha; exact hcr
  | readDone i =>
    obtain ⟨y, ha⟩ := ha
    obtain ⟨_, -, rfl⟩ := view_readDone ha
    exact hcr
  | halt i => obtain ⟨-, rfl⟩ := view_halt ha; exact hcr
  | stopStep i => obtain ⟨_, _, st, -, rfl⟩ := view_stopStep ha; exact hcr

/-- The tile processes do not raise. -/
theorem Clean.tileStep (h : Clean cfg cfg' i F s) {t : Nat} (ht : t < cfg'.net.tiles) {s' : Sys}
    (ha : s.tileStep cfg' t = some s') : s'.crashed = none := by
  have htF : t < cfg.net.tiles := by rw [← h.same.tiles]; exact ht
  have hti := (h.inv.tile t).tile
  obtain ⟨rs, got0, hran, hph⟩ := hti.ran
  unfold TilePhaseOk at hph
  unfold Sys.tileStep at ha
  dsimp only at ha
  cases hp : (s.tile t).phase with
  | ready =>
    rw [hp] at ha hph
    dsimp only at ha hph
    obtain ⟨rfl, rfl⟩ := hph
    cases hq : (s.tile t).ops with
    | nil => rw [hq] at ha; cases ha
    | cons op rest =>
      rw [hq] at ha hran
      dsimp only at ha
      unfold Sys.tileStart at ha
      dsimp only at ha
      cases op with
      | send addr target width vec =>
        dsimp only at ha
        refine ctrlAct_clean ha h.alive (fun c hc => submit_clean ?_ hc) (fun s1 h1 => h1)
        obtain ⟨e, st, h9, h10⟩ := h.tile_next ht hran (by simp)
        rcases tileNext_cases h10 with ⟨_, _, _, _, rows, _, -, -, h12, -⟩ | ⟨_, _, _, _, _, _, h11, -⟩ |
          ⟨_, _, _, _, _, h11, -⟩ | ⟨_, h11, -⟩
        · exact h.running h9 (by rw [h12]; rfl) (by rw [hp]; simp)
        all_goals (injection h11 with h11 _; cases h11)
      | receive addr source width vec =>
        dsimp only at ha
        have hwv : 0 ≤ width ∧ 0 ≤ vec := by
          obtain ⟨dn, h1, -⟩ := (h.hist t).ops
          obtain ⟨dF, h2, h3⟩ := (h.histF t).ops
          rw [(h.fin.2 t htF).2.1, List.append_nil] at h2
          refine h3 addr source width vec ?_
          rw [← h2, h1, hq]
          simp
        rw [if_neg (by omega)] at ha
        injection ha with ha; subst ha; exact h.alive
      | halt => injection ha with ha; subst ha; exact h.alive
  | sendWait id addr target width vec =>
    rw [hp] at ha hph
    dsimp only at ha hph
    obtain ⟨h1, h2, -⟩ := hph
    obtain ⟨e, st, h9, h10⟩ := h.tile_next ht hran (by rw [h1]; simp)
    rw [h1, h2] at h10
    have hwv : 0 ≤ width ∧ 0 ≤ vec := by
      rcases tileNext_cases h10 with ⟨_, _, _, _, rows, _, h11, -, h12, -⟩ | ⟨_, _, _, _, _, _, h11, -⟩ |
        ⟨_, _, _, _, _, h11, -⟩ | ⟨_, h11, -⟩
      · injection h11 with h11 _
        injection h11 with e1 e2 e3 e4
        subst e1 e2 e3 e4
        have hmem : TileEv.sent addr target width vec rows ∈ (F.tile t).log := by
          rw [← h12]; exact h9.subset (by simp)
        have := (h.rest.inv.tile t).tile.sent _ _ _ _ _ hmem
        exact ⟨this.1, this.2.1⟩
      all_goals (injection h11 with h11 _; cases h11)
    split at ha
    · cases ha
    · rw [if_neg (by omega)] at ha
      injection ha with ha; subst ha; exact h.alive
  | sending target todo =>
    rw [hp] at ha
    dsimp only at ha
    split at ha
    · injection ha with ha; subst ha; exact h.alive
    · rw [delay_ok h.lat.dataMem] at ha
      exact netAct_clean ha h.alive (fun n hn => net_clean hn (by simp) (by simp)) (fun s1 h1 => h1)
  | adding target todo =>
    rw [hp] at ha
    exact netAct_clean ha h.alive (fun n hn => net_clean hn (by simp) (by simp)) (fun s1 h1 => h1)
  | recving addr source width vec got =>
    rw [hp] at ha hph
    dsimp only at ha hph
    obtain ⟨h1, h2, h3, -⟩ := hph
    obtain ⟨e, st, h9, h10⟩ := h.tile_next ht hran (by rw [h1]; simp)
    rw [h1, h2] at h10
    split at ha
    · rename_i hg
      refine netAct_clean ha h.alive (fun n hn => ?_) (fun s1 h1 => h1)
      have hrow : ∃ y, e = .row source y := by
        rcases tileNext_cases h10 with ⟨_, _, _, _, _, _, h11, -⟩ | ⟨_, _, _, _, y, _, h11, h12, -⟩ |
          ⟨_, _, _, _, _, h11, -, h12, -⟩ | ⟨_, h11, -⟩
        · injection h11 with h11 _; cases h11
        · injection h11 with h11 _
          injection h11 with e1 e2 e3 e4
          exact ⟨y, by rw [h12, e2]⟩
        · injection h11 with h11 _
          injection h11 with e1 e2 e3 e4
          rw [← e4] at h12
          exact absurd hg h12
        · injection h11 with h11 _; cases h11
      obtain ⟨y, rfl⟩ := hrow
      have hmem : TileEv.row source y ∈ (F.tile t).log := h9.subset (by simp)
      have hbF := (h.histF t).rows source y hmem
      unfold NetConfig.hasBuffer at hbF
      simp only [Bool.and_eq_true, decide_eq_true_eq] at hbF
      obtain ⟨⟨hb1, -⟩, hb2⟩ := hbF
      -- the source is a tile of the node
      have hsrc : source.toNat < cfg.net.tiles := by
        by_contra hn
        obtain ⟨bs, hb⟩ := h.rest.inv.net
        have hi := netInv_run cfg.net bs _ hb
        have h4 := hi.stream source.toNat t
        rw [(hi.quiet source.toNat hn).2.2.2] at h4
        have h5 : F.net.readLog t source.toNat = rowsFrom source.toNat (F.tile t).log :=
          ((h.rest.inv.tile t).tile.reads source.toNat).symm
        have h6 : y ∈ rowsFrom source.toNat (F.tile t).log := by
          unfold rowsFrom
          refine List.mem_flatMap.2 ⟨_, hmem, ?_⟩
          have : source = (source.toNat : Int) := by omega
          simp [← this]
        rw [← h5] at h6
        have h7 : F.net.readLog t source.toNat = [] := by
          have : dataTo t [] = ([] : List (List I32)) := rfl
          rw [this] at h4
          simp only [List.append_assoc] at h4
          exact (List.append_eq_nil_iff.1 h4.symm).1
        rw [h7] at h6
        cases h6
      obtain ⟨hcr, -, hn⟩ := net_act_cases hn
      dsimp only at hn
      unfold Net.startRead at hn
      split at hn
      · have hbuf : cfg'.net.hasBuffer t source = true := by
          unfold NetConfig.hasBuffer
          have := h.lat.nodes
          have h5 : cfg'.net.tiles ≤ cfg'.net.nodes * cfg'.net.tiles := Nat.le_mul_of_pos_left _ this
          have h6 : ((cfg'.net.nodes * cfg'.net.tiles : Nat) : Int) = cfg'.net.nodes * cfg'.net.tiles := by push_cast; rfl
          have h7 := h.same.tiles
          simp only [Bool.and_eq_true, decide_eq_true_eq]
          rw [← h6]
          omega
        rw [if_pos hbuf] at hn
        injection hn with hn; subst hn; exact hcr
      · cases hn
    · rename_i hg
      refine ctrlAct_clean ha h.alive (fun c hc => submit_clean ?_ hc) (fun s1 h1 => h1)
      rcases tileNext_cases h10 with ⟨_, _, _, _, _, _, h11, -⟩ | ⟨_, _, _, _, y, _, h11, -, h12, -⟩ |
        ⟨_, _, _, _, _, h11, h12, -⟩ | ⟨_, h11, -⟩
      · injection h11 with h11 _; cases h11
      · injection h11 with h11 _
        injection h11 with e1 e2 e3 e4
        rw [← e4] at h12
        exact absurd h12 hg
      · exact h.running h9 (by rw [h12]; rfl) (by rw [hp]; simp)
      · injection h11 with h11 _; cases h11
  | recvWait addr source width vec got =>
    rw [hp] at ha
    dsimp only at ha
    split at ha
    · exact netAct_clean ha h.alive (fun n hn => net_clean hn (by simp) (by simp)) (fun s1 h1 => h1)
    · cases ha
  | recvWrite id =>
    rw [hp] at ha
    dsimp only at ha
    split at ha
    · injection ha with ha; subst ha; exact h.alive
    · cases ha
  | haltCores =>
    rw [hp] at ha
    dsimp only at ha
    split at ha
    · split at ha
      · injection ha with ha; subst ha; exact h.alive
      · exact netAct_clean ha h.alive (fun n hn => net_clean hn (by simp) (by simp)) (fun s1 h1 => h1)
    · cases ha
  | haltRouter =>
    rw [hp] at ha
    dsimp only at ha
    split at ha
    · refine ctrlAct_clean ha h.alive (fun c hc => ?_) (fun s1 h1 => h1)
      have hcc := (h.inv.alive h.alive).2 t
      have hans := answered_of_halting (h.inv.tile t) ((h.inv.tile t).halting (Or.inl hp)) (by
        intro id hw; rw [hp] at hw; cases hw)
      have hpend := (answered_all (ctrlInv_of (h.good t) (h.inv.tile t).ctrl).line hans).2
      rw [ctrl_act_alive hcc] at hc
      dsimp only at hc
      unfold Ctrl.stop at hc
      split at hc
      · injection hc with hc; subst hc; exact hcc
      · dsimp only at hc
        rw [if_pos hpend] at hc
        injection hc with hc; subst hc; exact hcc
    · exact netAct_clean ha h.alive (fun n hn => net_clean hn (by simp) (by simp)) (fun s1 h1 => h1)

/-- Nothing raises. -/
theorem Clean.act (h : Clean cfg cfg' i F s) {a : SysAct} {s' : Sys} (ha : s.act cfg' a = some s') :
    s'.crashed = none := by
  unfold Sys.act at ha
  rw [if_neg (by simp [h.alive])] at ha
  cases a with
  | ctrl t b =>
    cases b with
    | submit => cases ha
    | stop => cases ha
    | _ =>
      dsimp only at ha
      split at ha
      · rename_i ht
        exact ctrlAct_clean ha h.alive (fun c hc => h.ctrl ht rfl hc) (fun s1 h1 => h1)
      · cases ha
  | thread t => exact netAct_clean ha h.alive (fun n hn => h.thread hn) (fun s1 h1 => h1)
  | take t => exact netAct_clean ha h.alive (fun n hn => net_clean hn (by simp) (by simp)) (fun s1 h1 => h1)
  | core t k =>
    dsimp only at ha
    split at ha
    · rename_i hh; exact h.coreStep hh.1 hh.2 ha
    · cases ha
  | tile t =>
    dsimp only at ha
    split at ha
    · rename_i hh; exact h.tileStep hh ha
    · cases ha

end clean

/-- If a run has finished without raising, no run raises. -/
theorem never_raises {cfg cfg' : SysCfg} {i : SysInit} {F : Sys} (hm : sameMachine cfg cfg')
    (h0 : ∀ t, GoodStart (i.mem t) (i.valid t)) (hl : latenciesOk cfg' i) {as : List SysAct}
    (hF : i.start.run cfg as = some F) (hfin : finished cfg F) (hr : atRest cfg F) (hv : singleAssignment cfg i F) :
    ∀ as' s, i.start.run cfg' as' = some s → s.crashed = none := by
  have hFi := sysInv_run h0 as F hF
  refine sys_reach_induction rfl ?_
  intro as' s a s' hs ha hc
  exact Clean.act ⟨hm, h0, hl, hfin, resting_of h0 hF hfin.1 hr, tileHist_run h0 as F hF, sysInv_run h0 as' s hs,
    tileHist_run h0 as' s hs, tileWaits_run as' s hs, sentInOrder_run as' s hs, logsLe_run hm h0 as' hs hFi hfin hv, hc⟩ ha

end Ramwich
