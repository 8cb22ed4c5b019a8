import Verif.Lemmas.SysWaits
import Verif.Spec.SysRest

/-! # A node in which nothing happens any more -/
namespace Ramwich

open Pipeline (upd)
open Spec

/-! ## Possible actions -/

theorem ctrlAct_isSome {cfg : SysCfg} {s : Sys} {t : Nat} {a : CtrlAct} {g : Sys → Sys} {c : Ctrl}
    (h : (s.tile t).ctrl.act cfg.edramLat a = some c) : ∃ s', s.ctrlAct cfg t a g = some s' := by
  unfold Sys.ctrlAct
  rw [h]
  exact ⟨_, rfl⟩

theorem netAct_isSome {cfg : SysCfg} {s : Sys} {a : NetAct} {g : Sys → Sys} {n : Net}
    (h : s.net.act cfg.net a = some n) : ∃ s', s.netAct cfg a g = some s' := by
  unfold Sys.netAct
  rw [h]
  exact ⟨_, rfl⟩

theorem act_ctrl_isSome {cfg : SysCfg} {s : Sys} {t : Nat} {a : CtrlAct} {c : Ctrl} (hc : s.crashed = none)
    (ht : t < cfg.net.tiles) (ha : a.internal = true)
    (h : (s.tile t).ctrl.act cfg.edramLat a = some c) : ∃ s', s.act cfg (.ctrl t a) = some s' := by
  obtain ⟨s', hs⟩ := ctrlAct_isSome (g := id) h
  refine ⟨s', ?_⟩
  unfold Sys.act
  rw [if_neg (by simp [hc])]
  cases a <;> first | (cases ha; done) | (dsimp only; rw [if_pos ht]; exact hs)

theorem ctrl_act_alive {lat : Int} {c : Ctrl} (hc : c.crashed = none) (a : CtrlAct) :
    c.act lat a = match a with
    | .submit core start kind => some (c.submit core start kind)
    | .pick => c.pick
    | .dispatch => c.dispatch
    | .grant => c.grant lat
    | .complete => c.complete lat
    | .tick => c.tick
    | .stop => c.stop := by
  unfold Ctrl.act
  rw [if_neg (by simp [hc])]
  cases a <;> rfl

theorem net_act_alive {c : NetConfig} {n : Net} (hc : n.crashed = none) (a : NetAct) (ha : a.tile < c.tiles) :
    n.act c a = match a with
    | .send i target data => n.sendIf i target data
    | .added i => n.added i
    | .thread i => n.thread c i
    | .startRead i source => n.startRead c i source
    | .take i => n.take i
    | .readDone i => (n.readDone i).map Prod.fst
    | .halt i => n.halt i
    | .stopStep i => n.stopStep i := by
  unfold Net.act
  rw [if_neg (by simp [hc, ha])]
  cases a <;> rfl

theorem act_core_eq {cfg : SysCfg} {s : Sys} (hc : s.crashed = none) {t k : Nat} (ht : t < cfg.net.tiles)
    (hk : k < cfg.cores) : s.act cfg (.core t k) = s.coreStep cfg t k := by
  unfold Sys.act
  rw [if_neg (by simp [hc])]
  dsimp only
  rw [if_pos ⟨ht, hk⟩]

theorem act_tile_eq {cfg : SysCfg} {s : Sys} (hc : s.crashed = none) {t : Nat} (ht : t < cfg.net.tiles) :
    s.act cfg (.tile t) = s.tileStep cfg t := by
  unfold Sys.act
  rw [if_neg (by simp [hc])]
  dsimp only
  rw [if_pos ht]

theorem act_thread_eq {cfg : SysCfg} {s : Sys} (hc : s.crashed = none) {t : Nat} :
    s.act cfg (.thread t) = s.netAct cfg (.thread t) id := by
  unfold Sys.act
  rw [if_neg (by simp [hc])]

theorem act_take_eq {cfg : SysCfg} {s : Sys} (hc : s.crashed = none) {t : Nat} :
    s.act cfg (.take t) = s.netAct cfg (.take t) id := by
  unfold Sys.act
  rw [if_neg (by simp [hc])]

/-! ## Time passes for a controller -/

theorem run_append_some {cfg : SysCfg} {as bs : List SysAct} : ∀ {s s1 s2 : Sys}, s.run cfg as = some s1 →
    s1.run cfg bs = some s2 → s.run cfg (as ++ bs) = some s2 := by
  induction as with
  | nil => intro s s1 s2 h h'; simp only [Sys.run, Option.some.injEq] at h; subst h; exact h'
  | cons a as ih =>
    intro s s1 s2 h h'
    simp only [Sys.run, List.cons_append] at h ⊢
    cases ha : s.act cfg a with
    | none => rw [ha] at h; cases h
    | some s0 => rw [ha] at h; exact ih h h'

theorem act_tick {cfg : SysCfg} {s : Sys} {t : Nat} (hc : s.crashed = none) (ht : t < cfg.net.tiles)
    (hcr : (s.tile t).ctrl.crashed = none) (hq : (s.tile t).ctrl.quiescent = true) :
    s.act cfg (.ctrl t .tick) =
      some (s.setTile t { s.tile t with ctrl := { (s.tile t).ctrl with now := (s.tile t).ctrl.now + 1 } }) := by
  unfold Sys.act
  rw [if_neg (by simp [hc])]
  dsimp only
  rw [if_pos ht]
  unfold Sys.ctrlAct
  rw [ctrl_act_alive hcr]
  dsimp only
  unfold Ctrl.tick
  rw [if_pos hq]
  dsimp only [Option.map_some]
  rw [hcr]
  rfl

theorem run_ticks {cfg : SysCfg} {t : Nat} (ht : t < cfg.net.tiles) : ∀ (n : Nat) (s : Sys), s.crashed = none →
    (s.tile t).ctrl.crashed = none → (s.tile t).ctrl.handed = none → (s.tile t).ctrl.queue = [] →
    (∃ d, (s.tile t).ctrl.deadline = some d ∧ (s.tile t).ctrl.now + n ≤ d) →
    ∃ s', s.run cfg (List.replicate n (.ctrl t .tick)) = some s' ∧ s'.crashed = none ∧
      (s'.tile t).ctrl = { (s.tile t).ctrl with now := (s.tile t).ctrl.now + n } := by
  intro n
  induction n with
  | zero => intro s hc _ _ _ _; exact ⟨s, rfl, hc, rfl⟩
  | succ n ih =>
    intro s hc hcr hh hq hd
    obtain ⟨d, hd1, hd2⟩ := hd
    have hqs : (s.tile t).ctrl.quiescent = true := by
      unfold Ctrl.quiescent
      rw [hh, hq, hd1]
      cases (s.tile t).ctrl.bus with
      | nil => simp
      | cons r rest => simp; omega
    have h1 := act_tick hc ht hcr hqs
    obtain ⟨s', h2, h3, h4⟩ := ih (s.setTile t { s.tile t with
        ctrl := { (s.tile t).ctrl with now := (s.tile t).ctrl.now + 1 } }) hc
      (by rw [setTile_same]; exact hcr) (by rw [setTile_same]; exact hh) (by rw [setTile_same]; exact hq)
      (by rw [setTile_same]; exact ⟨d, hd1, by dsimp only; omega⟩)
    refine ⟨s', ?_, h3, ?_⟩
    · rw [List.replicate_succ]
      simp only [Sys.run]
      rw [h1]
      exact h2
    · rw [h4, setTile_same]
      dsimp only
      congr 1
      omega

/-! ## States at rest -/

/-- What is known about a state in which nothing happens any more. -/
structure Resting (cfg : SysCfg) (i : SysInit) (s : Sys) : Prop where
  inv : SysInv cfg i s
  waits : ∀ t, TileWaits (s.net.view t) (s.tile t)
  ends : ∀ t, TileEnd (s.net.view t) (s.tile t)
  order : ∀ t, SentInOrder (s.net.view t) (s.tile t)
  adding : AddingOk s
  alive : s.crashed = none
  still : ∀ a s', s.act cfg a = some s' → ∃ t, a = .ctrl t .tick
  line : ∀ t < cfg.net.tiles, (s.tile t).ctrl.line = []

theorem line_of_idle {c : Ctrl} (h : c.idle) : c.line = [] := by
  simp [Ctrl.line, h.1, h.2.1, h.2.2]

theorem resting_of {cfg : SysCfg} {i : SysInit} (h0 : ∀ t, GoodStart (i.mem t) (i.valid t)) {as : List SysAct}
    {s : Sys} (hrun : i.start.run cfg as = some s) (hc : s.crashed = none) (hr : atRest cfg s) :
    Resting cfg i s := by
  have hinv := sysInv_run h0 as s hrun
  have hst : ∀ a s', s.act cfg a = some s' → ∃ t, a = .ctrl t .tick := by
    intro a s' ha
    exact hr [a] s' (by simp [Sys.run, ha]) a (by simp)
  refine ⟨hinv, tileWaits_run as s hrun, tileEnd_run as s hrun, sentInOrder_run as s hrun,
    addingOk_run as s hrun hc, hc, hst, ?_⟩
  intro t ht
  have hall := hinv.tile t
  have hci := ctrlInv_of (h0 t) hall.ctrl
  have hcr := (hinv.alive hc).2 t
  have hw := tileWaits_run as s hrun t
  by_cases hrn : (s.tile t).ctrl.running = true
  · apply line_of_idle
    by_contra hni
    have hal : (s.tile t).ctrl.handlerAlive = true := by
      obtain ⟨cs, hcs⟩ := hall.ctrl
      rw [← alive_run _ _ _ _ cs _ hcs]; exact hrn
    have hno : ∀ a : CtrlAct, a.internal = true → a ≠ .tick → (s.tile t).ctrl.act cfg.edramLat a = none := by
      intro a ha hne
      cases h : (s.tile t).ctrl.act cfg.edramLat a with
      | none => rfl
      | some c =>
        obtain ⟨s', hs'⟩ := act_ctrl_isSome hc ht ha h
        obtain ⟨t', ht'⟩ := hst _ _ hs'
        injection ht' with _ h2
        exact absurd h2 hne
    rcases not_idle_cases _ hal hni with ⟨r, rest, h1, h2⟩ | ⟨r, h1⟩ | ⟨r, rest, h1, h2, h3⟩
    · have := hno .pick rfl (by simp)
      rw [ctrl_act_alive hcr] at this
      simp [Ctrl.pick, h1, h2, hal] at this
    · have := hno .dispatch rfl (by simp)
      rw [ctrl_act_alive hcr] at this
      simp only [Ctrl.dispatch, h1, hal] at this
      split at this <;> cases this
    · cases hd : (s.tile t).ctrl.deadline with
      | none =>
        have := hno .grant rfl (by simp)
        rw [ctrl_act_alive hcr] at this
        simp only [Ctrl.grant, h3, hd] at this
        split at this <;> cases this
      | some d =>
        obtain ⟨_, _, -, hle, -⟩ := hci.time.serving d hd
        obtain ⟨s1, h4, h5, h6⟩ := run_ticks ht (d - (s.tile t).ctrl.now) s hc hcr h1 h2 ⟨d, hd, by omega⟩
        have hcomp : ∃ c', (s1.tile t).ctrl.act cfg.edramLat .complete = some c' := by
          rw [ctrl_act_alive (by rw [h6]; exact hcr), h6]
          unfold Ctrl.complete
          have hnow : (s.tile t).ctrl.now + (d - (s.tile t).ctrl.now) = d := by omega
          simp only [h3, hd, hnow, ne_eq, not_true_eq_false, if_false]
          split
          · split <;> exact ⟨_, rfl⟩
          · split <;> exact ⟨_, rfl⟩
        obtain ⟨c', hc'⟩ := hcomp
        obtain ⟨s2, hs2⟩ := act_ctrl_isSome h5 ht (a := .complete) rfl hc'
        obtain ⟨t', ht'⟩ := hr _ s2 (run_append_some h4 (bs := [.ctrl t .complete]) (by simp [Sys.run, hs2]))
          (.ctrl t .complete) (by simp)
        injection ht' with _ h2
        cases h2
  · have hrn : (s.tile t).ctrl.running = false := by simpa using hrn
    have hh := hall.halting ((hw.off hrn).symm)
    refine (answered_all hci.line (answered_of_halting hall hh ?_)).1
    intro id hid
    have hsv := hall.service
    rw [hrn] at hsv
    cases hp : (s.tile t).phase <;> rw [hp] at hid hsv <;> first | (cases hid; done) | exact absurd (hsv rfl) (by simp)

/-! ## Where the processes are -/

theorem rest_none {cfg : SysCfg} {i : SysInit} {s : Sys} (h : Resting cfg i s) {a : SysAct}
    (ha : ∀ t, a ≠ .ctrl t .tick) : s.act cfg a = none := by
  cases hh : s.act cfg a with
  | none => rfl
  | some s' => obtain ⟨t, ht⟩ := h.still a s' hh; exact absurd ht (ha t)

theorem wrote_all {c : Ctrl} (h : CtrlLine c) (hl : c.line = []) {id : Nat} {r : Req}
    (hr : c.submitted[id]? = some r) (hw : r.isWrite = true) : wroteAnswer id c.answers = true := by
  have h1 : r ∈ writesOf c.answers := by
    have := h.writes
    rw [hl] at this
    simp only [List.filter_nil, List.append_nil] at this
    rw [← this]
    exact List.mem_filter.2 ⟨List.mem_of_getElem? hr, hw⟩
  obtain ⟨tm, h2⟩ := writesOf_mem.1 h1
  have hid := h.ids id r hr
  clear h hl hr h1
  generalize c.answers = as at h2
  induction as with
  | nil => cases h2
  | cons a as ih =>
    rcases List.mem_cons.1 h2 with rfl | h2
    · simp [wroteAnswer, hid]
    · have := ih h2
      cases a <;> simp [wroteAnswer, this]

theorem core_rest {cfg : SysCfg} {i : SysInit} (h0 : ∀ t, GoodStart (i.mem t) (i.valid t)) {s : Sys}
    (h : Resting cfg i s) {t k : Nat} (ht : t < cfg.net.tiles)
    (hk : k < cfg.cores) :
    (((s.tile t).core k).phase = .ready ∧ ((s.tile t).core k).prog = []) ∨
    ((s.tile t).core k).phase = .halted ∨
    ∃ id addr dest read width vec, ((s.tile t).core k).phase = .loadWait id addr dest read width vec ∧
      readAnswer id (s.tile t).ctrl.answers = none := by
  have hn : s.coreStep cfg t k = none := by
    rw [← act_core_eq h.alive ht hk]
    exact rest_none h (by simp)
  have hcr := (h.inv.alive h.alive).2 t
  unfold Sys.coreStep at hn
  cases hp : ((s.tile t).core k).phase with
  | ready =>
    left
    simp only [hp] at hn
    cases hq : ((s.tile t).core k).prog with
    | nil => exact ⟨rfl, rfl⟩
    | cons op rest =>
      exfalso
      simp only [hq] at hn
      have hsub : ∀ a f, a ≠ .stop → (∃ u v w, a = .submit u v w) → s.ctrlAct cfg t a f ≠ none := by
        rintro a f - ⟨u, v, w, rfl⟩ hh
        obtain ⟨s', hs'⟩ := ctrlAct_isSome (cfg := cfg) (s := s) (t := t) (g := f) (ctrl_act_alive hcr (.submit u v w))
        rw [hs'] at hh; cases hh
      unfold Sys.coreStart at hn
      dsimp only at hn
      repeat' split at hn
      all_goals first
        | cases hn; done
        | exact hsub _ _ (by simp) ⟨_, _, _, rfl⟩ hn
  | timing => simp only [hp] at hn; cases hn
  | loadWait id addr dest read width vec =>
    simp only [hp] at hn
    right; right
    refine ⟨id, addr, dest, read, width, vec, rfl, ?_⟩
    cases hr : readAnswer id (s.tile t).ctrl.answers with
    | none => rfl
    | some data =>
      simp only [hr] at hn
      split at hn <;> cases hn
  | loadGot dest data => simp only [hp] at hn; split at hn <;> cases hn
  | storeDelay addr data rows =>
    simp only [hp] at hn
    obtain ⟨s', hs'⟩ := ctrlAct_isSome (cfg := cfg) (s := s) (t := t)
      (g := fun s' => s'.setCore t k { (s.tile t).core k with phase := .storeWait (s.tile t).ctrl.submitted.length })
      (ctrl_act_alive hcr (.submit k addr (.write data rows)))
    exfalso
    rw [show Sys.ctrlAct _ _ _ _ _ = none from hn] at hs'
    cases hs'
  | storeWait id =>
    simp only [hp] at hn
    obtain ⟨r, h1, h2⟩ := (h.waits t).store k id hp
    have := wrote_all (ctrlInv_of (h0 t) (h.inv.tile t).ctrl).line (h.line t ht) h1 h2
    rw [if_pos this] at hn; cases hn
  | halting => simp only [hp] at hn; cases hn
  | halted => exact Or.inr (Or.inl rfl)

/-- The packet that a send thread cannot deliver because the buffer is full. -/
def blockedBy (n : Net) (t : Nat) (p : Packet) : Prop :=
  ∃ inter, n.sender t = .putting p inter ∧ 1 ≤ (n.buf p.target.toNat t).length

theorem thread_rest {cfg : SysCfg} {i : SysInit} {s : Sys} (h : Resting cfg i s) {t : Nat}
    (ht : t < cfg.net.tiles) :
    (s.net.sender t = .idle ∧ s.net.queue t = []) ∨ ∃ p, blockedBy s.net t p := by
  obtain ⟨as, hrun⟩ := h.inv.net
  by_cases hst : s.net.stopper t = .stopped
  · left
    have h1 := netStop_run cfg.net as _ hrun t
    rw [hst] at h1
    exact ⟨h1, h.inv.queue t hst⟩
  have hcr := (h.inv.alive h.alive).1
  have hn : s.net.thread cfg.net t = none := by
    cases hh : s.net.thread cfg.net t with
    | none => rfl
    | some n =>
      have h1 : s.net.act cfg.net (.thread t) = some n := by rw [net_act_alive hcr (.thread t) ht]; exact hh
      obtain ⟨s', hs'⟩ := netAct_isSome (g := id) h1
      rw [← act_thread_eq h.alive, rest_none h (by simp)] at hs'
      cases hs'
  unfold Net.thread at hn
  rw [if_neg hst] at hn
  cases hk : s.net.sender t with
  | idle =>
    left
    refine ⟨rfl, ?_⟩
    simp only [hk] at hn
    cases hq : s.net.queue t with
    | nil => rfl
    | cons p rest => simp only [hq] at hn; cases hn
  | handed p =>
    simp only [hk] at hn
    repeat' split at hn
    all_goals cases hn
  | flying p inter =>
    simp only [hk] at hn
    split at hn <;> cases hn
  | putting p inter =>
    right
    refine ⟨p, inter, hk, ?_⟩
    simp only [hk] at hn
    have hsrc : p.src = t := ((netInv_run cfg.net as _ hrun).src t).2 p (by rw [hk]; rfl)
    split at hn
    · cases hn
    · rename_i hlt
      rw [hsrc] at hlt
      unfold bufferCapacity at hlt
      omega
  | deposited p inter => simp only [hk] at hn; cases hn
  | delivered p inter => simp only [hk] at hn; cases hn

theorem stopper_rest {cfg : SysCfg} {i : SysInit} {s : Sys} (h : Resting cfg i s) (t : Nat)
    (hp : (s.tile t).phase ≠ .haltRouter) : s.net.stopper t = .running ∨ s.net.stopper t = .stopped := by
  by_cases hr : s.net.stopper t = .running
  · exact Or.inl hr
  right
  rcases (h.inv.tile t).stopping hr with h1 | h1
  · exact absurd h1 hp
  · rcases (h.waits t).off h1 with h2 | h2
    · exact (h.ends t).router h2
    · exact absurd h2 hp

theorem tile_rest {cfg : SysCfg} {i : SysInit} (h0 : ∀ t, GoodStart (i.mem t) (i.valid t)) {s : Sys}
    (h : Resting cfg i s) {t : Nat} (ht : t < cfg.net.tiles) :
    ((s.tile t).phase = .ready ∧ (s.tile t).ops = []) ∨
    (∃ id addr target width vec, (s.tile t).phase = .sendWait id addr target width vec ∧
      readAnswer id (s.tile t).ctrl.answers = none) ∨
    (∃ addr source width vec got, (s.tile t).phase = .recvWait addr source width vec got ∧
      s.net.reader t = .waiting source.toNat ∧ s.net.buf t source.toNat = []) ∨
    ((s.tile t).phase = .haltCores ∧ s.coresHalted cfg t = false) ∨
    ((s.tile t).phase = .haltRouter ∧ ∃ p, blockedBy s.net t p) := by
  have hn : s.tileStep cfg t = none := by
    rw [← act_tile_eq h.alive ht]
    exact rest_none h (by simp)
  have hcr := (h.inv.alive h.alive).2 t
  have hnc := (h.inv.alive h.alive).1
  have hsub : ∀ u v w f, s.ctrlAct cfg t (.submit u v w) f ≠ none := by
    intro u v w f hh
    obtain ⟨s', hs'⟩ := ctrlAct_isSome (cfg := cfg) (s := s) (t := t) (g := f) (ctrl_act_alive hcr (.submit u v w))
    rw [hs'] at hh; cases hh
  have hnet : ∀ a f n, a.tile = t → s.net.act cfg.net a = some n → s.netAct cfg a f ≠ none := by
    intro a f n _ hh hf
    obtain ⟨s', hs'⟩ := netAct_isSome (g := f) hh
    rw [hs'] at hf; cases hf
  have hrd := (h.inv.tile t).tile.reader
  unfold Sys.tileStep at hn
  cases hp : (s.tile t).phase with
  | ready =>
    left
    simp only [hp] at hn
    cases hq : (s.tile t).ops with
    | nil => exact ⟨rfl, rfl⟩
    | cons op rest =>
      exfalso
      simp only [hq] at hn
      unfold Sys.tileStart at hn
      dsimp only at hn
      repeat' split at hn
      all_goals first
        | cases hn; done
        | exact hsub _ _ _ _ hn
  | sendWait id addr target width vec =>
    simp only [hp] at hn
    right; left
    refine ⟨id, addr, target, width, vec, rfl, ?_⟩
    cases hr : readAnswer id (s.tile t).ctrl.answers with
    | none => rfl
    | some data =>
      simp only [hr] at hn
      split at hn <;> cases hn
  | sending target todo =>
    exfalso
    simp only [hp] at hn
    cases todo with
    | nil => cases hn
    | cons row rows =>
      dsimp only at hn
      split at hn
      · cases hn
      · have hs : ∃ n, s.net.act cfg.net (.send t target row) = some n := by
          rw [net_act_alive hnc (.send t target row) ht]
          dsimp only
          unfold Net.sendIf
          rcases stopper_rest h t (by rw [hp]; simp) with h1 | h1 <;> rw [h1] <;> exact ⟨_, rfl⟩
        obtain ⟨n, hs⟩ := hs
        exact hnet _ _ n rfl hs hn
  | adding target todo =>
    exfalso
    simp only [hp] at hn
    have hs : ∃ n, s.net.act cfg.net (.added t) = some n := by
      rw [net_act_alive hnc (.added t) ht]
      dsimp only
      unfold Net.added
      have := h.adding t target todo hp
      split
      · contradiction
      · exact ⟨_, rfl⟩
    obtain ⟨n, hs⟩ := hs
    exact hnet _ _ n rfl hs hn
  | recving addr source width vec got =>
    exfalso
    simp only [hp] at hn
    rw [hp] at hrd
    have hrd : s.net.reader t = .idle := hrd
    split at hn
    · have hs : ∃ n, s.net.act cfg.net (.startRead t source) = some n := by
        rw [net_act_alive hnc (.startRead t source) ht]
        dsimp only
        unfold Net.startRead
        rw [hrd]
        dsimp only
        split <;> exact ⟨_, rfl⟩
      obtain ⟨n, hs⟩ := hs
      exact hnet _ _ n rfl hs hn
    · exact hsub _ _ _ _ hn
  | recvWait addr source width vec got =>
    right; right; left
    refine ⟨addr, source, width, vec, got, rfl, ?_⟩
    simp only [hp] at hn
    rw [hp] at hrd
    have hrd : s.net.reader t = .waiting source.toNat ∨ ∃ x, s.net.reader t = .got source.toNat x := hrd
    rcases hrd with hrd | ⟨x, hrd⟩
    · refine ⟨hrd, ?_⟩
      cases hb : s.net.buf t source.toNat with
      | nil => rfl
      | cons y ys =>
        exfalso
        have hs : ∃ n, s.net.act cfg.net (.take t) = some n := by
          rw [net_act_alive hnc (.take t) ht]
          dsimp only
          unfold Net.take
          rw [hrd]
          dsimp only
          rw [hb]
          exact ⟨_, rfl⟩
        obtain ⟨n, hs⟩ := hs
        have := rest_none h (a := .take t) (by simp)
        rw [act_take_eq h.alive] at this
        exact hnet _ _ n rfl hs this
    · exfalso
      simp only [hrd] at hn
      have hs : ∃ n, s.net.act cfg.net (.readDone t) = some n := by
        rw [net_act_alive hnc (.readDone t) ht]
        dsimp only
        unfold Net.readDone
        rw [hrd]
        exact ⟨_, rfl⟩
      obtain ⟨n, hs⟩ := hs
      exact hnet _ _ n rfl hs hn
  | recvWrite id =>
    exfalso
    simp only [hp] at hn
    obtain ⟨r, h1, h2⟩ := (h.waits t).recv id hp
    have := wrote_all (ctrlInv_of (h0 t) (h.inv.tile t).ctrl).line (h.line t ht) h1 h2
    rw [if_pos this] at hn; cases hn
  | haltCores =>
    right; right; right; left
    refine ⟨rfl, ?_⟩
    simp only [hp] at hn
    cases hh : s.coresHalted cfg t with
    | false => rfl
    | true =>
      exfalso
      rw [if_pos hh] at hn
      rcases stopper_rest h t (by rw [hp]; simp) with h1 | h1
      · simp only [h1] at hn
        have hs : ∃ n, s.net.act cfg.net (.halt t) = some n := by
          rw [net_act_alive hnc (.halt t) ht]
          dsimp only
          unfold Net.halt
          rw [h1]
          exact ⟨_, rfl⟩
        obtain ⟨n, hs⟩ := hs
        exact hnet _ _ n rfl hs hn
      · simp only [h1] at hn
        cases hn
  | haltRouter =>
    right; right; right; right
    refine ⟨rfl, ?_⟩
    simp only [hp] at hn
    have hnr : s.net.stopper t ≠ .running := (h.waits t).router hp
    have hstop : ∀ n, s.net.stopStep t = some n → s.net.stopper t ≠ .stopped → False := by
      intro n hs hne
      have hs' : s.net.act cfg.net (.stopStep t) = some n := by rw [net_act_alive hnc (.stopStep t) ht]; exact hs
      split at hn
      · contradiction
      · exact hnet _ _ n rfl hs' hn
    obtain ⟨as, hrun⟩ := h.inv.net
    have hok := netStop_run cfg.net as _ hrun t
    rcases thread_rest h ht with ⟨h1, h2⟩ | hb
    · exfalso
      cases hst : s.net.stopper t with
      | running => exact hnr hst
      | checking =>
        exact hstop _ (by unfold Net.stopStep; rw [hst]; dsimp only; rw [if_pos h2]) (by rw [hst]; simp)
      | emptied =>
        exact hstop _ (by unfold Net.stopStep; rw [hst, h1]; rfl) (by rw [hst]; simp)
      | waiting k =>
        rw [hst, h1] at hok
        obtain ⟨-, hok⟩ := hok
        rcases hok with ⟨h3, -⟩ | ⟨-, h3⟩
        · cases h3
        · exact hstop _ (by unfold Net.stopStep; rw [hst]; dsimp only; rw [if_pos (by omega)]) (by rw [hst]; simp)
      | stopped =>
        simp only [hst] at hn
        have : ∃ c, (s.tile t).ctrl.act cfg.edramLat .stop = some c := by
          rw [ctrl_act_alive hcr]
          dsimp only
          unfold Ctrl.stop
          split
          · exact ⟨_, rfl⟩
          · dsimp only
            split <;> exact ⟨_, rfl⟩
        obtain ⟨c, hc⟩ := this
        obtain ⟨s', hs'⟩ := ctrlAct_isSome (cfg := cfg) (s := s) (t := t)
          (g := fun s' => s'.logPhase t .halted .ready) hc
        rw [show Sys.ctrlAct cfg s t .stop _ = none from hn] at hs'
        cases hs'
    · exact hb

end Ramwich
