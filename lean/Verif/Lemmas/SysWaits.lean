import Verif.Lemmas.SysDet
import Verif.Lemmas.DramProgress
import Verif.Lemmas.ClockedNode

/-! # What the processes of a node wait for -/
namespace Ramwich

open Pipeline (upd)
open Spec

/-- A request that waits for a write is a write; a stopped controller belongs to a tile that halts. -/
structure TileWaits (v : NetView) (x : TileSt) : Prop where
  store : ∀ k id, (x.core k).phase = .storeWait id → ∃ r, x.ctrl.submitted[id]? = some r ∧ r.isWrite = true
  recv : ∀ id, x.phase = .recvWrite id → ∃ r, x.ctrl.submitted[id]? = some r ∧ r.isWrite = true
  off : x.ctrl.running = false → .halted ∈ x.log ∨ x.phase = .haltRouter
  router : x.phase = .haltRouter → v.stopper ≠ .running
  hlt : ∀ k e, (x.core k).log.getLast? = some e → e.op = .hlt →
    (x.core k).phase = .halting ∨ (x.core k).phase = .halted

theorem tileWaits_core {v : NetView} {x : TileSt} (h : TileWaits v x) (c : Ctrl) (k : Nat) (y : CoreSt)
    (hs : x.ctrl.submitted <+: c.submitted) (hr : c.running = x.ctrl.running)
    (h1 : ∀ id, y.phase = .storeWait id → ∃ r, c.submitted[id]? = some r ∧ r.isWrite = true)
    (h2 : ∀ e, y.log.getLast? = some e → e.op = .hlt → y.phase = .halting ∨ y.phase = .halted) :
    TileWaits v (TileSt.setCore { x with ctrl := c } k y) := by
  refine ⟨fun j id hj => ?_, fun id hp => ?_, fun hf => h.off (hr ▸ hf), h.router, fun j e hj he => ?_⟩
  · simp only [setCore_core] at hj
    by_cases hjk : j = k
    · rw [if_pos hjk] at hj; exact h1 id hj
    · rw [if_neg hjk] at hj
      obtain ⟨r, hr1, hr2⟩ := h.store j id hj
      exact ⟨r, prefix_getElem? hs hr1, hr2⟩
  · obtain ⟨r, hr1, hr2⟩ := h.recv id hp
    exact ⟨r, prefix_getElem? hs hr1, hr2⟩
  · simp only [setCore_core] at hj ⊢
    by_cases hjk : j = k
    · rw [if_pos hjk] at hj ⊢; exact h2 e hj he
    · rw [if_neg hjk] at hj ⊢; exact h.hlt j e hj he

theorem tileWaits_tile {v v' : NetView} {x x' : TileSt} (h : TileWaits v x) (hc : x'.core = x.core)
    (hs : x.ctrl.submitted <+: x'.ctrl.submitted)
    (h1 : ∀ id, x'.phase = .recvWrite id → ∃ r, x'.ctrl.submitted[id]? = some r ∧ r.isWrite = true)
    (h2 : x'.ctrl.running = false → .halted ∈ x'.log ∨ x'.phase = .haltRouter)
    (h3 : x'.phase = .haltRouter → v'.stopper ≠ .running) : TileWaits v' x' := by
  refine ⟨fun k id hk => ?_, h1, h2, h3, fun k e hk he => ?_⟩
  · rw [hc] at hk
    obtain ⟨r, hr1, hr2⟩ := h.store k id hk
    exact ⟨r, prefix_getElem? hs hr1, hr2⟩
  · rw [hc] at hk ⊢; exact h.hlt k e hk he

theorem tileWaits_step {cfg : SysCfg} {t : Nat} {v v' : NetView} {x x' : TileSt} (h : TileWaits v x)
    (st : TileStep cfg t x v x' v') : TileWaits v' x' := by
  have hoff : ∀ p, x.phase = p → p ≠ .haltRouter → x.ctrl.running = false → .halted ∈ x.log := by
    intro p hp hne hf
    rcases h.off hf with h1 | h1
    · exact h1
    · exact absurd (hp.symm.trans h1) hne
  have hlast : ∀ k p, (x.core k).phase = p → p ≠ .halting → p ≠ .halted →
      ∀ e, (x.core k).log.getLast? = some e → e.op = .hlt → False := by
    intro k p hp h1 h2 e he hh
    rcases h.hlt k e he hh with h3 | h3
    · exact h1 (hp.symm.trans h3)
    · exact h2 (hp.symm.trans h3)
  cases st with
  | ctrl a c hc hs hst =>
    refine tileWaits_tile h rfl (hs ▸ List.prefix_rfl) ?_ ?_ h.router
    · intro id hp
      obtain ⟨r, h1, h2⟩ := h.recv id hp
      exact ⟨r, hs ▸ h1, h2⟩
    · intro hf
      by_cases ha : a = .stop
      · exact Or.inr (hst ha)
      · rw [act_running hc ha] at hf
        exact h.off hf
  | take src y hr => exact ⟨h.store, h.recv, h.off, h.router, h.hlt⟩
  | run k op rest c hk hp hq hop he =>
    refine tileWaits_core h x.ctrl k _ List.prefix_rfl rfl ?_ ?_
    · intro id h1
      dsimp only at h1
      split at h1 <;> cases h1
    · intro e h1 h2
      dsimp only at h1 ⊢
      rw [List.getLast?_concat] at h1
      injection h1 with h1
      subst h1
      rw [show op = .hlt from h2]
      exact Or.inl rfl
  | timed k hk hp =>
    exact tileWaits_core h x.ctrl k _ List.prefix_rfl rfl (by simp)
      (fun e h1 h2 => (hlast k _ hp (by simp) (by simp) e h1 h2).elim)
  | load k dest read width vec rest addr c c' hk hp hq he hc hn =>
    have := submit_ok hc hn
    exact tileWaits_core h c' k _ (by rw [this.1]; exact List.prefix_append _ _) (by rw [this.2.2.1, this.2.2.2]) (by simp)
      (fun e h1 h2 => (hlast k _ hp (by simp) (by simp) e h1 h2).elim)
  | loaded k id addr dest read width vec data hk hp ha =>
    refine tileWaits_core h x.ctrl k _ List.prefix_rfl rfl (by simp) ?_
    intro e h1 h2
    dsimp only at h1
    rw [List.getLast?_concat] at h1
    injection h1 with h1
    subst h1
    cases h2
  | loadDone k dest data c hk hp he =>
    exact tileWaits_core h x.ctrl k _ List.prefix_rfl rfl (by simp)
      (fun e h1 h2 => (hlast k _ hp (by simp) (by simp) e h1 h2).elim)
  | store k dest read width vec rest addr data c hk hp hq he =>
    refine tileWaits_core h x.ctrl k _ List.prefix_rfl rfl (by simp) ?_
    intro e h1 h2
    dsimp only at h1
    rw [List.getLast?_concat] at h1
    injection h1 with h1
    subst h1
    cases h2
  | stored k addr data rows c' hk hp hc hn =>
    have := submit_ok hc hn
    refine tileWaits_core h c' k _ (by rw [this.1]; exact List.prefix_append _ _) (by rw [this.2.2.1, this.2.2.2]) ?_
      (fun e h1 h2 => (hlast k _ hp (by simp) (by simp) e h1 h2).elim)
    intro id h1
    dsimp only at h1
    injection h1 with h1
    subst h1
    exact ⟨_, newReq_get hc hn, rfl⟩
  | storeDone k id hk hp ha =>
    exact tileWaits_core h x.ctrl k _ List.prefix_rfl rfl (by simp)
      (fun e h1 h2 => (hlast k _ hp (by simp) (by simp) e h1 h2).elim)
  | halted k hk hp =>
    exact tileWaits_core h x.ctrl k _ List.prefix_rfl rfl (by simp) (fun _ _ _ => Or.inr rfl)
  | send addr target width vec rest c' hp hq hc hn =>
    have := submit_ok hc hn
    refine tileWaits_tile h rfl (by rw [this.1]; exact List.prefix_append _ _) (by simp) ?_ (by simp)
    intro hf; dsimp only at hf; rw [this.2.2.2] at hf; cases hf
  | sendGot id addr target width vec data hp ha hw hv =>
    refine tileWaits_tile h rfl List.prefix_rfl (by simp) ?_ (by simp)
    intro hf; exact Or.inl (List.mem_append_left _ (hoff _ hp (by simp) hf))
  | sendRow target row rows hp =>
    exact tileWaits_tile h rfl List.prefix_rfl (by simp) (fun hf => Or.inl (hoff _ hp (by simp) hf)) (by simp)
  | sendEnd target hp =>
    exact tileWaits_tile h rfl List.prefix_rfl (by simp) (fun hf => Or.inl (hoff _ hp (by simp) hf)) (by simp)
  | added target rows hp =>
    exact tileWaits_tile h rfl List.prefix_rfl (by simp) (fun hf => Or.inl (hoff _ hp (by simp) hf)) (by simp)
  | recv addr source width vec rest hp hq hw hv =>
    exact tileWaits_tile h rfl List.prefix_rfl (by simp) (fun hf => Or.inl (hoff _ hp (by simp) hf)) (by simp)
  | recvRead addr source width vec got hp hg hr hb =>
    exact tileWaits_tile h rfl List.prefix_rfl (by simp) (fun hf => Or.inl (hoff _ hp (by simp) hf)) (by simp)
  | recvRow addr source width vec got src data hp hr =>
    refine tileWaits_tile h rfl List.prefix_rfl ?_
      (fun hf => Or.inl (List.mem_append_left _ (hoff _ hp (by simp) hf))) ?_
    · intro id h1; dsimp only at h1; split at h1 <;> cases h1
    · intro h1; dsimp only at h1; split at h1 <;> cases h1
  | recvAll addr source width vec got c' hp hg hc hn =>
    have := submit_ok hc hn
    refine tileWaits_tile h rfl (by rw [this.1]; exact List.prefix_append _ _) ?_ ?_ (by simp)
    · intro id h1
      dsimp only at h1
      injection h1 with h1
      subst h1
      exact ⟨_, newReq_get hc hn, rfl⟩
    · intro hf; dsimp only at hf; rw [this.2.2.2] at hf; cases hf
  | recvDone id hp ha =>
    exact tileWaits_tile h rfl List.prefix_rfl (by simp) (fun hf => Or.inl (hoff _ hp (by simp) hf)) (by simp)
  | halt rest hp hq =>
    exact tileWaits_tile h rfl List.prefix_rfl (by simp) (fun hf => Or.inl (hoff _ hp (by simp) hf)) (by simp)
  | haltCores st hp hh hs =>
    refine tileWaits_tile h rfl List.prefix_rfl (by simp) (fun _ => Or.inr rfl) ?_
    intro _
    rcases hs with ⟨-, rfl⟩ | ⟨-, rfl⟩ <;> simp
  | stopStep st hp hs hs' => exact ⟨h.store, h.recv, h.off, fun _ => hs', h.hlt⟩
  | haltEnd c' hp hs hc hn =>
    have hm := act_mono hc
    exact tileWaits_tile h rfl hm.1 (by simp) (fun _ => Or.inl (by simp)) (by simp)

theorem tileWaits_run {cfg : SysCfg} {i : SysInit} (as : List SysAct) (s : Sys)
    (h : i.start.run cfg as = some s) (t : Nat) : TileWaits (s.net.view t) (s.tile t) := by
  refine sys_run_induction (P := fun s => ∀ t, TileWaits (s.net.view t) (s.tile t)) ?_ as _ s ?_ h t
  · intro s s' hs st t
    rcases st.tile t with ⟨h1, h2⟩ | ⟨-, h1⟩
    · rw [h1, h2]; exact hs t
    · exact tileWaits_step (hs t) h1
  · intro t
    refine ⟨fun k id hk => ?_, fun id hp => ?_, fun hf => ?_, fun hp => ?_, fun k e he => ?_⟩
    · cases hk
    · cases hp
    · cases hf
    · cases hp
    · simp [SysInit.start] at he

/-! ## A tile that waits for `add_send_packet` -/

def AddingOk (s : Sys) : Prop := ∀ t target rows, (s.tile t).phase = .adding target rows → s.net.adding t ≠ 0

theorem ctrlAct_some {cfg : SysCfg} {s s' : Sys} {t : Nat} {a : CtrlAct} {g : Sys → Sys}
    (h : s.ctrlAct cfg t a g = some s') (hn : s'.crashed = none) :
    ∃ c, (s.tile t).ctrl.act cfg.edramLat a = some c ∧ s' = g (s.setTile t { s.tile t with ctrl := c }) := by
  unfold Sys.ctrlAct at h
  cases hc : (s.tile t).ctrl.act cfg.edramLat a with
  | none => rw [hc] at h; cases h
  | some c =>
    rw [hc] at h
    simp only [Option.map_some, Option.some.injEq] at h
    split at h <;> subst h
    · cases hn
    · exact ⟨c, rfl, rfl⟩

theorem netAct_some {cfg : SysCfg} {s s' : Sys} {a : NetAct} {g : Sys → Sys}
    (h : s.netAct cfg a g = some s') (hn : s'.crashed = none) :
    ∃ n, s.net.act cfg.net a = some n ∧ n.crashed = none ∧ s' = g { s with net := n } := by
  unfold Sys.netAct at h
  cases hc : s.net.act cfg.net a with
  | none => rw [hc] at h; cases h
  | some n =>
    rw [hc] at h
    simp only [Option.map_some, Option.some.injEq] at h
    split at h <;> subst h
    · cases hn
    · rename_i hcr
      exact ⟨n, rfl, hcr, rfl⟩

/-- An action of the routers that does not end an `add_send_packet`. -/
theorem net_adding {c : NetConfig} {n n' : Net} {a : NetAct} (h : n.act c a = some n') (t : Nat)
    (ha : a ≠ .added t) : n.adding t ≤ n'.adding t := by
  obtain ⟨-, -, h⟩ := net_act_cases h
  cases a with
  | send i target data =>
    obtain ⟨rfl, -⟩ := sendIf_send h
    by_cases hti : t = i
    · subst hti; simp [Net.send, upd_same]
    · simp [Net.send, upd_ne _ _ _ _ hti]
  | added i =>
    have hti : t ≠ i := fun hh => ha (by rw [hh])
    dsimp only at h
    unfold Net.added at h
    split at h
    · cases h
    · injection h with h; subst h
      dsimp only
      rw [upd_ne _ _ _ _ hti]
  | thread i =>
    dsimp only at h
    unfold Net.thread at h
    dsimp only at h
    repeat' split at h
    all_goals first
      | (injection h with h; subst h; exact le_rfl)
      | cases h
  | startRead i source =>
    dsimp only at h
    unfold Net.startRead at h
    repeat' split at h
    all_goals first
      | (injection h with h; subst h; exact le_rfl)
      | cases h
  | take i => obtain ⟨_, _, _, -, -, rfl⟩ := view_take h; exact le_rfl
  | readDone i => obtain ⟨y, h⟩ := h; obtain ⟨_, -, rfl⟩ := view_readDone h; exact le_rfl
  | halt i => obtain ⟨-, rfl⟩ := view_halt h; exact le_rfl
  | stopStep i => obtain ⟨-, -, st, -, rfl⟩ := view_stopStep h; exact le_rfl

theorem addingOk_phase {s s' : Sys} (h : AddingOk s) (t : Nat) (hn : ∀ j, s.net.adding j ≤ s'.net.adding j)
    (ht : ∀ j, j ≠ t → (s'.tile j).phase = (s.tile j).phase)
    (hp : (s'.tile t).phase = (s.tile t).phase ∨ ∀ target rows, (s'.tile t).phase ≠ .adding target rows) :
    AddingOk s' := by
  intro j target rows hj
  have key : (s.tile j).phase = .adding target rows := by
    by_cases hjt : j = t
    · subst hjt
      rcases hp with hp | hp
      · rw [← hp]; exact hj
      · exact absurd hj (hp _ _)
    · rw [← ht j hjt]; exact hj
  have h1 := h j target rows key
  have := hn j
  omega

theorem setTile_phase_ne (s : Sys) (t : Nat) (x : TileSt) (j : Nat) (hj : j ≠ t) :
    ((s.setTile t x).tile j).phase = (s.tile j).phase := by
  rw [show (s.setTile t x).tile j = s.tile j from upd_ne _ _ _ _ hj]

theorem setTile_same (s : Sys) (t : Nat) (x : TileSt) : (s.setTile t x).tile t = x := upd_same _ _ _

theorem setTile_phase_eq (s : Sys) (t : Nat) (x : TileSt) (hx : x.phase = (s.tile t).phase) (j : Nat) :
    ((s.setTile t x).tile j).phase = (s.tile j).phase := by
  by_cases hj : j = t
  · subst hj; rw [setTile_same]; exact hx
  · exact setTile_phase_ne s t x j hj

theorem setCore_phase (s : Sys) (t k : Nat) (y : CoreSt) (j : Nat) :
    ((s.setCore t k y).tile j).phase = (s.tile j).phase :=
  setTile_phase_eq s t { s.tile t with core := upd (s.tile t).core k y } rfl j

theorem coreStep_phase {cfg : SysCfg} {s s' : Sys} {t k : Nat} (h : s.coreStep cfg t k = some s')
    (hn : s'.crashed = none) : s'.net = s.net ∧ ∀ j, (s'.tile j).phase = (s.tile j).phase := by
  have hsub : ∀ (a : CtrlAct) (y : CoreSt), s.ctrlAct cfg t a (fun s' => s'.setCore t k y) = some s' →
      s'.net = s.net ∧ ∀ j, (s'.tile j).phase = (s.tile j).phase := by
    intro a y h
    obtain ⟨c, -, rfl⟩ := ctrlAct_some h hn
    refine ⟨rfl, fun j => ?_⟩
    rw [setCore_phase]
    exact setTile_phase_eq s t { s.tile t with ctrl := c } rfl j
  unfold Sys.coreStep at h
  dsimp only at h
  split at h
  · split at h
    · cases h
    · unfold Sys.coreStart at h
      dsimp only at h
      repeat' split at h
      all_goals first
        | exact hsub _ _ h
        | (injection h with h; subst h; cases hn; done)
        | (injection h with h; subst h; exact ⟨rfl, fun j => setCore_phase _ _ _ _ j⟩)
  all_goals
    repeat' split at h
    all_goals first
      | cases h; done
      | exact hsub _ _ h
      | (injection h with h; subst h; cases hn; done)
      | (injection h with h; subst h; exact ⟨rfl, fun j => setCore_phase _ _ _ _ j⟩)

theorem addingOk_step {cfg : SysCfg} {s s' : Sys} {a : SysAct} (h : s.act cfg a = some s') (hn : s'.crashed = none)
    (hi : AddingOk s) : AddingOk s' := by
  unfold Sys.act at h
  split at h
  · cases h
  have hnet : ∀ na, (∀ j, na ≠ .added j) → s.netAct cfg na id = some s' → AddingOk s' := by
    intro na hne h
    obtain ⟨n, h1, -, rfl⟩ := netAct_some h hn
    exact addingOk_phase hi 0 (fun j => net_adding h1 j (hne j)) (fun _ _ => rfl) (Or.inl rfl)
  have hct : ∀ t ca, s.ctrlAct cfg t ca id = some s' → AddingOk s' := by
    intro t ca h
    obtain ⟨c, -, rfl⟩ := ctrlAct_some h hn
    exact addingOk_phase hi t (fun _ => le_rfl) (fun j hj => setTile_phase_ne s t _ j hj)
      (Or.inl (setTile_phase_eq s t { s.tile t with ctrl := c } rfl t))
  -- the tile process goes on in a phase that is not `adding`
  have htile : ∀ (t : Nat) (n : Net) (x : TileSt), (∀ target rows, x.phase ≠ .adding target rows) →
      (∀ j, s.net.adding j ≤ n.adding j ∨ j = t) →
      AddingOk ({ s with net := n }.setTile t x) := by
    intro t n x hx hadd j target rows hj
    by_cases hjt : j = t
    · subst hjt
      rw [setTile_same] at hj
      exact absurd hj (hx _ _)
    · rw [setTile_phase_ne _ _ _ _ hjt] at hj
      have h1 := hi j target rows hj
      have h2 : s.net.adding j ≤ n.adding j := (hadd j).resolve_right hjt
      show n.adding j ≠ 0
      omega
  split at h
  · rename_i t a
    split at h
    · cases h
    · cases h
    · split at h
      · exact hct t _ h
      · cases h
  · exact hnet _ (by simp) h
  · exact hnet _ (by simp) h
  · rename_i t k
    split at h
    · obtain ⟨h1, h2⟩ := coreStep_phase h hn
      exact addingOk_phase hi t (fun _ => by rw [h1]) (fun j _ => h2 j) (Or.inl (h2 t))
    · cases h
  · rename_i t
    split at h
    case isFalse => cases h
    unfold Sys.tileStep at h
    dsimp only at h
    have hself : ∀ x : TileSt, (∀ target rows, x.phase ≠ .adding target rows) → AddingOk (s.setTile t x) :=
      fun x hx => htile t s.net x hx (fun _ => Or.inl le_rfl)
    have hsub : ∀ (ca : CtrlAct) (f : Sys → Sys),
        (∀ c, ∃ x, f (s.setTile t { s.tile t with ctrl := c }) = s.setTile t x ∧
          ∀ target rows, x.phase ≠ .adding target rows) →
        s.ctrlAct cfg t ca f = some s' → AddingOk s' := by
      intro ca f hf h
      obtain ⟨c, -, rfl⟩ := ctrlAct_some h hn
      obtain ⟨x, hx1, hx2⟩ := hf c
      rw [hx1]
      exact hself _ hx2
    have hnet' : ∀ (na : NetAct) (p : TilePhase) (f : Sys → Sys),
        (∀ n, ∃ x, f { s with net := n } = { s with net := n }.setTile t x ∧
          ∀ target rows, x.phase ≠ .adding target rows) →
        (∀ j, j ≠ t → na ≠ .added j) →
        s.netAct cfg na f = some s' → AddingOk s' := by
      intro na p f hf hne h
      obtain ⟨n, h1, -, rfl⟩ := netAct_some h hn
      obtain ⟨x, hx1, hx2⟩ := hf n
      rw [hx1]
      refine htile t n x hx2 fun j => ?_
      by_cases hj : j = t
      · exact Or.inr hj
      · exact Or.inl (net_adding h1 j (hne j hj))
    split at h
    · split at h
      · cases h
      · unfold Sys.tileStart at h
        dsimp only at h
        split at h
        · refine hsub _ _ (fun c => ⟨_, by dsimp only; rw [setTile_tile, setTile_setTile], ?_⟩) h
          simp
        · split at h
          · injection h with h; subst h; cases hn
          · injection h with h; subst h; exact hself _ (by simp)
        · injection h with h; subst h; exact hself _ (by simp)
    · split at h
      · cases h
      · split at h
        · injection h with h; subst h; cases hn
        · injection h with h; subst h; exact hself _ (by simp)
    · split at h
      · injection h with h; subst h; exact hself _ (by simp)
      · split at h
        · injection h with h; subst h; cases hn
        · rename_i target rows hp row rest _ _
          obtain ⟨n, h1, -, rfl⟩ := netAct_some h hn
          intro j tg rs hj
          obtain ⟨-, -, h2⟩ := net_act_cases h1
          obtain ⟨rfl, -⟩ := sendIf_send h2
          show upd s.net.adding t (s.net.adding t + 1) j ≠ 0
          by_cases hjt : j = t
          · subst hjt; rw [upd_same]; omega
          · rw [upd_ne _ _ _ _ hjt]
            refine hi j tg rs ?_
            rw [← hj]
            exact (setTile_phase_ne _ _ _ _ hjt).symm
    · exact hnet' _ .ready _ (fun n => ⟨_, rfl, by simp⟩) (by intro j hj hh; injection hh with hh; exact hj hh.symm) h
    · split at h
      · exact hnet' _ .ready _ (fun n => ⟨_, rfl, by simp⟩) (by simp) h
      · refine hsub _ _ (fun c => ⟨_, by dsimp only [Sys.logPhase]; rw [setTile_tile, setTile_setTile], ?_⟩) h
        simp
    · split at h
      · refine hnet' _ .ready _ (fun n => ⟨_, rfl, ?_⟩) (by simp) h
        intro tg rs
        dsimp only
        split <;> simp
      · cases h
    · split at h
      · injection h with h; subst h; exact hself _ (by simp)
      · cases h
    · split at h
      · split at h
        · injection h with h; subst h; exact hself _ (by simp)
        · exact hnet' _ .ready _ (fun n => ⟨_, rfl, by simp⟩) (by simp) h
      · cases h
    · split at h
      · refine hsub _ _ (fun c => ⟨_, by dsimp only [Sys.logPhase]; rw [setTile_tile, setTile_setTile], ?_⟩) h
        simp
      · exact hnet _ (by simp) h

theorem sys_run_snoc {cfg : SysCfg} {a : SysAct} : ∀ (as : List SysAct) {s0 s s' : Sys},
    Sys.run cfg s0 as = some s → s.act cfg a = some s' → Sys.run cfg s0 (as ++ [a]) = some s' := by
  intro as
  induction as with
  | nil =>
    intro s0 s s' h ha
    simp only [Sys.run, Option.some.injEq] at h
    subst h
    simp [Sys.run, ha]
  | cons b as ih =>
    intro s0 s s' h ha
    simp only [Sys.run, List.cons_append] at h ⊢
    cases hb : s0.act cfg b with
    | none => rw [hb] at h; cases h
    | some s1 => rw [hb] at h; exact ih h ha

/-- Induction over the reachable states. -/
theorem sys_reach_induction {cfg : SysCfg} {s0 : Sys} {P : Sys → Prop} (h0 : P s0)
    (hstep : ∀ as s a s', s0.run cfg as = some s → s.act cfg a = some s' → P s → P s') :
    ∀ as s, s0.run cfg as = some s → P s := by
  have key : ∀ (bs as : List SysAct) (s s' : Sys), s0.run cfg as = some s → P s → s.run cfg bs = some s' → P s' := by
    intro bs
    induction bs with
    | nil => intro as s s' _ hp h; simp only [Sys.run, Option.some.injEq] at h; subst h; exact hp
    | cons b bs ih =>
      intro as s s' hr hp h
      simp only [Sys.run] at h
      cases hb : s.act cfg b with
      | none => rw [hb] at h; cases h
      | some s1 =>
        rw [hb] at h
        exact ih (as ++ [b]) s1 s' (sys_run_snoc as hr hb) (hstep as s b s1 hr hb hp) h
  intro as s h
  exact key as [] s0 s rfl h0 h

theorem crashed_act {cfg : SysCfg} {s s' : Sys} {a : SysAct} (h : s.act cfg a = some s') : s.crashed = none := by
  unfold Sys.act at h
  split at h
  · cases h
  · rename_i hc; simpa using hc

theorem addingOk_run {cfg : SysCfg} {i : SysInit} (as : List SysAct) (s : Sys)
    (h : i.start.run cfg as = some s) (hn : s.crashed = none) : AddingOk s := by
  refine sys_reach_induction (P := fun s => s.crashed = none → AddingOk s) ?_ ?_ as s h hn
  · intro _ t target rows hp; cases hp
  · intro as s a s' _ ha hp hn
    exact addingOk_step ha hn (hp (crashed_act ha))

end Ramwich
