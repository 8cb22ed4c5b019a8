import Verif.Lemmas.SysInv

/-! # The states that a node can reach -/
namespace Ramwich

open Pipeline (upd)
open Spec

theorem net_run_snoc {c : NetConfig} {a : NetAct} : ∀ (as : List NetAct) {n0 n n' : Net},
    Net.run c n0 as = some n → n.act c a = some n' → Net.run c n0 (as ++ [a]) = some n' := by
  intro as
  induction as with
  | nil =>
    intro n0 n n' h ha
    simp only [Net.run, Option.some.injEq] at h
    subst h
    simp [Net.run, ha]
  | cons b as ih =>
    intro n0 n n' h ha
    simp only [Net.run, List.cons_append] at h ⊢
    cases hb : n0.act c b with
    | none => rw [hb] at h; cases h
    | some n1 => rw [hb] at h; exact ih h ha

/-- A router that has stopped has an empty queue if nobody sends any more. -/
theorem stopped_queue {c : NetConfig} {n n' : Net} {a : NetAct} (hok : NetStop n)
    (h : ∀ t, n.stopper t = .stopped → n.queue t = []) (ha : n.act c a = some n')
    (hs : ∀ i target row, a = .send i target row → n.stopper i = .running) :
    ∀ t, n'.stopper t = .stopped → n'.queue t = [] := by
  obtain ⟨-, -, ha⟩ := net_act_cases ha
  intro t ht
  cases a with
  | send i target data =>
    obtain ⟨rfl, -⟩ := sendIf_send ha
    by_cases hti : t = i
    · subst hti
      rw [show (n.send t target data).stopper t = n.stopper t from rfl, hs t target data rfl] at ht
      cases ht
    · rw [show (n.send i target data).queue t = n.queue t from upd_ne _ _ _ _ hti]
      exact h t ht
  | added i =>
    dsimp only at ha
    unfold Net.added at ha
    split at ha
    · cases ha
    · injection ha with ha; subst ha; exact h t ht
  | thread i =>
    dsimp only at ha
    have hv := view_thread ha t
    have hst : n'.stopper t = n.stopper t := congrArg NetView.stopper hv
    rw [hst] at ht
    have hq := h t ht
    unfold Net.thread at ha
    dsimp only at ha
    by_cases hti : t = i
    · subst hti
      rw [if_pos ht] at ha
      cases ha
    · repeat' split at ha
      all_goals first
        | (injection ha with ha; subst ha; exact hq)
        | (injection ha with ha; subst ha; dsimp only; rw [upd_ne _ _ _ _ hti]; exact hq)
        | cases ha
  | startRead i source =>
    dsimp only at ha
    unfold Net.startRead at ha
    repeat' split at ha
    all_goals first
      | (injection ha with ha; subst ha; exact h t ht)
      | cases ha
  | take i =>
    obtain ⟨_, _, _, -, -, rfl⟩ := view_take ha
    exact h t ht
  | readDone i =>
    obtain ⟨y, ha⟩ := ha
    obtain ⟨_, -, rfl⟩ := view_readDone ha
    exact h t ht
  | halt i =>
    obtain ⟨-, rfl⟩ := view_halt ha
    by_cases hti : t = i
    · subst hti
      dsimp only at ht
      rw [upd_same] at ht
      cases ht
    · dsimp only at ht
      rw [upd_ne _ _ _ _ hti] at ht
      exact h t ht
  | stopStep i =>
    obtain ⟨h1, h2, st, -, rfl⟩ := view_stopStep ha
    by_cases hti : t = i
    · subst hti
      have hi := hok t
      dsimp only at ha
      unfold Net.stopStep at ha
      cases hst : n.stopper t with
      | running => exact absurd hst h1
      | stopped => exact absurd hst h2
      | checking =>
        rw [hst] at ha
        dsimp only at ha
        split at ha
        · assumption
        · cases ha
      | emptied =>
        rw [hst] at hi
        exact hi
      | waiting k =>
        rw [hst] at hi
        exact hi.1
    · dsimp only at ht
      rw [upd_ne _ _ _ _ hti] at ht
      exact h t ht

/-- The states of a node that runs. -/
structure SysInv (cfg : SysCfg) (i : SysInit) (s : Sys) : Prop where
  net : ∃ as, Net.run cfg.net {} as = some s.net
  tile : ∀ t, TileAll cfg i t (s.net.view t) (s.tile t)
  queue : ∀ t, s.net.stopper t = .stopped → s.net.queue t = []
  alive : s.crashed = none → s.net.crashed = none ∧ ∀ t, (s.tile t).ctrl.crashed = none

theorem sysInv_step {cfg : SysCfg} {i : SysInit} (h0 : ∀ t, GoodStart (i.mem t) (i.valid t)) (s s' : Sys)
    (h : SysInv cfg i s) (st : SysStep cfg s s') : SysInv cfg i s' := by
  refine ⟨?_, ?_, ?_, ?_⟩
  · rcases st.net with hn | ⟨a, hn, -⟩
    · rw [hn]; exact h.net
    · obtain ⟨as, hr⟩ := h.net
      exact ⟨as ++ [a], net_run_snoc as hr hn⟩
  · intro t
    rcases st.tile t with ⟨h1, h2⟩ | ⟨-, h1⟩
    · rw [h1, h2]; exact h.tile t
    · exact tileAll_step (h0 t) (h.tile t) h1
  · rcases st.net with hn | ⟨a, hn, hs⟩
    · rw [hn]; exact h.queue
    · obtain ⟨as, hr⟩ := h.net
      refine stopped_queue (netStop_run cfg.net as _ hr) h.queue hn ?_
      intro j target row ha
      obtain ⟨rows, hp⟩ := hs j target row ha
      by_contra hne
      rcases (h.tile j).stopping hne with h1 | h1
      · rw [hp] at h1; cases h1
      · have := (h.tile j).service (by rw [hp]; rfl)
        rw [h1] at this
        cases this
  · intro hc
    obtain ⟨h1, h2⟩ := h.alive st.alive
    obtain ⟨h3, h4⟩ := st.ok hc
    refine ⟨?_, fun t => ?_⟩
    · rcases h3 with h3 | h3
      · exact h3
      · rw [h3]; exact h1
    · rcases h4 t with h4 | h4
      · exact h4
      · rw [h4]; exact h2 t

theorem sysInv_run {cfg : SysCfg} {i : SysInit} (h0 : ∀ t, GoodStart (i.mem t) (i.valid t)) (as : List SysAct)
    (s : Sys) (h : i.start.run cfg as = some s) : SysInv cfg i s :=
  sys_run_induction (fun s s' h st => sysInv_step h0 s s' h st) as _ s
    ⟨⟨[], rfl⟩, fun t => tileAll_start cfg i t, (fun _ h => by cases h), fun _ => ⟨rfl, fun _ => rfl⟩⟩ h

/-- A tile that has executed a Halt has a stopped router, and a core that has ended has executed a `hlt`. -/
structure TileEnd (v : NetView) (x : TileSt) : Prop where
  router : .halted ∈ x.log → v.stopper = .stopped
  hlt : ∀ k, (x.core k).phase = .halting ∨ (x.core k).phase = .halted →
    ∃ e, (x.core k).log.getLast? = some e ∧ e.op = .hlt

theorem tileEnd_core {v : NetView} {x : TileSt} (h : TileEnd v x) (c : Ctrl) (k : Nat) (y : CoreSt)
    (hy : y.phase = .halting ∨ y.phase = .halted → ∃ e, y.log.getLast? = some e ∧ e.op = .hlt) :
    TileEnd v (TileSt.setCore { x with ctrl := c } k y) := by
  refine ⟨h.router, fun j hj => ?_⟩
  simp only [setCore_core] at hj ⊢
  by_cases hjk : j = k
  · rw [if_pos hjk] at hj ⊢; exact hy hj
  · rw [if_neg hjk] at hj ⊢; exact h.hlt j hj

theorem tileEnd_step {cfg : SysCfg} {t : Nat} {v v' : NetView} {x x' : TileSt} (h : TileEnd v x)
    (st : TileStep cfg t x v x' v') : TileEnd v' x' := by
  cases st with
  | run k op rest c hk hp hq hop he =>
    refine tileEnd_core h x.ctrl k _ ?_
    intro hy
    refine ⟨_, List.getLast?_concat .., ?_⟩
    by_contra hne
    rw [show (⟨op, 0, [], c⟩ : CoreEv).op = op from rfl] at hne
    simp [hne] at hy
  | halted k hk hp => exact tileEnd_core h x.ctrl k _ (fun _ => h.hlt k (Or.inl hp))
  | timed k => exact tileEnd_core h x.ctrl k _ (by simp)
  | load k _ _ _ _ _ _ _ c' => exact tileEnd_core h c' k _ (by simp)
  | loaded k => exact tileEnd_core h x.ctrl k _ (by simp)
  | loadDone k => exact tileEnd_core h x.ctrl k _ (by simp)
  | store k => exact tileEnd_core h x.ctrl k _ (by simp)
  | stored k _ _ _ c' => exact tileEnd_core h c' k _ (by simp)
  | storeDone k => exact tileEnd_core h x.ctrl k _ (by simp)
  | ctrl a c => exact ⟨h.router, h.hlt⟩
  | take => exact ⟨h.router, h.hlt⟩
  | send => exact ⟨h.router, h.hlt⟩
  | sendGot => exact ⟨fun hm => h.router (by simpa using hm), h.hlt⟩
  | sendRow => exact ⟨h.router, h.hlt⟩
  | sendEnd => exact ⟨h.router, h.hlt⟩
  | added => exact ⟨h.router, h.hlt⟩
  | recv => exact ⟨h.router, h.hlt⟩
  | recvRead => exact ⟨h.router, h.hlt⟩
  | recvRow => exact ⟨fun hm => h.router (by simpa using hm), h.hlt⟩
  | recvAll => exact ⟨fun hm => h.router (by simpa using hm), h.hlt⟩
  | recvDone => exact ⟨h.router, h.hlt⟩
  | halt => exact ⟨h.router, h.hlt⟩
  | haltCores st hp hh hs =>
    refine ⟨fun hm => ?_, h.hlt⟩
    rcases hs with ⟨-, rfl⟩ | ⟨h1, -⟩
    · rfl
    · rw [h.router hm] at h1; cases h1
  | stopStep st hp hs => exact ⟨fun hm => absurd (h.router hm) hs.2, h.hlt⟩
  | haltEnd c' hp hs => exact ⟨fun _ => hs, h.hlt⟩

theorem tileEnd_run {cfg : SysCfg} {i : SysInit} (as : List SysAct) (s : Sys)
    (h : i.start.run cfg as = some s) (t : Nat) : TileEnd (s.net.view t) (s.tile t) := by
  refine sys_run_induction (P := fun s => ∀ t, TileEnd (s.net.view t) (s.tile t)) ?_ as _ s ?_ h t
  · intro s s' hs st t
    rcases st.tile t with ⟨h1, h2⟩ | ⟨-, h1⟩
    · rw [h1, h2]; exact hs t
    · exact tileEnd_step (hs t) h1
  · intro t
    refine ⟨fun hm => by simp [SysInit.start] at hm, fun k hk => ?_⟩
    rcases hk with hk | hk <;> cases hk

/-! ## The packets of a tile, in order -/

/-- The packets that a tile process has decided to send. -/
def allSent (log : List TileEv) : List (Int × List I32) :=
  log.flatMap fun
    | .sent _ t _ _ rows => rows.map fun r => (t, r)
    | _ => []

def TilePhase.todoAll : TilePhase → List (Int × List I32)
  | .sending target rows => rows.map fun r => (target, r)
  | .adding target rows => rows.map fun r => (target, r)
  | _ => []

def SentInOrder (v : NetView) (x : TileSt) : Prop :=
  allSent x.log = v.sent.map (fun p => (p.target, p.data)) ++ x.phase.todoAll

theorem sentInOrder_step {cfg : SysCfg} {t : Nat} {v v' : NetView} {x x' : TileSt} (h : SentInOrder v x)
    (st : TileStep cfg t x v x' v') : SentInOrder v' x' := by
  unfold SentInOrder at h ⊢
  have hsnoc : ∀ e, allSent (x.log ++ [e]) = allSent x.log ++ allSent [e] := by intro e; simp [allSent]
  cases st with
  | send addr target width vec rest c' hp => rw [hp] at h; exact h
  | sendGot id addr target width vec data hp =>
    rw [hp] at h
    dsimp only
    rw [hsnoc, h]
    simp [allSent, TilePhase.todoAll]
  | sendRow target row rows hp =>
    rw [hp] at h
    dsimp only
    rw [h]
    simp [TilePhase.todoAll]
  | sendEnd target hp => rw [hp] at h; dsimp only; rw [h]; rfl
  | added target rows hp => rw [hp] at h; exact h
  | recv addr source width vec rest hp => rw [hp] at h; exact h
  | recvRead addr source width vec got hp => rw [hp] at h; exact h
  | recvRow addr source width vec got src data hp =>
    rw [hp] at h
    dsimp only
    rw [hsnoc, h]
    split <;> simp [allSent, TilePhase.todoAll]
  | recvAll addr source width vec got c' hp =>
    rw [hp] at h
    dsimp only
    rw [hsnoc, h]
    simp [allSent, TilePhase.todoAll]
  | recvDone id hp => rw [hp] at h; exact h
  | halt rest hp => rw [hp] at h; exact h
  | haltCores st hp => rw [hp] at h; exact h
  | haltEnd c' hp =>
    rw [hp] at h
    dsimp only
    rw [hsnoc, h]
    simp [allSent, TilePhase.todoAll]
  | _ => exact h

theorem sentInOrder_run {cfg : SysCfg} {i : SysInit} (as : List SysAct) (s : Sys)
    (h : i.start.run cfg as = some s) (t : Nat) : SentInOrder (s.net.view t) (s.tile t) := by
  refine sys_run_induction (P := fun s => ∀ t, SentInOrder (s.net.view t) (s.tile t)) ?_ as _ s ?_ h t
  · intro s s' hs st t
    rcases st.tile t with ⟨h1, h2⟩ | ⟨-, h1⟩
    · rw [h1, h2]; exact hs t
    · exact sentInOrder_step (hs t) h1
  · intro t; rfl

/-! ## Requests -/

theorem answered_all {c : Ctrl} (h : CtrlLine c) (ha : ∀ r ∈ c.submitted, answered c r) :
    c.line = [] ∧ c.pending = [] := by
  have hnd : (c.line ++ c.pending ++ c.answers.map Answer.req).Nodup :=
    h.perm.nodup_iff.2 (submitted_nodup c h)
  have hno : ∀ r, r ∉ c.line ++ c.pending := by
    intro r hr
    obtain ⟨a, h1, h2⟩ := ha r (h.perm.subset (List.mem_append_left _ hr))
    have := (List.nodup_append.1 hnd).2.2 r hr (a.req) (List.mem_map_of_mem h1)
    exact this h2.symm
  have := List.eq_nil_iff_forall_not_mem.2 hno
  simpa using this

/-- Nobody waits for a request of a tile whose cores have ended and whose process is not waiting. -/
theorem answered_of_halting {cfg : SysCfg} {i : SysInit} {t : Nat} {v : NetView} {x : TileSt}
    (h : TileAll cfg i t v x) (hh : ∀ k < cfg.cores, (x.core k).phase.isHalted = true)
    (hp : ∀ id, ¬x.phase.waits id) : ∀ r ∈ x.ctrl.submitted, answered x.ctrl r := by
  intro r hr
  rcases h.owner r hr with h1 | ⟨-, h1⟩ | ⟨k, hk, -, h1⟩
  · exact h1
  · exact absurd h1 (hp _)
  · have := hh k hk
    unfold CorePhase.isHalted at this
    split at this
    · rename_i h2; rw [h2] at h1; cases h1
    · cases this

/-! ## Packets leave a queue in order -/

theorem net_suffix_act {c : NetConfig} {n n' : Net} {a : NetAct}
    (h : ∀ t, (n.sender t).held.toList ++ n.queue t <:+ n.sent t) (ha : n.act c a = some n') :
    ∀ t, (n'.sender t).held.toList ++ n'.queue t <:+ n'.sent t := by
  obtain ⟨-, -, ha⟩ := net_act_cases ha
  intro t
  have ht := h t
  cases a with
  | send i target data =>
    obtain ⟨rfl, -⟩ := sendIf_send ha
    by_cases hti : t = i
    · subst hti
      obtain ⟨pre, hpre⟩ := ht
      refine ⟨pre, ?_⟩
      simp only [Net.send, upd_same]
      rw [← hpre]
      simp
    · simp only [Net.send, upd_ne _ _ _ _ hti]
      exact ht
  | added i =>
    dsimp only at ha
    unfold Net.added at ha
    split at ha
    · cases ha
    · injection ha with ha; subst ha; exact ht
  | thread i =>
    dsimp only at ha
    unfold Net.thread at ha
    by_cases hst : n.stopper i = .stopped
    · rw [if_pos hst] at ha; cases ha
    rw [if_neg hst] at ha
    by_cases hti : t = i
    · subst hti
      cases hk : n.sender t with
      | idle =>
        rw [hk] at ha ht
        dsimp only at ha
        cases hq : n.queue t with
        | nil => rw [hq] at ha; cases ha
        | cons p rest =>
          rw [hq] at ha ht
          injection ha with ha
          subst ha
          simpa [upd_same, Sender.held] using ht
      | handed p =>
        rw [hk] at ha ht
        dsimp only at ha
        repeat' split at ha
        all_goals (injection ha with ha; subst ha; simpa [upd_same, Sender.held, Net.crash, hk] using ht)
      | flying p b =>
        rw [hk] at ha ht
        dsimp only at ha
        repeat' split at ha
        all_goals (injection ha with ha; subst ha; simpa [upd_same, Sender.held, Net.crash, hk] using ht)
      | putting p b =>
        rw [hk] at ha ht
        dsimp only at ha
        split at ha
        · injection ha with ha
          subst ha
          simp only [upd_same, Sender.held, Option.toList_none, List.nil_append]
          exact List.IsSuffix.trans (List.suffix_append _ _) ht
        · cases ha
      | deposited p b =>
        rw [hk] at ha ht
        injection ha with ha
        subst ha
        simpa [upd_same, Sender.held] using ht
      | delivered p b =>
        rw [hk] at ha ht
        injection ha with ha
        subst ha
        simpa [upd_same, Sender.held] using ht
    · dsimp only at ha
      repeat' split at ha
      all_goals first
        | (injection ha with ha; subst ha; exact ht)
        | (injection ha with ha; subst ha; dsimp only; simp only [upd_ne _ _ _ _ hti]; exact ht)
        | cases ha
  | startRead i source =>
    dsimp only at ha
    unfold Net.startRead at ha
    repeat' split at ha
    all_goals first
      | (injection ha with ha; subst ha; exact ht)
      | cases ha
  | take i =>
    obtain ⟨_, _, _, -, -, rfl⟩ := view_take ha
    exact ht
  | readDone i =>
    obtain ⟨y, ha⟩ := ha
    obtain ⟨_, -, rfl⟩ := view_readDone ha
    exact ht
  | halt i =>
    obtain ⟨-, rfl⟩ := view_halt ha
    exact ht
  | stopStep i =>
    obtain ⟨h1, h2, st, -, rfl⟩ := view_stopStep ha
    exact ht

theorem net_suffix_run (c : NetConfig) (as : List NetAct) (s : Net) (hs : Net.run c {} as = some s) (t : Nat) :
    (s.sender t).held.toList ++ s.queue t <:+ s.sent t :=
  net_run_induction (P := fun n => ∀ t, (n.sender t).held.toList ++ n.queue t <:+ n.sent t)
    (fun _ _ _ h ha => net_suffix_act h ha) as {} s (fun _ => List.suffix_rfl) hs t

end Ramwich
