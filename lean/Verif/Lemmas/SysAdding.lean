import Verif.Lemmas.SysRest

/-! # `add_send_packet` calls of a node: one while its tile process waits for it, otherwise none -/
namespace Ramwich

open Pipeline (upd)
open Spec

def TilePhase.adds : TilePhase → Nat
  | .adding .. => 1
  | _ => 0

def AddExact (s : Sys) : Prop := ∀ t, s.net.adding t = (s.tile t).phase.adds

def NetAct.isAdd : NetAct → Bool
  | .send .. => true
  | .added _ => true
  | _ => false

theorem net_adding_eq {c : NetConfig} {n n' : Net} {a : NetAct} (h : n.act c a = some n') (ha : a.isAdd = false) :
    n'.adding = n.adding := by
  obtain ⟨-, -, h⟩ := net_act_cases h
  cases a with
  | send i target data => cases ha
  | added i => cases ha
  | thread i =>
    dsimp only at h
    unfold Net.thread at h
    dsimp only at h
    repeat' split at h
    all_goals first
      | (injection h with h; subst h; rfl)
      | cases h
  | startRead i source =>
    dsimp only at h
    unfold Net.startRead at h
    repeat' split at h
    all_goals first
      | (injection h with h; subst h; rfl)
      | cases h
  | take i => obtain ⟨_, _, _, -, -, rfl⟩ := view_take h; rfl
  | readDone i => obtain ⟨y, h⟩ := h; obtain ⟨_, -, rfl⟩ := view_readDone h; rfl
  | halt i => obtain ⟨-, rfl⟩ := view_halt h; rfl
  | stopStep i => obtain ⟨-, -, st, -, rfl⟩ := view_stopStep h; rfl

theorem addExact_frame {s s' : Sys} (h : AddExact s) (hn : s'.net.adding = s.net.adding)
    (ht : ∀ j, (s'.tile j).phase = (s.tile j).phase) : AddExact s' := by
  intro j
  rw [hn, ht j]
  exact h j

theorem addExact_setTile {s : Sys} (h : AddExact s) (t : Nat) (n : Net) (x : TileSt)
    (hn : n.adding = upd s.net.adding t x.phase.adds) : AddExact (Sys.setTile { s with net := n } t x) := by
  intro j
  show n.adding j = _
  rw [hn]
  by_cases hj : j = t
  · subst hj; rw [upd_same, setTile_same]
  · rw [upd_ne _ _ _ _ hj, setTile_phase_ne _ _ _ _ hj]; exact h j

theorem addExact_step {cfg : SysCfg} {s s' : Sys} {a : SysAct} (h : s.act cfg a = some s') (hn : s'.crashed = none)
    (hi : AddExact s) : AddExact s' := by
  unfold Sys.act at h
  split at h
  · cases h
  have hnet : ∀ na, na.isAdd = false → s.netAct cfg na id = some s' → AddExact s' := by
    intro na hne h
    obtain ⟨n, h1, -, rfl⟩ := netAct_some h hn
    exact addExact_frame hi (net_adding_eq h1 hne) (fun _ => rfl)
  have hct : ∀ t ca, s.ctrlAct cfg t ca id = some s' → AddExact s' := by
    intro t ca h
    obtain ⟨c, -, rfl⟩ := ctrlAct_some h hn
    exact addExact_frame hi rfl (setTile_phase_eq s t { s.tile t with ctrl := c } rfl)
  split at h
  · rename_i t a
    split at h
    · cases h
    · cases h
    · split at h
      · exact hct t _ h
      · cases h
  · exact hnet _ rfl h
  · exact hnet _ rfl h
  · rename_i t k
    split at h
    · obtain ⟨h1, h2⟩ := coreStep_phase h hn
      exact addExact_frame hi (by rw [h1]) h2
    · cases h
  · rename_i t
    split at h
    case isFalse => cases h
    unfold Sys.tileStep at h
    dsimp only at h
    -- from a phase that is not `adding` to another one
    have hself : ∀ (n : Net) (x : TileSt), n.adding = s.net.adding → (s.tile t).phase.adds = 0 → x.phase.adds = 0 →
        AddExact (Sys.setTile { s with net := n } t x) := by
      intro n x h0 h1 h2
      refine addExact_setTile hi t n x ?_
      rw [h0, h2, ← h1, ← hi t, upd_self]
    have hsub : ∀ (ca : CtrlAct) (f : Sys → Sys),
        (∀ c, ∃ x, f (s.setTile t { s.tile t with ctrl := c }) = s.setTile t x ∧ x.phase.adds = 0) →
        (s.tile t).phase.adds = 0 → s.ctrlAct cfg t ca f = some s' → AddExact s' := by
      intro ca f hf h0 h
      obtain ⟨c, -, rfl⟩ := ctrlAct_some h hn
      obtain ⟨x, hx1, hx2⟩ := hf c
      rw [hx1]
      exact hself s.net x rfl h0 hx2
    have hnet' : ∀ (na : NetAct) (f : Sys → Sys),
        (∀ n, ∃ x, f { s with net := n } = Sys.setTile { s with net := n } t x ∧ x.phase.adds = 0) →
        (s.tile t).phase.adds = 0 → na.isAdd = false → s.netAct cfg na f = some s' → AddExact s' := by
      intro na f hf h0 hne h
      obtain ⟨n, h1, -, rfl⟩ := netAct_some h hn
      obtain ⟨x, hx1, hx2⟩ := hf n
      rw [hx1]
      exact hself n x (net_adding_eq h1 hne) h0 hx2
    split at h
    · rename_i hp
      split at h
      · cases h
      · unfold Sys.tileStart at h
        dsimp only at h
        split at h
        · exact hsub _ _ (fun c => ⟨_, by dsimp only; rw [setTile_tile, setTile_setTile], rfl⟩) (by rw [hp]; rfl) h
        · split at h
          · injection h with h; subst h; cases hn
          · injection h with h; subst h; exact hself s.net _ rfl (by rw [hp]; rfl) rfl
        · injection h with h; subst h; exact hself s.net _ rfl (by rw [hp]; rfl) rfl
    · rename_i hp
      split at h
      · cases h
      · split at h
        · injection h with h; subst h; cases hn
        · injection h with h; subst h; exact hself s.net _ rfl (by rw [hp]; rfl) rfl
    · rename_i hp
      split at h
      · injection h with h; subst h; exact hself s.net _ rfl (by rw [hp]; rfl) rfl
      · split at h
        · injection h with h; subst h; cases hn
        · obtain ⟨n, h1, -, rfl⟩ := netAct_some h hn
          obtain ⟨-, -, h2⟩ := net_act_cases h1
          obtain ⟨rfl, -⟩ := sendIf_send h2
          refine addExact_setTile hi t _ _ ?_
          show upd s.net.adding t (s.net.adding t + 1) = upd s.net.adding t 1
          rw [hi t, hp]; rfl
    · rename_i hp
      obtain ⟨n, h1, -, rfl⟩ := netAct_some h hn
      obtain ⟨-, -, h2⟩ := net_act_cases h1
      dsimp only at h2
      unfold Net.added at h2
      split at h2
      · cases h2
      · rename_i k hk
        injection h2 with h2; subst h2
        refine addExact_setTile hi t _ _ ?_
        show upd s.net.adding t k = upd s.net.adding t 0
        have := hi t
        rw [hp, hk] at this
        have h3 : k + 1 = 1 := this
        rw [show k = 0 by omega]
    · rename_i hp
      split at h
      · exact hnet' _ _ (fun n => ⟨_, rfl, rfl⟩) (by rw [hp]; rfl) rfl h
      · exact hsub _ _ (fun c => ⟨_, by dsimp only [Sys.logPhase]; rw [setTile_tile, setTile_setTile], rfl⟩)
          (by rw [hp]; rfl) h
    · rename_i hp
      split at h
      · refine hnet' _ _ (fun n => ⟨_, rfl, ?_⟩) (by rw [hp]; rfl) rfl h
        dsimp only
        split <;> rfl
      · cases h
    · rename_i hp
      split at h
      · injection h with h; subst h; exact hself s.net _ rfl (by rw [hp]; rfl) rfl
      · cases h
    · rename_i hp
      split at h
      · split at h
        · injection h with h; subst h; exact hself s.net _ rfl (by rw [hp]; rfl) rfl
        · exact hnet' _ _ (fun n => ⟨_, rfl, rfl⟩) (by rw [hp]; rfl) rfl h
      · cases h
    · rename_i hp
      split at h
      · exact hsub _ _ (fun c => ⟨_, by dsimp only [Sys.logPhase]; rw [setTile_tile, setTile_setTile], rfl⟩)
          (by rw [hp]; rfl) h
      · exact hnet _ rfl h

theorem addExact_run {cfg : SysCfg} {i : SysInit} (as : List SysAct) (s : Sys) (h : i.start.run cfg as = some s)
    (hc : s.crashed = none) : AddExact s := by
  have key : ∀ (as : List SysAct) (s0 : Sys), AddExact s0 → Sys.run cfg s0 as = some s → AddExact s := by
    intro as
    induction as with
    | nil => intro s0 h0 h; simp only [Sys.run, Option.some.injEq] at h; subst h; exact h0
    | cons a as ih =>
      intro s0 h0 h
      simp only [Sys.run] at h
      cases ha : s0.act cfg a with
      | none => rw [ha] at h; cases h
      | some s1 =>
        rw [ha] at h
        refine ih s1 (addExact_step ha ?_ h0) h
        cases as with
        | nil => simp only [Option.bind_some, Sys.run, Option.some.injEq] at h; subst h; exact hc
        | cons b bs =>
          cases hcr : s1.crashed with
          | none => rfl
          | some e =>
            simp [Option.bind_some, Sys.run, Sys.act, hcr] at h
  exact key as _ (fun t => rfl) h

end Ramwich
