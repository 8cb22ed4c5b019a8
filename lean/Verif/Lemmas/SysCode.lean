import Verif.Lemmas.SysReach
import Verif.Spec.SysTimes

/-! # Which operations the requests to a DRAM come from -/
namespace Ramwich

open Spec

theorem submit_subset {lat : Int} {c c' : Ctrl} {core start : Int} {kind : ReqKind}
    (h : c.act lat (.submit core start kind) = some c') :
    ∀ r ∈ c'.submitted, r ∈ c.submitted ∨ r = c.newReq core start kind := by
  intro r hr
  have hs := act_step _ _ _ _ h
  cases hs with
  | crash => exact Or.inl hr
  | submit _ _ _ _ =>
    rcases List.mem_append.1 hr with hr | hr
    · exact Or.inl hr
    · exact Or.inr (List.mem_singleton.1 hr)

def comesFrom (cfg : SysCfg) (i : SysInit) (t : Nat) (r : Req) : Prop :=
  (r.core = -1 ∧ ofTileOp (i.ops t) r.kind) ∨ ∃ k : Nat, k < cfg.cores ∧ r.core = k ∧ ofCoreOp (i.prog t k) r.kind

structure TileCode (cfg : SysCfg) (i : SysInit) (t : Nat) (x : TileSt) : Prop where
  prog : ∀ k, (x.core k).prog ⊆ i.prog t k
  ops : x.ops ⊆ i.ops t
  delay : ∀ k addr data rows, (x.core k).phase = .storeDelay addr data rows →
    ∃ dest read w v, .store dest read w v ∈ i.prog t k ∧ rows = v.toNat
  recv : ∀ a s w v g, x.phase = .recving a s w v g ∨ x.phase = .recvWait a s w v g → .receive a s w v ∈ i.ops t
  reqs : ∀ r ∈ x.ctrl.submitted, comesFrom cfg i t r

/-- Core `k` changes, and possibly the controller. -/
theorem tileCode_setCore {cfg : SysCfg} {i : SysInit} {t : Nat} {x : TileSt} (h : TileCode cfg i t x) (k : Nat)
    (y : CoreSt) (c' : Ctrl) (h1 : y.prog ⊆ i.prog t k)
    (h2 : ∀ addr data rows, y.phase = .storeDelay addr data rows →
      ∃ dest read w v, .store dest read w v ∈ i.prog t k ∧ rows = v.toNat)
    (h3 : ∀ r ∈ c'.submitted, r ∈ x.ctrl.submitted ∨ comesFrom cfg i t r) :
    TileCode cfg i t (TileSt.setCore { x with ctrl := c' } k y) := by
  refine ⟨fun j => ?_, h.ops, fun j => ?_, h.recv, fun r hr => ?_⟩
  · rw [setCore_core]
    by_cases hj : j = k
    · rw [if_pos hj, hj]; exact h1
    · rw [if_neg hj]; exact h.prog j
  · rw [setCore_core]
    by_cases hj : j = k
    · rw [if_pos hj, hj]; exact h2
    · rw [if_neg hj]; exact h.delay j
  · rcases h3 r hr with h3 | h3
    · exact h.reqs r h3
    · exact h3

theorem tileCode_step {cfg : SysCfg} {i : SysInit} {t : Nat} {v v' : NetView} {x x' : TileSt}
    (h : TileCode cfg i t x) (st : TileStep cfg t x v x' v') : TileCode cfg i t x' := by
  have same : ∀ r ∈ x.ctrl.submitted, r ∈ x.ctrl.submitted ∨ comesFrom cfg i t r := fun r hr => Or.inl hr
  cases st with
  | ctrl a c _ hs _ => exact ⟨h.prog, h.ops, h.delay, h.recv, fun r hr => h.reqs r (by rw [← hs]; exact hr)⟩
  | take => exact h
  | stopStep => exact h
  | run k op rest c hk hp hq hop he =>
    refine tileCode_setCore h k _ x.ctrl ?_ ?_ same
    · have := h.prog k
      rw [hq] at this
      dsimp only
      split
      · exact List.nil_subset _
      · exact fun y hy => this (List.mem_cons_of_mem _ hy)
    · intro addr data rows hph
      dsimp only at hph
      split at hph <;> cases hph
  | timed k hk hp => exact tileCode_setCore h k _ x.ctrl (h.prog k) (by intro _ _ _ h; cases h) same
  | load k dest read width vec rest addr c c' hk hp hq he hc hn =>
    have hsub := h.prog k
    rw [hq] at hsub
    refine tileCode_setCore h k _ c' (fun y hy => hsub (List.mem_cons_of_mem _ hy)) (by intro _ _ _ h; cases h) ?_
    intro r hr
    rcases submit_subset hc r hr with hr | rfl
    · exact Or.inl hr
    · exact Or.inr (Or.inr ⟨k, hk, rfl, Or.inl ⟨dest, read, width, vec, hsub List.mem_cons_self, rfl⟩⟩)
  | loaded k => exact tileCode_setCore h k _ x.ctrl (h.prog k) (by intro _ _ _ h; cases h) same
  | loadDone k => exact tileCode_setCore h k _ x.ctrl (h.prog k) (by intro _ _ _ h; cases h) same
  | store k dest read width vec rest addr data c hk hp hq he =>
    have hsub := h.prog k
    rw [hq] at hsub
    refine tileCode_setCore h k _ x.ctrl (fun y hy => hsub (List.mem_cons_of_mem _ hy)) ?_ same
    intro addr data rows hph
    cases hph
    exact ⟨dest, read, width, vec, hsub List.mem_cons_self, rfl⟩
  | stored k addr data rows c' hk hp hc hn =>
    refine tileCode_setCore h k _ c' (h.prog k) (by intro _ _ _ h; cases h) ?_
    intro r hr
    rcases submit_subset hc r hr with hr | rfl
    · exact Or.inl hr
    · obtain ⟨dest, read, w, v, h1, h2⟩ := h.delay k addr data rows hp
      exact Or.inr (Or.inr ⟨k, hk, rfl, Or.inr ⟨dest, read, w, v, data, h1, by rw [← h2]; rfl⟩⟩)
  | storeDone k => exact tileCode_setCore h k _ x.ctrl (h.prog k) (by intro _ _ _ h; cases h) same
  | halted k => exact tileCode_setCore h k _ x.ctrl (h.prog k) (by intro _ _ _ h; cases h) same
  | send addr target width vec rest c' hp hq hc hn =>
    have hsub := h.ops
    rw [hq] at hsub
    refine ⟨h.prog, fun y hy => hsub (List.mem_cons_of_mem _ hy), h.delay, ?_, ?_⟩
    · intro a s w v g hph
      rcases hph with hph | hph <;> cases hph
    · intro r hr
      rcases submit_subset hc r hr with hr | rfl
      · exact h.reqs r hr
      · exact Or.inl ⟨rfl, Or.inl ⟨addr, target, width, vec, hsub List.mem_cons_self, rfl⟩⟩
  | recv addr source width vec rest hp hq hw hv =>
    have hsub := h.ops
    rw [hq] at hsub
    refine ⟨h.prog, fun y hy => hsub (List.mem_cons_of_mem _ hy), h.delay, ?_, h.reqs⟩
    intro a s w v g hph
    rcases hph with hph | hph <;> cases hph
    exact hsub List.mem_cons_self
  | recvRead addr source width vec got hp hg hr hb =>
    refine ⟨h.prog, h.ops, h.delay, ?_, h.reqs⟩
    intro a s w v g hph
    rcases hph with hph | hph <;> cases hph
    exact h.recv _ _ _ _ _ (Or.inl hp)
  | recvRow addr source width vec got src data hp hr =>
    refine ⟨h.prog, h.ops, h.delay, ?_, h.reqs⟩
    intro a s w v g hph
    dsimp only at hph
    split at hph <;> rcases hph with hph | hph <;> cases hph
    exact h.recv _ _ _ _ _ (Or.inr hp)
  | recvAll addr source width vec got c' hp hg hc hn =>
    refine ⟨h.prog, h.ops, h.delay, ?_, ?_⟩
    · intro a s w v g hph
      rcases hph with hph | hph <;> cases hph
    · intro r hr
      rcases submit_subset hc r hr with hr | rfl
      · exact h.reqs r hr
      · exact Or.inl ⟨rfl, Or.inr ⟨addr, source, width, vec, got.flatten, h.recv _ _ _ _ _ (Or.inl hp), rfl⟩⟩
  | halt rest hp hq =>
    have hsub := h.ops
    rw [hq] at hsub
    refine ⟨h.prog, fun y hy => hsub (List.mem_cons_of_mem _ hy), h.delay, ?_, h.reqs⟩
    intro a s w v g hph
    rcases hph with hph | hph <;> cases hph
  | haltEnd c' hp hs hc hn =>
    refine ⟨h.prog, h.ops, h.delay, ?_, ?_⟩
    · intro a s w v g hph
      rcases hph with hph | hph <;> cases hph
    · intro r hr
      refine h.reqs r ?_
      have hst := act_step _ _ _ _ hc
      cases hst <;> exact hr
  | _ =>
    refine ⟨h.prog, h.ops, h.delay, ?_, h.reqs⟩
    intro a s w v g hph
    rcases hph with hph | hph <;> cases hph

theorem tileCode_run {cfg : SysCfg} {i : SysInit} (as : List SysAct)
    (s : Sys) (h : i.start.run cfg as = some s) (t : Nat) : TileCode cfg i t (s.tile t) := by
  refine sys_run_induction (P := fun s => ∀ t, TileCode cfg i t (s.tile t)) ?_ as _ s ?_ h t
  · intro s s' hs st t
    rcases st.tile t with ⟨h2, -⟩ | ⟨-, h2⟩
    · rw [h2]; exact hs t
    · exact tileCode_step (hs t) h2
  · intro t
    refine ⟨fun k => List.Subset.refl _, List.Subset.refl _, ?_, ?_, ?_⟩ <;> simp [SysInit.start, Ctrl.started]

end Ramwich
