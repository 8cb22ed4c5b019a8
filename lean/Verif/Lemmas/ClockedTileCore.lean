import Verif.Lemmas.ClockedTileAct

/-! # The cores of the node with one clock, seen from a tile process -/
namespace Ramwich

open Spec Pipeline

/-- Where the tile processes are. -/
def samePhases (s s' : Sys) : Prop := ∀ t, (s'.tile t).phase = (s.tile t).phase ∧ (s'.tile t).ops = (s.tile t).ops

theorem samePhases.rfl' (s : Sys) : samePhases s s := fun _ => ⟨rfl, rfl⟩

theorem setBoth_phases (s : Sys) (t k : Nat) (c : Ctrl) (x : CoreSt) : samePhases s (s.setBoth t k c x) := by
  intro j
  unfold Sys.setBoth
  by_cases h : j = t
  · subst h; rw [setTile_tile]; exact ⟨rfl, rfl⟩
  · rw [setTile_other _ _ h]; exact ⟨rfl, rfl⟩

theorem coreStart_phases {cfg : SysCfg} {s s' : Sys} {t k : Nat} {op : CoreOp} {rest : List CoreOp}
    (h : s.coreStart cfg t k op rest = some s') (hc : ¬ s'.crashed.isSome = true) : samePhases s s' := by
  obtain h1 | ⟨c', x', rfl, -⟩ := coreStart_eq h
  · exact absurd h1 hc
  · exact setBoth_phases _ _ _ _ _

theorem coreStep_phases {cfg : SysCfg} {s s' : Sys} {t k : Nat} (h : s.coreStep cfg t k = some s')
    (hp : ((s.tile t).core k).phase ≠ .ready) (hc : ¬ s'.crashed.isSome = true) : samePhases s s' := by
  obtain h1 | ⟨c', x', rfl, -⟩ := coreStep_eq h hp
  · exact absurd h1 hc
  · exact setBoth_phases _ _ _ _ _

theorem ite_phases {s0 : Sys} {s s1 s2 : TSys} {sys : Sys} (h : (if sys.crashed.isSome = true then s1 else s2) = s)
    (h1 : s1.sys = sys) (hs : s2.sys = sys) (hc : s.sys.crashed = none)
    (hp : ¬ sys.crashed.isSome = true → samePhases s0 sys) : samePhases s0 s.sys := by
  split at h
  · rename_i hh
    subst h
    rw [← h1, hc] at hh
    cases hh
  · rename_i hh
    subst h
    rw [hs]
    exact hp hh

theorem tsAct_phases {cfg : SysCfg} {l : StageLat} {s s' : TSys} {a : TAct} (ha : ∀ b, a ≠ .other b)
    (h : s.act cfg l a = some s') (hc : s'.sys.crashed = none) : samePhases s.sys s'.sys := by
  unfold TSys.act at h
  split at h
  · cases h
  cases a with
  | other b => exact absurd rfl (ha b)
  | tick =>
    unfold TSys.tick at h
    dsimp only at h
    split at h
    · injection h with h
      subst h
      intro t
      dsimp only
      split <;> exact ⟨rfl, rfl⟩
    · cases h
  | pipe t k a =>
    dsimp only at h
    split at h
    · unfold TSys.pipeAct at h
      split at h
      · cases h
      · cases h
      · rw [Option.map_eq_some_iff] at h
        obtain ⟨p, -, h⟩ := h
        subst h
        exact .rfl' _
    · cases h
  | exec t k =>
    dsimp only at h
    split at h
    · unfold TSys.exec at h
      split at h
      · rw [Option.map_eq_some_iff] at h
        obtain ⟨sys, h1, h⟩ := h
        exact ite_phases h rfl rfl hc (coreStart_phases h1)
      · cases h
    · cases h
  | mid t k =>
    dsimp only at h
    split at h
    · unfold TSys.mid at h
      split at h
      · rename_i hph
        rw [Option.map_eq_some_iff] at h
        obtain ⟨sys, h1, h⟩ := h
        exact ite_phases h rfl rfl hc (coreStep_phases h1 (by rw [hph]; simp))
      · rename_i hph
        split at h
        · rw [Option.map_eq_some_iff] at h
          obtain ⟨sys, h1, h⟩ := h
          exact ite_phases h rfl rfl hc (coreStep_phases h1 (by rw [hph]; simp))
        · cases h
      · cases h
    · cases h
  | fin t k =>
    dsimp only at h
    split at h
    · unfold TSys.fin at h
      split at h
      · rename_i hph
        split at h
        · split at h
          · rename_i sys p h1 _
            injection h with h
            exact ite_phases h rfl rfl hc (coreStep_phases h1 (by rw [hph]; simp))
          · cases h
        · cases h
      · rename_i hph
        split at h
        · split at h
          · rename_i sys p h1 _
            injection h with h
            exact ite_phases h rfl rfl hc (coreStep_phases h1 (by rw [hph]; simp))
          · cases h
        · cases h
      · rename_i hph
        split at h
        · rename_i sys p h1 _
          injection h with h
          exact ite_phases h rfl rfl hc (coreStep_phases h1 (by rw [hph]; simp))
        · cases h
      · split at h
        · rw [Option.map_eq_some_iff] at h
          obtain ⟨p, -, h⟩ := h
          subst h
          exact .rfl' _
        · cases h
      · cases h
    · cases h
  | ret t k =>
    dsimp only at h
    split at h
    · unfold TSys.ret at h
      split at h
      · rename_i hph
        split at h
        · rw [Option.map_eq_some_iff] at h
          obtain ⟨sys, h1, h⟩ := h
          subst h
          exact coreStep_phases h1 (by rw [hph]; simp) (by rw [show sys.crashed = none from hc]; simp)
        · cases h
      · cases h
    · cases h

/-! ## The end of a pipeline -/

theorem move_doneAt {lat : Nat → Nat → Option Nat} {p p' : Timed CoreOp} {a : PAct}
    (h : p.move isHlt 3 lat a = some p') :
    p'.now = p.now ∧ ((p'.doneAt = p.doneAt ∧ p'.st.done = p.st.done) ∨
      (p.st.done = false ∧ p'.doneAt = some p.now ∧ p'.st.done = true)) := by
  cases a with
  | signal =>
    simp only [Timed.move, Timed.signal] at h
    split at h
    · rename_i hd
      cases h
      exact ⟨rfl, .inr ⟨hd.2, rfl, rfl⟩⟩
    · cases h
  | feedIn =>
    simp only [Timed.move, Timed.feedIn] at h
    repeat' split at h
    all_goals first | (cases h; exact ⟨rfl, .inl ⟨rfl, rfl⟩⟩) | cases h
  | take i =>
    simp only [Timed.move, Timed.take] at h
    repeat' split at h
    all_goals first | (cases h; exact ⟨rfl, .inl ⟨rfl, rfl⟩⟩) | cases h
  | start i =>
    simp only [Timed.move, Timed.start] at h
    repeat' split at h
    all_goals first | (cases h; exact ⟨rfl, .inl ⟨rfl, rfl⟩⟩) | cases h
  | finish i =>
    simp only [Timed.move, Timed.finish] at h
    by_cases hi : i < 3
    · simp only [hi, if_true] at h
      cases hc : p.st.ctl i with
      | busy op =>
        rw [hc] at h
        dsimp only at h
        by_cases hd : p.due i = true
        · simp only [hd, if_true] at h
          cases h; exact ⟨rfl, .inl ⟨rfl, rfl⟩⟩
        · simp only [hd] at h
          cases h
      | _ => rw [hc] at h; cases h
    · simp only [hi, if_false] at h
      cases h
  | putIn i =>
    simp only [Timed.move, Timed.putIn] at h
    repeat' split at h
    all_goals first | (cases h; exact ⟨rfl, .inl ⟨rfl, rfl⟩⟩) | cases h
  | next i =>
    simp only [Timed.move, Timed.next] at h
    repeat' split at h
    all_goals first | (cases h; exact ⟨rfl, .inl ⟨rfl, rfl⟩⟩) | cases h
  | monitor =>
    simp only [Timed.move, Timed.monitor] at h
    repeat' split at h
    all_goals first | (cases h; exact ⟨rfl, .inl ⟨rfl, rfl⟩⟩) | cases h
  | tick => cases h

theorem run_doneAt {lat : Nat → Nat → Option Nat} (acts : List PAct) : ∀ {p p' : Timed CoreOp},
    p.run isHlt 3 lat acts = some p' → (p.st.done = false → p.doneAt = none) → p'.st.done = false → p'.doneAt = none := by
  induction acts with
  | nil => intro p p' h h0; cases h; exact h0
  | cons a as ih =>
    intro p p' h h0
    simp only [Timed.run, Option.bind_eq_some_iff] at h
    obtain ⟨q, h1, h2⟩ := h
    refine ih h2 ?_
    by_cases ha : a = .tick
    · subst ha
      simp only [Timed.act] at h1
      split at h1
      · cases h1; exact h0
      · cases h1
    · have hm : p.move isHlt 3 lat a = some q := by
        cases a <;> first | exact h1 | exact absurd rfl ha
      obtain ⟨-, ⟨e1, e2⟩ | ⟨-, -, e2⟩⟩ := move_doneAt hm
      · rw [e1, e2]; exact h0
      · rw [e2]; intro e; cases e

theorem start_doneAt {lat : Nat → Nat → Option Nat} {p p' : Timed CoreOp} {i : Nat} (h : p.start lat i = some p') :
    p'.doneAt = p.doneAt := by
  unfold Timed.start at h
  split at h
  · cases h; rfl
  · cases h

theorem finish_doneAt {p p' : Timed CoreOp} {i n : Nat} (h : p.finish n i = some p') : p'.doneAt = p.doneAt := by
  unfold Timed.finish at h
  split at h
  · split at h
    · cases h; rfl
    · cases h
  · cases h

/-! ## A core acts -/

theorem started_phase {cfg : SysCfg} {k : Nat} {c c' : Ctrl} {op : CoreOp} {x' : CoreSt}
    (h : Started cfg k c op c' x') : x'.phase.isHalted = false := by
  cases op with
  | load dest read width vec => obtain ⟨addr, -, -, h⟩ := h; rw [h]; rfl
  | store dest read width vec => obtain ⟨-, -, addr, data, h⟩ := h; rw [h]; rfl
  | set => rw [h.2.2]; rfl
  | copy => rw [h.2.2]; rfl
  | vfu => rw [h.2.2]; rfl
  | mvm => rw [h.2.2]; rfl
  | hlt => rw [h.2.2]; rfl

theorem isHalted_iff {p : CorePhase} : p.isHalted = true ↔ p = .halted := by
  cases p <;> simp [CorePhase.isHalted]

section
variable {cfg : SysCfg} {l : StageLat} {f : FSys} {ts : TSys} {i : SysInit} {a : TAct}

/-- The core that gets an operation has not returned. -/
theorem got_not_halted (hI : TSI cfg l i f.ts) (hc0 : f.ts.sys.crashed = none) {t k : Nat} (hk : cfg.hasCore t k = true)
    {op : CoreOp} (hg : (f.ts.pipe t k).st.ctl 2 = .got op) : ((f.ts.sys.tile t).core k).phase.isHalted = false := by
  have hq := (hI.tinv hk).inv.quiet 2 (by omega) (.inr ⟨op, hg⟩)
  have hf := (hI.core hc0 t k hk).free fun op' e => by rw [hg] at e; cases e
  have ha : (((f.ts.pipe t k).st.accepted 2).any isHlt) = false :=
    List.any_eq_false.2 fun x hx => by rw [hq x hx]; simp
  rw [ha] at hf
  rw [show _ = CorePhase.ready from hf]
  rfl

/-- An action of a core. -/
theorem tv_core (hI : TSI cfg l i f.ts) (hc0 : f.ts.sys.crashed = none) (h : f.ts.act cfg l a = some ts)
    (ha : ∀ b, a ≠ .other b) (ha' : a ≠ .tick)
    (hc : ts.sys.crashed = none) (j : Nat) :
    TVStep cfg.dataMemLat.toNat cfg.cores (f.tv j) (({ f with ts := ts } : FSys).tv j) := by
  have hph := tsAct_phases ha h hc
  obtain ⟨hnet, hnow, -⟩ := tsAct_net ha h
  have hnow := hnow ha'
  -- only the controller of the tile changes
  have ctrl : CtrlExt (f.ts.sys.tile j).ctrl (ts.sys.tile j).ctrl →
      (∀ k, ((ts.sys.tile j).core k).phase.isHalted = ((f.ts.sys.tile j).core k).phase.isHalted) →
      (∀ k, (ts.pipe j k).doneAt = (f.ts.pipe j k).doneAt) →
      TVStep cfg.dataMemLat.toNat cfg.cores (f.tv j) (({ f with ts := ts } : FSys).tv j) := by
    intro e1 e2 e3
    have := TVStep.ctrl (lat := cfg.dataMemLat.toNat) (cores := cfg.cores) (v := f.tv j) _ e1
    simpa [FSys.tv, hnet, hnow, (hph j).1, (hph j).2, e2, e3] using this
  have both : ∀ {t k : Nat} {c' : Ctrl} {x' : CoreSt}, ts.sys = f.ts.sys.setBoth t k c' x' →
      CtrlExt (f.ts.sys.tile t).ctrl c' → CtrlExt (f.ts.sys.tile j).ctrl (ts.sys.tile j).ctrl := by
    intro t k c' x' e hext
    rw [e, setBoth_ctrl]
    split
    · rename_i hj; rw [hj]; exact hext
    · exact .rfl' _
  have halts : ∀ {t k : Nat} {c' : Ctrl} {x' : CoreSt}, ts.sys = f.ts.sys.setBoth t k c' x' →
      x'.phase.isHalted = ((f.ts.sys.tile t).core k).phase.isHalted →
      ∀ k, ((ts.sys.tile j).core k).phase.isHalted = ((f.ts.sys.tile j).core k).phase.isHalted := by
    intro t k c' x' e e2 k'
    rw [e, setBoth_core]
    split
    · rename_i hj; rw [hj.1, hj.2]; exact e2
    · rfl
  have pipes : ∀ {t k : Nat} {p : Timed CoreOp}, ts.pipe = upd2 f.ts.pipe t k p → p.doneAt = (f.ts.pipe t k).doneAt →
      ∀ k, (ts.pipe j k).doneAt = (f.ts.pipe j k).doneAt := by
    intro t k p e e2 k'
    rw [e, upd2_apply]
    split
    · rename_i hj; rw [hj.1, hj.2]; exact e2
    · rfl
  have eff := tact_eff h
  generalize hts : ts = ts' at eff
  cases eff with
  | crash sys hcr =>
    subst hts
    rw [show sys.crashed = none from hc] at hcr
    cases hcr
  | tick _ ht =>
    subst hts
    unfold TSys.tick at ht
    split at ht
    · injection ht with ht
      rw [← ht] at hnow
      change f.ts.now + 1 = f.ts.now at hnow
      omega
    · cases ht
  | other sys hs =>
    subst hts
    exact ctrl (hs j).2 (fun k => by rw [show _ = _ from (hs j).1]) fun _ => rfl
  | pipe t k hk b p h1 h2 hm =>
    subst hts
    obtain ⟨-, ⟨e1, -⟩ | ⟨e0, e1, -⟩⟩ := move_doneAt hm
    · exact ctrl (.rfl' _) (fun _ => rfl) (pipes rfl e1)
    · by_cases hj : j = t
      · subst hj
        obtain ⟨acts, hr⟩ := hI.pipes j k hk
        have hnone : (f.ts.pipe j k).doneAt = none := run_doneAt acts hr (fun _ => rfl) e0
        have := TVStep.done (lat := cfg.dataMemLat.toNat) (cores := cfg.cores) (v := f.tv j) k hnone
        have e : (fun k' => (upd2 f.ts.pipe j k p j k').doneAt) =
            upd (fun k' => (f.ts.pipe j k').doneAt) k (some f.ts.now) := by
          funext k'
          rw [upd2_apply]
          by_cases hk' : k' = k
          · subst hk'; rw [if_pos ⟨rfl, rfl⟩, e1, upd_same, hI.pnow j k' hk]
          · rw [if_neg (fun e => hk' e.2), upd_ne _ _ _ _ hk']
        simpa [FSys.tv, e] using this
      · refine ctrl (.rfl' _) (fun _ => rfl) fun k' => ?_
        dsimp only
        rw [upd2_apply, if_neg (fun e => hj e.1)]
  | exec t k hk op p c' x' hg hp hs =>
    subst hts
    refine ctrl (both rfl (started_ext hs)) (halts rfl ?_) (pipes rfl (start_doneAt hp))
    rw [started_phase hs, got_not_halted hI hc0 hk hg]
  | mid t k hk c' x' d hp hs =>
    subst hts
    refine ctrl (both rfl (continued_ext hs)) (halts rfl ?_) (pipes rfl rfl)
    rcases hp with ⟨id, addr, dest, read, width, vec, e, -⟩ | ⟨addr, data, rows, e, -⟩
    · rw [e] at hs ⊢
      obtain ⟨-, -, data, -, hx⟩ := hs
      rw [hx]; rfl
    · rw [e] at hs ⊢
      rw [hs.2.2]; rfl
  | fin t k hk c' x' p hp hs hf =>
    subst hts
    refine ctrl (both rfl (continued_ext hs)) (halts rfl ?_) (pipes rfl (finish_doneAt hf))
    rcases hp with ⟨e | ⟨dest, data, e⟩, -⟩ | ⟨id, e⟩
    · rw [e] at hs ⊢
      rw [hs.2]; rfl
    · rw [e] at hs ⊢
      rw [hs.2]; rfl
    · rw [e] at hs ⊢
      rw [hs.2.2]; rfl
  | finHlt t k hk p hp he hf =>
    subst hts
    exact ctrl (.rfl' _) (fun _ => rfl) (pipes rfl (finish_doneAt hf))
  | ret t k hk c' x' hp hd hs =>
    subst hts
    rw [hp] at hs
    obtain ⟨rfl, hx⟩ := hs
    by_cases hj : j = t
    · subst hj
      have hda : (f.ts.pipe j k).doneAt ≠ none := by
        rw [(hI.tinv hk).done hd]; simp
      have := TVStep.returned (lat := cfg.dataMemLat.toNat) (cores := cfg.cores) (v := f.tv j) k
        (by change CorePhase.isHalted _ = _; rw [hp]; rfl) hda
      have e : (fun k' => (((f.ts.sys.setBoth j k (f.ts.sys.tile j).ctrl x').tile j).core k').phase.isHalted) =
          upd (fun k' => ((f.ts.sys.tile j).core k').phase.isHalted) k true := by
        funext k'
        rw [setBoth_core]
        by_cases hk' : k' = k
        · subst hk'; rw [if_pos ⟨rfl, rfl⟩, hx, upd_same]; rfl
        · rw [if_neg (fun e => hk' e.2), upd_ne _ _ _ _ hk']
      have e2 : ((f.ts.sys.setBoth j k (f.ts.sys.tile j).ctrl x').tile j).ctrl = (f.ts.sys.tile j).ctrl := by
        rw [setBoth_ctrl, if_pos rfl]
      have p1 := (hph j).1
      have p2 := (hph j).2
      dsimp only at p1 p2 hnet
      simpa [FSys.tv, e, e2, p1, p2, hnet] using this
    · refine ctrl (both rfl (.rfl' _)) (fun k' => ?_) fun _ => rfl
      dsimp only
      rw [setBoth_core, if_neg (fun e => hj e.1)]

end

end Ramwich
