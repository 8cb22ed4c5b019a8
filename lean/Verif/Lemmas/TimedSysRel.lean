import Verif.Lemmas.TimedSystem
import Verif.Lemmas.SysReach

/-! # Every run of the node with pipelines and a clock is a run of the node without -/
namespace Ramwich

open Pipeline

/-! ## What actions leave alone -/

theorem ctrlAct_eq {cfg : SysCfg} {s s' : Sys} {t : Nat} {a : CtrlAct} {f : Sys → Sys}
    (h : s.ctrlAct cfg t a f = some s') :
    ∃ c, (s.tile t).ctrl.act cfg.edramLat a = some c ∧
      ((∃ e, c.crashed = some e ∧ s' = (s.setTile t { s.tile t with ctrl := c }).crash e) ∨
        (c.crashed = none ∧ s' = f (s.setTile t { s.tile t with ctrl := c }))) := by
  unfold Sys.ctrlAct at h
  rw [Option.map_eq_some_iff] at h
  obtain ⟨c, hc, h⟩ := h
  refine ⟨c, hc, ?_⟩
  dsimp only at h
  split at h
  · rename_i e he
    exact Or.inl ⟨e, he, h.symm⟩
  · rename_i he
    exact Or.inr ⟨he, h.symm⟩

theorem netAct_eq {cfg : SysCfg} {s s' : Sys} {a : NetAct} {f : Sys → Sys}
    (h : s.netAct cfg a f = some s') : ∃ n : Net, s' = ({ s with net := n } : Sys) ∨
      (∃ e, s' = ({ s with net := n } : Sys).crash e) ∨ s' = f { s with net := n } := by
  unfold Sys.netAct at h
  rw [Option.map_eq_some_iff] at h
  obtain ⟨n, -, h⟩ := h
  refine ⟨n, ?_⟩
  dsimp only at h
  split at h
  · exact Or.inr (Or.inl ⟨_, h.symm⟩)
  · exact Or.inr (Or.inr h.symm)

/-- Requests and answers are only added, the latter with the current time, which does not change. -/
structure CtrlExt (c c' : Ctrl) : Prop where
  now : c'.now = c.now
  subs : c.submitted <+: c'.submitted
  ans : c.answers <+: c'.answers
  fresh : ∀ a ∈ c'.answers, a ∈ c.answers ∨ a.time = c.now

theorem CtrlExt.rfl' (c : Ctrl) : CtrlExt c c := ⟨rfl, List.prefix_rfl, List.prefix_rfl, fun _ h => Or.inl h⟩

theorem CtrlExt.trans' {c c' c'' : Ctrl} (h : CtrlExt c c') (h' : CtrlExt c' c'') : CtrlExt c c'' := by
  refine ⟨h'.now.trans h.now, h.subs.trans h'.subs, h.ans.trans h'.ans, fun a ha => ?_⟩
  rcases h'.fresh a ha with h1 | h1
  · exact h.fresh a h1
  · exact Or.inr (h1.trans h.now)

theorem ctrl_act_ext {lat : Int} {c c' : Ctrl} {a : CtrlAct} (h : c.act lat a = some c') (ha : a ≠ .tick) :
    CtrlExt c c' := by
  obtain ⟨h1, h2⟩ := act_mono h
  have st := act_step lat c c' a h
  refine ⟨?_, h1, h2, ?_⟩
  · cases st <;> first | rfl | exact absurd rfl ha
  · cases st with
    | read r rest mem data =>
      intro x hx
      rcases List.mem_append.1 hx with hx | hx
      · exact Or.inl hx
      · rw [List.mem_singleton.1 hx]; exact Or.inr rfl
    | write r rest mem data rows =>
      intro x hx
      rcases List.mem_append.1 hx with hx | hx
      · exact Or.inl hx
      · rw [List.mem_singleton.1 hx]; exact Or.inr rfl
    | _ => exact fun x hx => Or.inl hx

/-- The cores are as before. -/
def sameCores (s s' : Sys) : Prop :=
  ∀ t, (s'.tile t).core = (s.tile t).core ∧ CtrlExt (s.tile t).ctrl (s'.tile t).ctrl

theorem sameCores.rfl' (s : Sys) : sameCores s s := fun _ => ⟨rfl, .rfl' _⟩

theorem sameCores.trans' {s s' s'' : Sys} (h : sameCores s s') (h' : sameCores s' s'') : sameCores s s'' :=
  fun t => ⟨(h' t).1.trans (h t).1, (h t).2.trans' (h' t).2⟩

theorem sameCores_setTile (s : Sys) (t : Nat) (x : TileSt) (hc : x.core = (s.tile t).core)
    (hn : CtrlExt (s.tile t).ctrl x.ctrl) : sameCores s (s.setTile t x) := by
  intro j
  by_cases h : j = t
  · subst h
    rw [setTile_tile]
    exact ⟨hc, hn⟩
  · rw [show (s.setTile t x).tile j = s.tile j from upd_ne _ _ _ _ h]
    exact ⟨rfl, .rfl' _⟩

theorem sameCores_ctrlAct {cfg : SysCfg} {s s' : Sys} {t : Nat} {a : CtrlAct} {f : Sys → Sys}
    (h : s.ctrlAct cfg t a f = some s') (ha : a ≠ .tick) (hf : ∀ s, sameCores s (f s)) : sameCores s s' := by
  obtain ⟨c, hc, h⟩ := ctrlAct_eq h
  have h1 : sameCores s (s.setTile t { s.tile t with ctrl := c }) :=
    sameCores_setTile s t _ rfl (ctrl_act_ext hc ha)
  rcases h with ⟨e, -, rfl⟩ | ⟨-, rfl⟩
  · exact h1
  · exact h1.trans' (hf _)

theorem sameCores_netAct {cfg : SysCfg} {s s' : Sys} {a : NetAct} {f : Sys → Sys}
    (h : s.netAct cfg a f = some s') (hf : ∀ s, sameCores s (f s)) : sameCores s s' := by
  obtain ⟨n, rfl | ⟨e, rfl⟩ | rfl⟩ := netAct_eq h
  · exact fun _ => ⟨rfl, .rfl' _⟩
  · exact fun _ => ⟨rfl, .rfl' _⟩
  · exact fun t => hf { s with net := n } t

theorem sameCores_setPhase (t : Nat) (p : TilePhase) (s : Sys) : sameCores s (s.setPhase t p) :=
  sameCores_setTile s t _ rfl (CtrlExt.rfl' _)

theorem sameCores_logPhase (t : Nat) (e : TileEv) (p : TilePhase) (s : Sys) : sameCores s (s.logPhase t e p) :=
  sameCores_setTile s t _ rfl (CtrlExt.rfl' _)

theorem sameCores_tileStep {cfg : SysCfg} {s s' : Sys} {t : Nat} (h : s.tileStep cfg t = some s') :
    sameCores s s' := by
  unfold Sys.tileStep at h
  dsimp only at h
  split at h
  · split at h
    · cases h
    · unfold Sys.tileStart at h
      dsimp only at h
      split at h
      · exact sameCores_ctrlAct h (by simp) (fun s => sameCores_setTile s t _ rfl (CtrlExt.rfl' _))
      · split at h
        · cases h; exact fun _ => ⟨rfl, .rfl' _⟩
        · cases h; exact sameCores_setTile s t _ rfl (CtrlExt.rfl' _)
      · cases h; exact sameCores_setTile s t _ rfl (CtrlExt.rfl' _)
  · split at h
    · cases h
    · split at h
      · cases h; exact fun _ => ⟨rfl, .rfl' _⟩
      · cases h; exact sameCores_logPhase _ _ _ _
  · split at h
    · cases h; exact sameCores_setPhase _ _ _
    · split at h
      · cases h; exact fun _ => ⟨rfl, .rfl' _⟩
      · exact sameCores_netAct h (sameCores_setPhase _ _)
  · exact sameCores_netAct h (sameCores_setPhase _ _)
  · split at h
    · exact sameCores_netAct h (sameCores_setPhase _ _)
    · exact sameCores_ctrlAct h (by simp) (sameCores_logPhase _ _ _)
  · split at h
    · exact sameCores_netAct h (sameCores_logPhase _ _ _)
    · cases h
  · split at h
    · cases h; exact sameCores_setPhase _ _ _
    · cases h
  · split at h
    · split at h
      · cases h; exact sameCores_setPhase _ _ _
      · exact sameCores_netAct h (sameCores_setPhase _ _)
    · cases h
  · split at h
    · exact sameCores_ctrlAct h (by simp) (sameCores_logPhase _ _ _)
    · exact sameCores_netAct h sameCores.rfl'

theorem sameCores_act {cfg : SysCfg} {s s' : Sys} {a : SysAct} (h : s.act cfg a = some s')
    (ha : ∀ t k, a ≠ .core t k) (ha' : ∀ t, a ≠ .ctrl t .tick) : sameCores s s' := by
  unfold Sys.act at h
  split at h
  · cases h
  · cases a with
    | core t k => exact absurd rfl (ha t k)
    | ctrl t a =>
      cases a with
      | submit => cases h
      | stop => cases h
      | tick => exact absurd rfl (ha' t)
      | _ =>
        dsimp only at h
        split at h
        · exact sameCores_ctrlAct h (by simp) sameCores.rfl'
        · cases h
    | thread t => exact sameCores_netAct h sameCores.rfl'
    | take t => exact sameCores_netAct h sameCores.rfl'
    | tile t =>
      dsimp only at h
      split at h
      · exact sameCores_tileStep h
      · cases h

/-! ## What cores do -/

/-- Core `k` of tile `t` becomes `x`, the controller `c`. -/
def Sys.setBoth (s : Sys) (t k : Nat) (c : Ctrl) (x : CoreSt) : Sys :=
  s.setTile t { s.tile t with ctrl := c, core := upd (s.tile t).core k x }

/-- How the state of a core and of its controller changes when an operation is started. -/
def Started (cfg : SysCfg) (k : Nat) (c : Ctrl) (op : CoreOp) (c' : Ctrl) (x' : CoreSt) : Prop :=
  match op with
  | .load dest read width vec => ∃ addr, c.act cfg.edramLat (.submit k addr (.read width vec)) = some c' ∧
      c'.crashed = none ∧ x'.phase = .loadWait c.submitted.length addr dest read width vec
  | .store _ _ _ vec => c' = c ∧ 0 ≤ cfg.dataMemLat * vec ∧
      ∃ addr data, x'.phase = .storeDelay addr data vec.toNat
  | op => c' = c ∧ (∃ d, cfg.execLat op = .ok d ∧ 0 ≤ d) ∧
      x'.phase = if op = .hlt then .halting else .timing

theorem badDelay_none {d : Except PyErr Int} (h : badDelay d = none) : ∃ x, d = .ok x ∧ 0 ≤ x := by
  cases d with
  | error e => cases h
  | ok x =>
    refine ⟨x, rfl, ?_⟩
    simp only [badDelay] at h
    split at h
    · cases h
    · omega

theorem coreStart_eq {cfg : SysCfg} {s s' : Sys} {t k : Nat} {op : CoreOp} {rest : List CoreOp}
    (h : s.coreStart cfg t k op rest = some s') :
    s'.crashed.isSome = true ∨ ∃ c' x', s' = s.setBoth t k c' x' ∧
      Started cfg k (s.tile t).ctrl op c' x' := by
  have simple : ∀ op : CoreOp, op.usesDram = false →
      (match ((s.tile t).core k).core.execute cfg.fl
          (cfg.noise t k ((s.tile t).core k).log.length) op with
        | (.error e, _) => some (s.crash e)
        | (.ok (), c) =>
          match badDelay (cfg.execLat op) with
          | some e => some (s.crash e)
          | none => some (s.setCore t k {
              core := c
              prog := if op = .hlt then [] else rest
              phase := if op = .hlt then .halting else .timing
              log := ((s.tile t).core k).log ++ [⟨op, 0, [], c⟩] })) = some s' →
      s'.crashed.isSome = true ∨ ∃ c' x', s' = s.setBoth t k c' x' ∧
        Started cfg k (s.tile t).ctrl op c' x' := by
    intro op hop h
    split at h
    · cases h; exact Or.inl rfl
    · split at h
      · cases h; exact Or.inl rfl
      · rename_i hb
        cases h
        refine Or.inr ⟨(s.tile t).ctrl, _, rfl, ?_⟩
        have := badDelay_none hb
        cases op with
        | load => cases hop
        | store => cases hop
        | _ => exact ⟨rfl, this, rfl⟩
  unfold Sys.coreStart at h
  cases op with
  | load dest read width vec =>
    dsimp only at h
    split at h
    · cases h; exact Or.inl rfl
    · obtain ⟨c, hc, ⟨e, -, rfl⟩ | ⟨hn, rfl⟩⟩ := ctrlAct_eq h
      · exact Or.inl rfl
      · rename_i addr c0 _
        refine Or.inr ⟨c, { (s.tile t).core k with
          core := c0, prog := rest
          phase := .loadWait (s.tile t).ctrl.submitted.length addr dest read width vec }, ?_, addr, hc, hn, rfl⟩
        rw [setCore_eq, setTile_tile, setTile_setTile]
        rfl
  | store dest read width vec =>
    dsimp only at h
    split at h
    · cases h; exact Or.inl rfl
    · split at h
      · cases h; exact Or.inl rfl
      · rename_i hb
        cases h
        refine Or.inr ⟨(s.tile t).ctrl, _, rfl, rfl, ?_, _, _, rfl⟩
        obtain ⟨x, hx, h0⟩ := badDelay_none hb
        cases hx
        exact h0
  | set a b c => exact simple (.set a b c) rfl h
  | copy a b c => exact simple (.copy a b c) rfl h
  | vfu a b c d e => exact simple (.vfu a b c d e) rfl h
  | mvm a => exact simple (.mvm a) rfl h
  | hlt => exact simple .hlt rfl h

/-- How the state of a core and of its controller changes when it goes on. -/
def Continued (cfg : SysCfg) (k : Nat) (c : Ctrl) (ph : CorePhase) (c' : Ctrl) (x' : CoreSt) : Prop :=
  match ph with
  | .ready => False
  | .timing => c' = c ∧ x'.phase = .ready
  | .loadWait id _ dest _ _ vec => c' = c ∧ 0 ≤ cfg.dataMemLat * vec ∧
      ∃ data, readAnswer id c.answers = some data ∧ x'.phase = .loadGot dest data
  | .loadGot _ _ => c' = c ∧ x'.phase = .ready
  | .storeDelay addr data rows => c.act cfg.edramLat (.submit k addr (.write data rows)) = some c' ∧
      c'.crashed = none ∧ x'.phase = .storeWait c.submitted.length
  | .storeWait id => c' = c ∧ wroteAnswer id c.answers = true ∧ x'.phase = .ready
  | .halting => c' = c ∧ x'.phase = .halted
  | .halted => False

theorem coreStep_eq {cfg : SysCfg} {s s' : Sys} {t k : Nat} (h : s.coreStep cfg t k = some s')
    (hp : ((s.tile t).core k).phase ≠ .ready) :
    s'.crashed.isSome = true ∨ ∃ c' x', s' = s.setBoth t k c' x' ∧
      Continued cfg k (s.tile t).ctrl ((s.tile t).core k).phase c' x' := by
  unfold Sys.coreStep at h
  dsimp only at h
  cases hph : ((s.tile t).core k).phase with
  | ready => exact absurd hph hp
  | timing =>
    rw [hph] at h
    cases h
    exact Or.inr ⟨(s.tile t).ctrl, _, rfl, rfl, rfl⟩
  | loadWait id addr dest read width vec =>
    rw [hph] at h
    dsimp only at h
    split at h
    · cases h
    · rename_i data hd
      split at h
      · cases h; exact Or.inl rfl
      · rename_i hb
        cases h
        obtain ⟨x, hx, h0⟩ := badDelay_none hb
        cases hx
        exact Or.inr ⟨(s.tile t).ctrl, _, rfl, rfl, h0, data, hd, rfl⟩
  | loadGot dest data =>
    rw [hph] at h
    dsimp only at h
    split at h
    · cases h; exact Or.inl rfl
    · cases h
      exact Or.inr ⟨(s.tile t).ctrl, _, rfl, rfl, rfl⟩
  | storeDelay addr data rows =>
    rw [hph] at h
    dsimp only at h
    obtain ⟨c, hc, ⟨e, -, rfl⟩ | ⟨hn, rfl⟩⟩ := ctrlAct_eq h
    · exact Or.inl rfl
    · refine Or.inr ⟨c, { (s.tile t).core k with phase := .storeWait (s.tile t).ctrl.submitted.length }, ?_,
        hc, hn, rfl⟩
      rw [setCore_eq, setTile_tile, setTile_setTile]
      rfl
  | storeWait id =>
    rw [hph] at h
    dsimp only at h
    split at h
    · rename_i ha
      cases h
      exact Or.inr ⟨(s.tile t).ctrl, _, rfl, rfl, ha, rfl⟩
    · cases h
  | halting =>
    rw [hph] at h
    cases h
    exact Or.inr ⟨(s.tile t).ctrl, _, rfl, rfl, rfl⟩
  | halted =>
    rw [hph] at h
    cases h

theorem setBoth_core (s : Sys) (t k : Nat) (c : Ctrl) (x : CoreSt) (t' k' : Nat) :
    ((s.setBoth t k c x).tile t').core k' = if t' = t ∧ k' = k then x else (s.tile t').core k' := by
  unfold Sys.setBoth
  by_cases h : t' = t
  · subst h
    rw [setTile_tile]
    dsimp only
    by_cases h' : k' = k
    · subst h'; simp [upd_same]
    · rw [upd_ne _ _ _ _ h']; simp [h']
  · rw [show (s.setTile t _).tile t' = s.tile t' from upd_ne _ _ _ _ h]
    simp [h]

theorem setBoth_ctrl (s : Sys) (t k : Nat) (c : Ctrl) (x : CoreSt) (t' : Nat) :
    ((s.setBoth t k c x).tile t').ctrl = if t' = t then c else (s.tile t').ctrl := by
  unfold Sys.setBoth
  by_cases h : t' = t
  · subst h
    rw [setTile_tile]; simp
  · rw [show (s.setTile t _).tile t' = s.tile t' from upd_ne _ _ _ _ h]
    simp [h]

theorem upd2_apply {β : Type} (f : Nat → Nat → β) (t k : Nat) (b : β) (t' k' : Nat) :
    upd2 f t k b t' k' = if t' = t ∧ k' = k then b else f t' k' := by
  unfold upd2
  by_cases h : t' = t
  · subst h
    rw [upd_same]
    by_cases h' : k' = k
    · subst h'; simp [upd_same]
    · rw [upd_ne _ _ _ _ h']; simp [h']
  · rw [upd_ne _ _ _ _ h]; simp [h]

end Ramwich
