import Verif.Lemmas.ClockedLeft

/-! # The time that a core still needs -/
namespace Ramwich

open Spec Pipeline

section
variable {cfg : SysCfg} {l : StageLat} {i : SysInit} {f : FSys} {prog : List CoreOp}

/-- One core changes, and the controller of its tile. -/
theorem left_core {ts' : TSys} {t k : Nat} (hk : cfg.hasCore t k = true) (hnow : ts'.now = f.ts.now)
    (hnet : ts'.sys.net = f.ts.sys.net)
    (hj : ∀ j, j ≠ t → ts'.sys.tile j = f.ts.sys.tile j ∧ ts'.pipe j = f.ts.pipe j ∧ ts'.due j = f.ts.due j)
    (ho : (ts'.sys.tile t).ops = (f.ts.sys.tile t).ops) (hp : (ts'.sys.tile t).phase = (f.ts.sys.tile t).phase)
    (hk' : ∀ k', k' ≠ k → ((ts'.sys.tile t).core k').phase = ((f.ts.sys.tile t).core k').phase ∧
      ts'.pipe t k' = f.ts.pipe t k' ∧ ts'.due t k' = f.ts.due t k')
    (hle : ctrlLeft cfg.edramLat (ts'.sys.tile t).ctrl +
        coreLeft cfg l (i.prog t k) (ts'.pipe t k) ((ts'.sys.tile t).core k).phase (ts'.due t k) ≤
      ctrlLeft cfg.edramLat (f.ts.sys.tile t).ctrl +
        coreLeft cfg l (i.prog t k) (f.ts.pipe t k) ((f.ts.sys.tile t).core k).phase (f.ts.due t k)) :
    FSys.left cfg l i { f with ts := ts' } ≤ f.left cfg l i := by
  refine left_le (hasCore_tile hk) (fun j h => ?_) ?_
  · obtain ⟨h1, h2, h3⟩ := hj j h
    exact tileLeft_congr h1 h2 h3 hnow (by rw [hnet]) (by rw [hnet]) (by rw [hnet]) rfl rfl rfl
  · have := sum_range_upd cfg.cores k (hasCore_core hk)
      (fun k => coreLeft cfg l (i.prog t k) (f.ts.pipe t k) ((f.ts.sys.tile t).core k).phase (f.ts.due t k))
      (fun k => coreLeft cfg l (i.prog t k) (ts'.pipe t k) ((ts'.sys.tile t).core k).phase (ts'.due t k)) (fun k' h => by
        obtain ⟨h1, h2, h3⟩ := hk' k' h
        rw [h1, h2, h3])
    unfold FSys.tileLeft
    dsimp only at this ⊢
    rw [ho, hp, hnow, hnet]
    omega

theorem stageRem_same {p p' : Timed CoreOp} {j : Nat} (h1 : p'.now = p.now) (h2 : p'.deadline j = p.deadline j)
    (h3 : ∀ op, p'.st.ctl j = .busy op ↔ p.st.ctl j = .busy op) : stageRem p' j = stageRem p j := by
  unfold stageRem
  rw [h1, h2]
  cases hc : p.st.ctl j with
  | busy op => rw [(h3 op).2 hc]
  | _ =>
    cases hc' : p'.st.ctl j with
    | busy op => rw [(h3 op).1 hc'] at hc; cases hc
    | _ => rfl

theorem coreLeft_same {p p' : Timed CoreOp} {ph : CorePhase} {due : Option Nat} (h1 : p'.now = p.now)
    (h2 : p'.deadline = p.deadline) (h3 : ∀ j, j < 2 → ∀ op, p'.st.ctl j = .busy op ↔ p.st.ctl j = .busy op)
    (h4 : p'.st.accepted = p.st.accepted) : coreLeft cfg l prog p' ph due = coreLeft cfg l prog p ph due := by
  unfold coreLeft toStart
  rw [stageRem_same h1 (by rw [h2]) (h3 0 (by omega)), stageRem_same h1 (by rw [h2]) (h3 1 (by omega)), h4, h1]

theorem busy_upd {ctl : Nat → Ctl CoreOp} {j : Nat} {x : Ctl CoreOp} (hx : ∀ op, x ≠ .busy op) (hc : ∀ op, ctl j ≠ .busy op)
    (m : Nat) (op : CoreOp) : upd ctl j x m = .busy op ↔ ctl m = .busy op := by
  by_cases hm : m = j
  · subst hm
    rw [upd_same]
    exact ⟨fun h => absurd h (hx op), fun h => absurd h (hc op)⟩
  · rw [upd_ne _ _ _ _ hm]

/-- The other stages do not need more time after an action. -/
theorem move_left {p p' : Timed CoreOp} {a : PAct} {ph : CorePhase} {due : Option Nat} (hI : Inv isHlt 3 prog p.st)
    (h : p.move isHlt 3 l.lat a = some p') (h1 : a ≠ .start 2) (h2 : a ≠ .finish 2) :
    coreLeft cfg l prog p' ph due ≤ coreLeft cfg l prog p ph due := by
  cases a with
  | feedIn =>
    simp only [Timed.move, Timed.feedIn] at h
    split at h
    · cases h
    · split at h
      · injection h with h; subst h
        exact (coreLeft_same rfl rfl (fun _ _ _ => Iff.rfl) rfl).le
      · cases h
  | take j =>
    simp only [Timed.move, Timed.take] at h
    split at h
    · split at h
      · rename_i hc _
        injection h with h; subst h
        refine Eq.le (coreLeft_same ?_ ?_ (fun m _ op => busy_upd ?_ ?_ m op) ?_) <;> first | rfl | simp [hc]
      · cases h
    · cases h
  | start j =>
    simp only [Timed.move] at h
    split at h
    · rename_i hj
      have hj2 : j < 2 := by have : j ≠ 2 := fun e => h1 (by rw [e]); omega
      unfold Timed.start at h
      split at h
      · rename_i op hg
        injection h with h
        have ha : p'.st.accepted j = p.st.accepted j ++ [op] := by rw [← h]; exact upd_same _ _ _
        have hts := toStart_start hI hj hg ha
        have hother : ∀ m, m ≠ j → toStart prog p' m = toStart prog p m ∧ stageRem p' m = stageRem p m := by
          intro m hm
          subst h
          refine ⟨?_, stageRem_same rfl (upd_ne _ _ _ _ hm) fun op => ?_⟩
          · unfold toStart
            dsimp only
            rw [upd_ne _ _ _ _ hm]
          · dsimp only
            rw [upd_ne _ _ _ _ hm]
        have hself : stageRem p j = 0 := by unfold stageRem; rw [hg]
        have hself' : ∀ d, l.lat j (p.st.accepted j).length = some d → stageRem p' j = d := by
          intro d hd
          subst h
          unfold stageRem
          dsimp only
          rw [upd_same, upd_same, hd]
          simp
        have hnow : p'.now = p.now := by rw [← h]
        unfold coreLeft
        rw [hnow, (hother 2 (by omega)).1]
        rcases Nat.lt_or_ge j 1 with hj' | hj'
        · obtain rfl : j = 0 := by omega
          rw [(hother 1 (by omega)).1, (hother 1 (by omega)).2, hself, hself' l.fetch rfl, hts, List.length_cons, Nat.succ_mul]
          omega
        · obtain rfl : j = 1 := by omega
          rw [(hother 0 (by omega)).1, (hother 0 (by omega)).2, hself, hself' l.decode rfl, hts, List.length_cons, Nat.succ_mul]
          omega
      · cases h
    · cases h
  | finish j =>
    simp only [Timed.move] at h
    split at h
    · rename_i hj
      have hj2 : j < 2 := by have : j ≠ 2 := fun e => h2 (by rw [e]); omega
      unfold Timed.finish at h
      split at h
      · rename_i op hb
        split at h
        · injection h with h
          have hother : ∀ m, m ≠ j → stageRem p' m = stageRem p m := by
            intro m hm
            subst h
            exact stageRem_same rfl rfl fun op => by dsimp only; rw [upd_ne _ _ _ _ hm]
          have hself : stageRem p' j = 0 := by
            subst h
            unfold stageRem
            dsimp only
            rw [upd_same, if_neg (by omega)]
          have hnow : p'.now = p.now := by rw [← h]
          have hacc : ∀ m, toStart prog p' m = toStart prog p m := fun m => by rw [← h]; rfl
          unfold coreLeft
          rw [hnow, hacc 0, hacc 1, hacc 2]
          rcases Nat.lt_or_ge j 1 with hj' | hj'
          · obtain rfl : j = 0 := by omega
            rw [hother 1 (by omega), hself]
            omega
          · obtain rfl : j = 1 := by omega
            rw [hother 0 (by omega), hself]
            omega
        · cases h
      · cases h
    · cases h
  | putIn j =>
    simp only [Timed.move, Timed.putIn] at h
    split at h
    · split at h
      · rename_i hc
        split at h
        · injection h with h; subst h
          refine Eq.le (coreLeft_same ?_ ?_ (fun m _ op => busy_upd ?_ ?_ m op) ?_) <;> first | rfl | simp [hc]
        · cases h
      · cases h
    · cases h
  | next j =>
    simp only [Timed.move, Timed.next] at h
    split at h
    · split at h
      · rename_i hc
        split at h <;>
        · injection h with h; subst h
          refine Eq.le (coreLeft_same ?_ ?_ (fun m _ op => busy_upd ?_ ?_ m op) ?_) <;> first | rfl | simp [hc]
      · cases h
    · cases h
  | monitor =>
    simp only [Timed.move, Timed.monitor] at h
    split at h
    · injection h with h; subst h
      exact (coreLeft_same rfl rfl (fun _ _ _ => Iff.rfl) rfl).le
    · cases h
  | signal =>
    simp only [Timed.move, Timed.signal] at h
    split at h
    · injection h with h; subst h
      exact (coreLeft_same rfl rfl (fun _ _ _ => Iff.rfl) rfl).le
    · cases h
  | tick => cases h

/-- Starting an operation takes its cycles from the ones left. -/
theorem exec_left {p p' : Timed CoreOp} {op : CoreOp} {ph ph' : CorePhase} {due due' : Option Nat}
    (hI : Inv isHlt 3 prog p.st) (hg : p.st.ctl 2 = .got op) (h : p.start l.lat 2 = some p') (n : Nat)
    (hn : n + phaseLeft cfg p.now ph' due' ≤ coreOpCycles cfg op) :
    n + coreLeft cfg l prog p' ph' due' ≤ coreLeft cfg l prog p ph due := by
  have ha := (start_two hg h).2.1
  have hnow := (start_two hg h).1
  have hts := toStart_start hI (by omega) hg ha
  unfold Timed.start at h
  rw [hg] at h
  injection h with h
  have hother : ∀ m, m ≠ 2 → toStart prog p' m = toStart prog p m ∧ stageRem p' m = stageRem p m := by
    intro m hm
    subst h
    refine ⟨?_, stageRem_same rfl (upd_ne _ _ _ _ hm) fun op => ?_⟩
    · unfold toStart
      dsimp only
      rw [upd_ne _ _ _ _ hm]
    · dsimp only
      rw [upd_ne _ _ _ _ hm]
  unfold coreLeft
  rw [(hother 0 (by omega)).1, (hother 0 (by omega)).2, (hother 1 (by omega)).1, (hother 1 (by omega)).2, hts, hnow]
  simp only [List.map_cons, List.sum_cons]
  omega

theorem finish_left {p p' : Timed CoreOp} {ph ph' : CorePhase} {due due' : Option Nat} (h : p.finish 3 2 = some p')
    (hn : phaseLeft cfg p.now ph' due' ≤ phaseLeft cfg p.now ph due) :
    coreLeft cfg l prog p' ph' due' ≤ coreLeft cfg l prog p ph due := by
  unfold Timed.finish at h
  split at h
  · split at h
    · injection h with h
      have h3 : coreLeft cfg l prog p' ph' due' = coreLeft cfg l prog p ph' due' := by
        subst h
        exact coreLeft_same rfl rfl (fun m hm op => by dsimp only; rw [upd_ne _ _ _ _ (by omega)]) rfl
      rw [h3]
      unfold coreLeft
      omega
    · cases h
  · cases h

theorem left_phase {p : Timed CoreOp} {ph ph' : CorePhase} {due due' : Option Nat} (n : Nat)
    (hn : n + phaseLeft cfg p.now ph' due' ≤ phaseLeft cfg p.now ph due) :
    n + coreLeft cfg l prog p ph' due' ≤ coreLeft cfg l prog p ph due := by
  unfold coreLeft
  omega

theorem upd2_same {β : Type} (g : Nat → Nat → β) (t k : Nat) (b : β) : upd2 g t k b t k = b := by
  unfold upd2; rw [upd_same, upd_same]

theorem upd2_tile {β : Type} (g : Nat → Nat → β) {t j : Nat} (k : Nat) (b : β) (h : j ≠ t) : upd2 g t k b j = g j := by
  unfold upd2; rw [upd_ne _ _ _ _ h]

theorem upd2_core {β : Type} (g : Nat → Nat → β) (t : Nat) {k m : Nat} (b : β) (h : m ≠ k) : upd2 g t k b t m = g t m := by
  unfold upd2; rw [upd_same, upd_ne _ _ _ _ h]

/-- An action of a core or of its pipeline. -/
theorem coreAct_left {ts' : TSys} {a : TAct} (h : TSI cfg l i f.ts) (ha : f.ts.act cfg l a = some ts') (h1 : a ≠ .tick)
    (h2 : ∀ b, a ≠ .other b) (hn : ts'.sys.crashed = none) :
    FSys.left cfg l i { f with ts := ts' } ≤ f.left cfg l i := by
  have live : ∀ {x : TSys} {sys : Sys}, (if sys.crashed.isSome then { f.ts with sys := sys } else x) = ts' →
      sys.crashed = none ∧ x = ts' := by
    intro x sys hx
    by_cases hcr : sys.crashed.isSome = true
    · rw [if_pos hcr] at hx
      rw [← hx] at hn
      rw [show sys.crashed = none from hn] at hcr
      cases hcr
    · rw [if_neg hcr] at hx
      exact ⟨by simpa using hcr, hx⟩
  -- the controller, the core, its pipeline and its `timeout` change
  have go : ∀ {t k : Nat} (c : Ctrl) (y : CoreSt) (p : Timed CoreOp) (d : Option Nat), cfg.hasCore t k = true →
      (f.ts.setPipe (f.ts.sys.setTile t { f.ts.sys.tile t with ctrl := c, core := upd (f.ts.sys.tile t).core k y }) t k p d) = ts' →
      ctrlLeft cfg.edramLat c + coreLeft cfg l (i.prog t k) p y.phase d ≤
        ctrlLeft cfg.edramLat (f.ts.sys.tile t).ctrl +
        coreLeft cfg l (i.prog t k) (f.ts.pipe t k) ((f.ts.sys.tile t).core k).phase (f.ts.due t k) →
      FSys.left cfg l i { f with ts := ts' } ≤ f.left cfg l i := by
    intro t k c y p d hk he hle
    subst he
    have ht : (f.ts.sys.setTile t { f.ts.sys.tile t with ctrl := c, core := upd (f.ts.sys.tile t).core k y }).tile t =
      { f.ts.sys.tile t with ctrl := c, core := upd (f.ts.sys.tile t).core k y } := upd_same _ _ _
    refine left_core hk rfl rfl (fun j hj => ⟨upd_ne _ _ _ _ hj, upd2_tile _ _ _ hj, upd2_tile _ _ _ hj⟩) ?_ ?_
      (fun k' hk' => ⟨?_, upd2_core _ _ _ hk', upd2_core _ _ _ hk'⟩) ?_
    · show (Sys.tile _ t).ops = _
      unfold TSys.setPipe
      dsimp only
      rw [ht]
    · unfold TSys.setPipe
      dsimp only
      rw [ht]
    · unfold TSys.setPipe
      dsimp only
      rw [ht]
      dsimp only
      rw [upd_ne _ _ _ _ hk']
    · unfold TSys.setPipe
      dsimp only
      rw [ht, upd2_same, upd2_same]
      dsimp only
      rw [upd_same]
      exact hle
  have selfTile : ∀ (t k : Nat) (y : CoreSt), f.ts.sys.setCore t k y =
      f.ts.sys.setTile t { f.ts.sys.tile t with ctrl := (f.ts.sys.tile t).ctrl, core := upd (f.ts.sys.tile t).core k y } :=
    fun _ _ _ => rfl
  have ctrlTile : ∀ (t k : Nat) (c : Ctrl) (y : CoreSt), (f.ts.sys.setTile t { f.ts.sys.tile t with ctrl := c }).setCore t k y =
      f.ts.sys.setTile t { f.ts.sys.tile t with ctrl := c, core := upd (f.ts.sys.tile t).core k y } := by
    intro t k c y
    unfold Sys.setCore
    rw [setTile_tile, setTile_setTile]
  unfold TSys.act at ha
  split at ha
  · cases ha
  rename_i hc
  have hc : f.ts.sys.crashed = none := by simpa using hc
  cases a with
  | tick => exact absurd rfl h1
  | other b => exact absurd rfl (h2 b)
  | pipe t k a =>
    dsimp only at ha
    split at ha
    · rename_i hk
      unfold TSys.pipeAct at ha
      split at ha
      · cases ha
      · cases ha
      · rename_i e1 e2
        rw [Option.map_eq_some_iff] at ha
        obtain ⟨p, hm, rfl⟩ := ha
        refine left_core hk rfl rfl (fun j hj => ⟨rfl, upd2_tile _ _ _ hj, rfl⟩) rfl rfl
          (fun k' hk' => ⟨rfl, upd2_core _ _ _ hk', rfl⟩) ?_
        dsimp only
        rw [upd2_same]
        have := move_left (cfg := cfg) (ph := ((f.ts.sys.tile t).core k).phase) (due := f.ts.due t k) (h.tinv hk).inv hm e1 e2
        omega
    · cases ha
  | exec t k =>
    dsimp only at ha
    split at ha
    · rename_i hk
      have hpn := h.pnow t k hk
      have hI := (h.tinv hk).inv
      unfold TSys.exec at ha
      split at ha
      · rename_i op p hg hst
        rw [Option.map_eq_some_iff] at ha
        obtain ⟨sys, hs, he0⟩ := ha
        obtain ⟨hsn, he⟩ := live he0
        unfold Sys.coreStart at hs
        dsimp only at hs
        split at hs
        · rename_i dest read width vec
          split at hs
          · injection hs with hs; rw [← hs] at hsn; cases hsn
          · rename_i addr c' _
            obtain ⟨c, g1, g2, rfl⟩ := ctrlAct_ok hs hsn
            rw [ctrlTile] at he
            refine go c _ p _ hk he ?_
            rw [ctrlLeft_submit g1 g2]
            have hr : reqCycles cfg.edramLat ((f.ts.sys.tile t).ctrl.newReq k addr (.read width vec)) =
              (cfg.edramLat * vec).toNat := rfl
            have := exec_left (cfg := cfg) (ph := ((f.ts.sys.tile t).core k).phase) (due := f.ts.due t k)
              (ph' := .loadWait (f.ts.sys.tile t).ctrl.submitted.length addr dest read width vec)
              (due' := f.ts.startDue cfg (.load dest read width vec)) hI hg hst (cfg.edramLat * vec).toNat (by
                simp only [phaseLeft, coreOpCycles]; omega)
            rw [hr]
            dsimp only
            omega
        · rename_i dest read width vec
          split at hs
          · injection hs with hs; rw [← hs] at hsn; cases hsn
          · rename_i addr data c' _
            split at hs
            · injection hs with hs; rw [← hs] at hsn; cases hsn
            · injection hs with hs
              subst hs
              rw [selfTile] at he
              refine go _ _ p _ hk he ?_
              have := exec_left (cfg := cfg) (ph := ((f.ts.sys.tile t).core k).phase) (due := f.ts.due t k)
                (ph' := .storeDelay addr data vec.toNat)
                (due' := f.ts.startDue cfg (.store dest read width vec)) hI hg hst 0 (by
                  simp only [phaseLeft, coreOpCycles, TSys.startDue, TSys.after, Option.getD_some, hpn]; omega)
              dsimp only
              omega
        · rename_i hnl hns
          split at hs
          · injection hs with hs; rw [← hs] at hsn; cases hsn
          · split at hs
            · injection hs with hs; rw [← hs] at hsn; cases hsn
            · rename_i hbd
              injection hs with hs
              subst hs
              rw [selfTile] at he
              refine go _ _ p _ hk he ?_
              have hdue : f.ts.startDue cfg op = f.ts.after (cfg.execLat op) := by
                unfold TSys.startDue
                split
                · exact absurd rfl (hnl _ _ _ _)
                · exact absurd rfl (hns _ _ _ _)
                · rfl
              have hcy : coreOpCycles cfg op = (match cfg.execLat op with | .ok d => d.toNat | .error _ => 0) := by
                unfold coreOpCycles
                split
                · exact absurd rfl (hnl _ _ _ _)
                · exact absurd rfl (hns _ _ _ _)
                · rfl
              have hph : phaseLeft cfg (f.ts.pipe t k).now (if op = .hlt then .halting else .timing) (f.ts.startDue cfg op) ≤
                  coreOpCycles cfg op := by
                rw [hdue, hcy]
                have : ∀ d, phaseLeft cfg (f.ts.pipe t k).now (if op = .hlt then .halting else .timing) d =
                    d.getD 0 - (f.ts.pipe t k).now := by
                  intro d; split <;> rfl
                rw [this, hpn]
                cases hx : cfg.execLat op with
                | error e => simp [TSys.after]
                | ok d => simp [TSys.after]
              have := exec_left (cfg := cfg) (ph := ((f.ts.sys.tile t).core k).phase) (due := f.ts.due t k)
                (ph' := if op = .hlt then .halting else .timing)
                (due' := f.ts.startDue cfg op) hI hg hst 0 (by omega)
              dsimp only
              omega
      · cases ha
    · cases ha
  | mid t k =>
    dsimp only at ha
    split at ha
    · rename_i hk
      have hpn := h.pnow t k hk
      unfold TSys.mid at ha
      split at ha
      · rename_i id addr dest read width vec hp
        rw [Option.map_eq_some_iff] at ha
        obtain ⟨sys, hs, he0⟩ := ha
        obtain ⟨hsn, he⟩ := live he0
        unfold Sys.coreStep at hs
        dsimp only at hs
        rw [hp] at hs
        dsimp only at hs
        split at hs
        · cases hs
        · rename_i data _
          split at hs
          · injection hs with hs; rw [← hs] at hsn; cases hsn
          · injection hs with hs
            subst hs
            rw [selfTile] at he
            refine go _ _ _ _ hk he ?_
            have := left_phase (cfg := cfg) (l := l) (prog := i.prog t k) (p := f.ts.pipe t k)
              (ph := ((f.ts.sys.tile t).core k).phase) (due := f.ts.due t k) (ph' := .loadGot dest data)
              (due' := f.ts.after (.ok (cfg.dataMemLat * vec))) 0 (by
                rw [hp]; simp only [phaseLeft, TSys.after, Option.getD_some, hpn]; omega)
            dsimp only
            omega
      · rename_i addr data rows hp
        split at ha
        · rw [Option.map_eq_some_iff] at ha
          obtain ⟨sys, hs, he0⟩ := ha
          obtain ⟨hsn, he⟩ := live he0
          unfold Sys.coreStep at hs
          dsimp only at hs
          rw [hp] at hs
          dsimp only at hs
          obtain ⟨c, g1, g2, rfl⟩ := ctrlAct_ok hs hsn
          rw [ctrlTile] at he
          refine go c _ _ _ hk he ?_
          rw [ctrlLeft_submit g1 g2]
          have hr : reqCycles cfg.edramLat ((f.ts.sys.tile t).ctrl.newReq k addr (.write data rows)) =
            (cfg.edramLat * rows).toNat := rfl
          have := left_phase (cfg := cfg) (l := l) (prog := i.prog t k) (p := f.ts.pipe t k)
            (ph := ((f.ts.sys.tile t).core k).phase) (due := f.ts.due t k)
            (ph' := .storeWait (f.ts.sys.tile t).ctrl.submitted.length) (due' := none) (cfg.edramLat * rows).toNat (by
              rw [hp]; simp only [phaseLeft]; omega)
          rw [hr]
          dsimp only
          omega
        · cases ha
      · cases ha
    · cases ha
  | fin t k =>
    dsimp only at ha
    split at ha
    · rename_i hk
      have close : ∀ {y : CoreSt} {p : Timed CoreOp}, (f.ts.pipe t k).finish 3 2 = some p →
          f.ts.setPipe (f.ts.sys.setCore t k y) t k p none = ts' → y.phase = .ready →
          FSys.left cfg l i { f with ts := ts' } ≤ f.left cfg l i := by
        intro y p hf he hy
        rw [selfTile] at he
        refine go _ _ _ _ hk he ?_
        have := finish_left (cfg := cfg) (l := l) (prog := i.prog t k) (ph := ((f.ts.sys.tile t).core k).phase)
          (due := f.ts.due t k) (ph' := y.phase) (due' := none) hf (by rw [hy]; simp [phaseLeft])
        omega
      unfold TSys.fin at ha
      split at ha
      · rename_i hp
        split at ha
        · split at ha
          · rename_i sys p hs hf
            injection ha with ha
            obtain ⟨hsn, he⟩ := live ha
            unfold Sys.coreStep at hs
            dsimp only at hs
            rw [hp] at hs
            dsimp only at hs
            injection hs with hs
            subst hs
            exact close hf he rfl
          · cases ha
        · cases ha
      · rename_i dest data hp
        split at ha
        · split at ha
          · rename_i sys p hs hf
            injection ha with ha
            obtain ⟨hsn, he⟩ := live ha
            unfold Sys.coreStep at hs
            dsimp only at hs
            rw [hp] at hs
            dsimp only at hs
            split at hs
            · injection hs with hs; rw [← hs] at hsn; cases hsn
            · injection hs with hs
              subst hs
              exact close hf he rfl
          · cases ha
        · cases ha
      · rename_i id hp
        split at ha
        · rename_i sys p hs hf
          injection ha with ha
          obtain ⟨hsn, he⟩ := live ha
          unfold Sys.coreStep at hs
          dsimp only at hs
          rw [hp] at hs
          dsimp only at hs
          split at hs
          · injection hs with hs
            subst hs
            exact close hf he rfl
          · cases hs
        · cases ha
      · rename_i hp
        split at ha
        · rw [Option.map_eq_some_iff] at ha
          obtain ⟨p, hf, rfl⟩ := ha
          refine left_core hk rfl rfl (fun j hj => ⟨rfl, upd2_tile _ _ _ hj, upd2_tile _ _ _ hj⟩) rfl rfl
            (fun k' hk' => ⟨rfl, upd2_core _ _ _ hk', upd2_core _ _ _ hk'⟩) ?_
          unfold TSys.setPipe
          dsimp only
          rw [upd2_same, upd2_same]
          have := finish_left (cfg := cfg) (l := l) (prog := i.prog t k) (ph := ((f.ts.sys.tile t).core k).phase)
            (due := f.ts.due t k) (ph' := ((f.ts.sys.tile t).core k).phase) (due' := none) hf (by rw [hp]; simp [phaseLeft])
          omega
        · cases ha
      · cases ha
    · cases ha
  | ret t k =>
    dsimp only at ha
    split at ha
    · rename_i hk
      unfold TSys.ret at ha
      split at ha
      · rename_i hp
        split at ha
        · rw [Option.map_eq_some_iff] at ha
          obtain ⟨sys, hs, rfl⟩ := ha
          unfold Sys.coreStep at hs
          dsimp only at hs
          rw [hp] at hs
          dsimp only at hs
          injection hs with hs
          subst hs
          have ht : (f.ts.sys.setCore t k { (f.ts.sys.tile t).core k with phase := .halted }).tile t =
            { f.ts.sys.tile t with core := upd (f.ts.sys.tile t).core k { (f.ts.sys.tile t).core k with phase := .halted } } :=
              upd_same _ _ _
          refine left_core hk rfl rfl (fun j hj => ⟨upd_ne _ _ _ _ hj, rfl, rfl⟩) ?_ ?_
            (fun k' hk' => ⟨?_, rfl, rfl⟩) ?_
          · dsimp only; rw [ht]
          · dsimp only; rw [ht]
          · dsimp only; rw [ht]; dsimp only; rw [upd_ne _ _ _ _ hk']
          · dsimp only
            rw [ht]
            dsimp only
            rw [upd_same]
            have := left_phase (cfg := cfg) (l := l) (prog := i.prog t k) (p := f.ts.pipe t k)
              (ph := ((f.ts.sys.tile t).core k).phase) (due := f.ts.due t k) (ph' := .halted) (due' := f.ts.due t k) 0 (by
                simp [phaseLeft])
            dsimp only
            omega
        · cases ha
      · cases ha
    · cases ha

end
end Ramwich
