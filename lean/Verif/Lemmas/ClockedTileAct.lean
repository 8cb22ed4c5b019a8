import Verif.Lemmas.ClockedTileStep

/-! # The actions of the node with one clock, seen from a tile process -/
namespace Ramwich

open Spec Pipeline

theorem mark_start {f : FSys} {t : Nat} {x y : TileSt} (h1 : x.phase.isReady = true) (h2 : y.phase.isReady = false) :
    f.mark t x y = { f with starts := upd f.starts t (f.starts t ++ [f.ts.now]) } := by
  unfold FSys.mark; rw [h1, h2]

theorem mark_end {f : FSys} {t : Nat} {x y : TileSt} (h1 : x.phase.isReady = false) (h2 : y.phase.isReady = true) :
    f.mark t x y = { f with
      ends := upd f.ends t (f.ends t ++ [f.ts.now])
      active := if y.ops.isEmpty then upd f.active t (some f.ts.now) else f.active } := by
  unfold FSys.mark; rw [h1, h2]

theorem mark_mid {f : FSys} {t : Nat} {x y : TileSt} (h1 : x.phase.isReady = false) (h2 : y.phase.isReady = false) :
    f.mark t x y = f := by
  unfold FSys.mark; rw [h1, h2]

theorem ctrlAct_ok {cfg : SysCfg} {s s' : Sys} {t : Nat} {a : CtrlAct} {g : Sys → Sys} (h : s.ctrlAct cfg t a g = some s')
    (hc : s'.crashed = none) : ∃ c, (s.tile t).ctrl.act cfg.edramLat a = some c ∧ c.crashed = none ∧
      s' = g (s.setTile t { s.tile t with ctrl := c }) := by
  obtain ⟨c, h1, ⟨e, -, rfl⟩ | ⟨h2, h3⟩⟩ := ctrlAct_eq h
  · cases hc
  · exact ⟨c, h1, h2, h3⟩

theorem netAct_ok {cfg : SysCfg} {s s' : Sys} {a : NetAct} {g : Sys → Sys} (h : s.netAct cfg a g = some s')
    (hc : s'.crashed = none) : ∃ n, s.net.act cfg.net a = some n ∧ n.crashed = none ∧ s' = g { s with net := n } := by
  unfold Sys.netAct at h
  rw [Option.map_eq_some_iff] at h
  obtain ⟨n, h1, h2⟩ := h
  dsimp only at h2
  split at h2
  · subst h2; cases hc
  · rename_i hn
    exact ⟨n, h1, hn, h2.symm⟩

theorem submitted_of {lat : Int} {c c' : Ctrl} {start : Int} {kind : ReqKind}
    (h : c.act lat (.submit (-1) start kind) = some c') (hn : c'.crashed = none) : Submitted c c' start kind :=
  ⟨ctrl_act_ext h (by simp), (submit_ok h hn).2.1, _, newReq_get h hn, rfl, rfl, rfl, rfl⟩

theorem setTile_other (s : Sys) {t j : Nat} (x : TileSt) (h : j ≠ t) : (s.setTile t x).tile j = s.tile j :=
  upd_ne _ _ _ _ h

theorem updAt_other {β : Type} (f : Nat → Nat → β) {i j : Nat} (k : Nat) (b : β) (h : j ≠ i) : updAt f i k b j = f j := by
  unfold updAt; exact upd_ne _ _ _ _ h

theorem updAt_here {β : Type} (f : Nat → Nat → β) (i k : Nat) (b : β) : updAt f i k b i = upd (f i) k b := by
  unfold updAt; exact upd_same _ _ _

section
variable {cfg : SysCfg} {l : StageLat} {f f' : FSys}

/-- A step of a tile process. -/
theorem tv_tile {t : Nat} (hS : NetStop f.ts.sys.net) (h : f.other cfg l (.tile t) = some f')
    (hc : f'.ts.sys.crashed = none) (j : Nat) : TVStep cfg.dataMemLat.toNat cfg.cores (f.tv j) (f'.tv j) := by
  have stay : ∀ {g : FSys}, g.tv j = f.tv j → TVStep cfg.dataMemLat.toNat cfg.cores (f.tv j) (g.tv j) := by
    intro g e
    rw [e]
    exact .ctrl _ (.rfl' _)
  obtain ⟨ts, k, h1, h2, h3, h4⟩ := other_cases h
  rw [h3] at hc
  rcases h4 with ⟨h4, -⟩ | ⟨-, -, h4⟩
  · rw [hc] at h4; cases h4
  rcases h4 with ⟨t', e, h4⟩ | ⟨h4, -⟩
  swap
  · exact absurd rfl (h4 t)
  injection e with e
  subst e
  obtain ⟨hc0, -, -, sys, h5, rfl⟩ := tsAct_other h1
  dsimp only at hc
  unfold Sys.act at h5
  rw [if_neg (by rw [hc0]; simp)] at h5
  dsimp only at h5
  split at h5
  swap
  · cases h5
  unfold Sys.tileStep at h5
  unfold FSys.netPart Sys.netOf at h2
  dsimp only at h2 h4 h5
  subst h4
  cases hp : (f.ts.sys.tile t).phase with
  | ready =>
    rw [hp] at h2 h5
    dsimp only at h2 h5
    injection h2 with h2
    subst h2
    split at h5
    · cases h5
    · rename_i op rest ho
      unfold Sys.tileStart at h5
      dsimp only at h5
      split at h5
      · rename_i addr target width vec
        obtain ⟨c, g1, g2, rfl⟩ := ctrlAct_ok h5 hc
        rw [mark_start (by rw [hp]; rfl) (by simp [Sys.setTile, upd_same]; rfl)]
        by_cases hj : j = t
        · subst hj
          have := TVStep.send (lat := cfg.dataMemLat.toNat) (cores := cfg.cores) (v := f.tv j) addr target width vec rest c hp
            ho (submitted_of g1 g2)
          simpa [FSys.tv, Sys.setTile, upd_same] using this
        · exact stay (by simp [FSys.tv, Sys.setTile, upd_ne _ _ _ _ hj])
      · rename_i addr source width vec
        split at h5
        · injection h5 with h5; subst h5; cases hc
        · rename_i hw
          injection h5 with h5
          subst h5
          rw [mark_start (by rw [hp]; rfl) (by simp [Sys.setTile, upd_same]; rfl)]
          by_cases hj : j = t
          · subst hj
            have := TVStep.recv (lat := cfg.dataMemLat.toNat) (cores := cfg.cores) (v := f.tv j) addr source width vec rest hp
              ho (by omega)
            simpa [FSys.tv, Sys.setTile, upd_same] using this
          · exact stay (by simp [FSys.tv, Sys.setTile, upd_ne _ _ _ _ hj])
      · injection h5 with h5
        subst h5
        rw [mark_start (by rw [hp]; rfl) (by simp [Sys.setTile, upd_same]; rfl)]
        by_cases hj : j = t
        · subst hj
          have := TVStep.halt (lat := cfg.dataMemLat.toNat) (cores := cfg.cores) (v := f.tv j) rest hp ho
          simpa [FSys.tv, Sys.setTile, upd_same] using this
        · exact stay (by simp [FSys.tv, Sys.setTile, upd_ne _ _ _ _ hj])
  | sendWait id addr target width vec =>
    rw [hp] at h2 h5
    dsimp only at h2 h5
    injection h2 with h2
    subst h2
    split at h5
    · cases h5
    · rename_i data ha
      split at h5
      · injection h5 with h5; subst h5; cases hc
      · injection h5 with h5
        subst h5
        rw [mark_mid (by rw [hp]; rfl) (by simp [Sys.logPhase, Sys.setTile, upd_same]; rfl)]
        by_cases hj : j = t
        · subst hj
          have := TVStep.sendGot (lat := cfg.dataMemLat.toNat) (cores := cfg.cores) (v := f.tv j) id addr target width vec data
            (reshape vec.toNat width.toNat data) hp ha (by simp [reshape])
          simpa [FSys.tv, Sys.logPhase, Sys.setTile, upd_same] using this
        · exact stay (by simp [FSys.tv, Sys.logPhase, Sys.setTile, upd_ne _ _ _ _ hj])
  | sending target todo =>
    rw [hp] at h2 h5
    cases todo with
    | nil =>
      dsimp only at h2 h5
      injection h2 with h2
      subst h2
      injection h5 with h5
      subst h5
      rw [mark_end (by rw [hp]; rfl) (by simp [Sys.setPhase, Sys.setTile, upd_same]; rfl)]
      by_cases hj : j = t
      · subst hj
        have := TVStep.sendEnd (lat := cfg.dataMemLat.toNat) (cores := cfg.cores) (v := f.tv j) target hp
        by_cases he : (f.ts.sys.tile j).ops = [] <;>
          simpa [FSys.tv, Sys.setPhase, Sys.setTile, upd_same, he] using this
      · refine stay ?_
        by_cases he : (f.ts.sys.tile t).ops = [] <;>
          simp [FSys.tv, Sys.setPhase, Sys.setTile, upd_same, upd_ne _ _ _ _ hj, he]
    | cons row rows =>
      dsimp only [badDelay] at h2 h5
      by_cases hl : cfg.dataMemLat < 0
      · simp only [hl, if_true] at h5
        injection h5 with h5; subst h5; cases hc
      simp only [hl, if_false] at h2 h5
      simp only [NetClock.step] at h2
      injection h2 with h2
      subst h2
      obtain ⟨n, g1, g2, rfl⟩ := netAct_ok h5 hc
      obtain ⟨-, -, g3⟩ := net_act_cases g1
      obtain ⟨rfl, -⟩ := sendIf_send g3
      rw [mark_mid (by rw [hp]; rfl) (by simp [Sys.setPhase, Sys.setTile, upd_same]; rfl)]
      by_cases hj : j = t
      · subst hj
        have := TVStep.sendRow (lat := cfg.dataMemLat.toNat) (cores := cfg.cores) (v := f.tv j) target row rows hp
        simpa [FSys.tv, Net.send, Sys.setPhase, Sys.setTile, upd_same] using this
      · exact stay (by simp [FSys.tv, Net.send, Sys.setPhase, Sys.setTile, upd_ne _ _ _ _ hj])
  | adding target todo =>
    rw [hp] at h2 h5
    dsimp only [NetClock.step] at h2 h5
    obtain ⟨n, g1, g2, rfl⟩ := netAct_ok h5 hc
    obtain ⟨-, -, g3⟩ := net_act_cases g1
    dsimp only at g3
    have gv := view_added g3
    split at h2
    · cases h2
    rename_i d rest hd
    split at h2
    swap
    · cases h2
    rename_i hd'
    subst hd'
    injection h2 with h2
    subst h2
    rw [mark_mid (by rw [hp]; rfl) (by simp [Sys.setPhase, Sys.setTile, upd_same]; rfl)]
    have r1 : n.reader j = f.ts.sys.net.reader j := congrArg NetView.reader (gv j)
    have r2 : n.stopper j = f.ts.sys.net.stopper j := congrArg NetView.stopper (gv j)
    have r3 : n.readLog j = f.ts.sys.net.readLog j := congrArg NetView.readLog (gv j)
    by_cases hj : j = t
    · subst hj
      have := TVStep.added (lat := cfg.dataMemLat.toNat) (cores := cfg.cores) (v := f.tv j) target todo rest hp hd
      simpa [FSys.tv, Sys.setPhase, Sys.setTile, upd_same, r1, r2, r3] using this
    · exact stay (by simp [FSys.tv, Sys.setPhase, Sys.setTile, upd_ne _ _ _ _ hj, r1, r2, r3])
  | recving addr source width vec got =>
    rw [hp] at h2 h5
    dsimp only at h2 h5
    by_cases hl : (got.length : Int) < vec
    · simp only [hl, if_true, NetClock.step] at h2 h5
      injection h2 with h2
      subst h2
      obtain ⟨n, g1, g2, rfl⟩ := netAct_ok h5 hc
      obtain ⟨-, -, g3⟩ := net_act_cases g1
      rcases view_startRead g3 with ⟨g4, -⟩ | ⟨g4, -, rfl⟩
      · rw [g2] at g4; cases g4
      rw [mark_mid (by rw [hp]; rfl) (by simp [Sys.setPhase, Sys.setTile, upd_same]; rfl)]
      by_cases hj : j = t
      · subst hj
        have := TVStep.recvRead (lat := cfg.dataMemLat.toNat) (cores := cfg.cores) (v := f.tv j) addr source width vec got hp hl
          g4
        simpa [FSys.tv, Sys.setPhase, Sys.setTile, upd_same, updAt_here] using this
      · exact stay (by simp [FSys.tv, Sys.setPhase, Sys.setTile, upd_ne _ _ _ _ hj, updAt_other _ _ _ hj])
    · simp only [hl, if_false] at h2 h5
      injection h2 with h2
      subst h2
      obtain ⟨c, g1, g2, rfl⟩ := ctrlAct_ok h5 hc
      rw [mark_mid (by rw [hp]; rfl) (by simp [Sys.logPhase, Sys.setTile, upd_same]; rfl)]
      by_cases hj : j = t
      · subst hj
        have := TVStep.recvAll (lat := cfg.dataMemLat.toNat) (cores := cfg.cores) (v := f.tv j) addr source width vec got c hp hl
          (submitted_of g1 g2)
        simpa [FSys.tv, Sys.logPhase, Sys.setTile, upd_same] using this
      · exact stay (by simp [FSys.tv, Sys.logPhase, Sys.setTile, upd_ne _ _ _ _ hj])
  | recvWait addr source width vec got =>
    rw [hp] at h2 h5
    dsimp only at h2 h5
    cases hr : f.ts.sys.net.reader t with
    | idle => rw [hr] at h5; cases h5
    | waiting src => rw [hr] at h5; cases h5
    | got src data =>
      rw [hr] at h2 h5
      simp only [NetClock.step] at h2
      injection h2 with h2
      subst h2
      obtain ⟨n, g1, g2, rfl⟩ := netAct_ok h5 hc
      obtain ⟨-, -, x, g3⟩ := net_act_cases g1
      obtain ⟨src', g4, rfl⟩ := view_readDone g3
      rw [hr] at g4
      injection g4 with g4 g5
      subst g4 g5
      by_cases hw : (data.length : Int) = width
      · simp only [hw, if_true]
        rw [mark_mid (by rw [hp]; rfl) (by simp [Sys.logPhase, Sys.setTile, upd_same]; rfl)]
        by_cases hj : j = t
        · subst hj
          have := TVStep.recvRow (lat := cfg.dataMemLat.toNat) (cores := cfg.cores) (v := f.tv j) addr source width vec got src
            data hp hr hw
          simpa [FSys.tv, Sys.logPhase, Sys.setTile, upd_same] using this
        · exact stay (by simp [FSys.tv, Sys.logPhase, Sys.setTile, upd_ne _ _ _ _ hj])
      · simp only [hw, if_false]
        rw [mark_end (by rw [hp]; rfl) (by simp [Sys.logPhase, Sys.setTile, upd_same]; rfl)]
        by_cases hj : j = t
        · subst hj
          have := TVStep.recvBad (lat := cfg.dataMemLat.toNat) (cores := cfg.cores) (v := f.tv j) addr source width vec got src
            data hp hr hw
          by_cases he : (f.ts.sys.tile j).ops = [] <;>
            simpa [FSys.tv, Sys.logPhase, Sys.setTile, upd_same, he] using this
        · refine stay ?_
          by_cases he : (f.ts.sys.tile t).ops = [] <;>
            simp [FSys.tv, Sys.logPhase, Sys.setTile, upd_same, upd_ne _ _ _ _ hj, he]
  | recvWrite id =>
    rw [hp] at h2 h5
    dsimp only at h2 h5
    injection h2 with h2
    subst h2
    split at h5
    swap
    · cases h5
    rename_i ha
    injection h5 with h5
    subst h5
    rw [mark_end (by rw [hp]; rfl) (by simp [Sys.setPhase, Sys.setTile, upd_same]; rfl)]
    by_cases hj : j = t
    · subst hj
      have := TVStep.recvDone (lat := cfg.dataMemLat.toNat) (cores := cfg.cores) (v := f.tv j) id hp ha
      by_cases he : (f.ts.sys.tile j).ops = [] <;>
        simpa [FSys.tv, Sys.setPhase, Sys.setTile, upd_same, he] using this
    · refine stay ?_
      by_cases he : (f.ts.sys.tile t).ops = [] <;>
        simp [FSys.tv, Sys.setPhase, Sys.setTile, upd_same, upd_ne _ _ _ _ hj, he]
  | haltCores =>
    rw [hp] at h2 h5
    dsimp only at h2 h5
    by_cases hl : f.ts.sys.coresHalted cfg t = true
    swap
    · simp only [hl] at h5
      cases h5
    simp only [hl, if_true] at h2 h5
    have hh : ∀ k, k < cfg.cores → (f.tv t).halted k = true := by
      intro k hk
      unfold Sys.coresHalted at hl
      exact List.all_eq_true.1 hl k (List.mem_range.2 hk)
    by_cases hs : f.ts.sys.net.stopper t = .stopped
    · rw [hs] at h2 h5
      dsimp only at h2 h5
      injection h2 with h2
      subst h2
      injection h5 with h5
      subst h5
      rw [mark_mid (by rw [hp]; rfl) (by simp [Sys.setPhase, Sys.setTile, upd_same]; rfl)]
      by_cases hj : j = t
      · subst hj
        have := TVStep.haltAgain (lat := cfg.dataMemLat.toNat) (cores := cfg.cores) (v := f.tv j) hp hh hs
        simpa [FSys.tv, Sys.setPhase, Sys.setTile, upd_same] using this
      · exact stay (by simp [FSys.tv, Sys.setPhase, Sys.setTile, upd_ne _ _ _ _ hj])
    · have h5' : f.ts.sys.netAct cfg (.halt t) (fun s' => s'.setPhase t .haltRouter) = some sys := by
        split at h5
        · rename_i he; exact absurd he hs
        · exact h5
      have h2' : f.clk.step cfg.net cfg.dataMemLat f.ts.sys.net f.ts.now (.halt t) = some k := by
        cases hst : f.ts.sys.net.stopper t with
        | stopped => exact absurd hst hs
        | _ => rw [hst] at h2; exact h2
      simp only [NetClock.step] at h2'
      injection h2' with h2'
      subst h2'
      obtain ⟨n, g1, g2, rfl⟩ := netAct_ok h5' hc
      obtain ⟨-, -, g3⟩ := net_act_cases g1
      obtain ⟨g4, rfl⟩ := view_halt g3
      rw [mark_mid (by rw [hp]; rfl) (by simp [Sys.setPhase, Sys.setTile, upd_same]; rfl)]
      by_cases hj : j = t
      · subst hj
        have := TVStep.haltFirst (lat := cfg.dataMemLat.toNat) (cores := cfg.cores) (v := f.tv j) hp hh g4
        simpa [FSys.tv, Sys.setPhase, Sys.setTile, upd_same] using this
      · exact stay (by simp [FSys.tv, Sys.setPhase, Sys.setTile, upd_ne _ _ _ _ hj])
  | haltRouter =>
    rw [hp] at h2 h5
    dsimp only at h2 h5
    by_cases hs : f.ts.sys.net.stopper t = .stopped
    · rw [hs] at h2 h5
      dsimp only at h2 h5
      injection h2 with h2
      subst h2
      obtain ⟨c, g1, g2, rfl⟩ := ctrlAct_ok h5 hc
      rw [mark_end (by rw [hp]; rfl) (by simp [Sys.logPhase, Sys.setTile, upd_same]; rfl)]
      by_cases hj : j = t
      · subst hj
        have := TVStep.haltEnd (lat := cfg.dataMemLat.toNat) (cores := cfg.cores) (v := f.tv j) c hp hs
          (ctrl_act_ext g1 (by simp))
        by_cases he : (f.ts.sys.tile j).ops = [] <;>
          simpa [FSys.tv, Sys.logPhase, Sys.setTile, upd_same, he] using this
      · refine stay ?_
        by_cases he : (f.ts.sys.tile t).ops = [] <;>
          simp [FSys.tv, Sys.logPhase, Sys.setTile, upd_same, upd_ne _ _ _ _ hj, he]
    · have h5' : f.ts.sys.netAct cfg (.stopStep t) id = some sys := by
        split at h5
        · rename_i he; exact absurd he hs
        · exact h5
      have h2' : f.clk.step cfg.net cfg.dataMemLat f.ts.sys.net f.ts.now (.stopStep t) = some k := by
        cases hst : f.ts.sys.net.stopper t with
        | stopped => exact absurd hst hs
        | _ => rw [hst] at h2; exact h2
      simp only [NetClock.step] at h2'
      obtain ⟨n, g1, g2, rfl⟩ := netAct_ok h5' hc
      obtain ⟨-, -, g3⟩ := net_act_cases g1
      dsimp only at g3
      rw [mark_mid (by rw [hp]; rfl) (by simp only [id_eq]; rw [hp]; rfl)]
      rcases stopStep_idle hS g3 with ⟨g4, g5, rfl⟩ | ⟨g4, g5, rfl⟩ | ⟨g4, g5, rfl⟩
      · rw [g4] at h2'
        dsimp only at h2'
        split at h2'
        swap
        · cases h2'
        injection h2' with h2'
        subst h2'
        by_cases hj : j = t
        · subst hj
          have := TVStep.stopStep (lat := cfg.dataMemLat.toNat) (cores := cfg.cores) (v := f.tv j) .emptied hp
            (by change f.ts.sys.net.stopper j ≠ _; rw [g4]; simp) (by change f.ts.sys.net.stopper j ≠ _; rw [g4]; simp)
            (by simp) (by simp)
          simpa [FSys.tv, upd_same] using this
        · exact stay (by simp [FSys.tv, upd_ne _ _ _ _ hj])
      · rw [g4] at h2'
        simp only [g5, if_true] at h2'
        injection h2' with h2'
        subst h2'
        by_cases hj : j = t
        · subst hj
          have := TVStep.stopStep (lat := cfg.dataMemLat.toNat) (cores := cfg.cores) (v := f.tv j)
            (.waiting (f.ts.sys.net.stats j).sent) hp
            (by change f.ts.sys.net.stopper j ≠ _; rw [g4]; simp) (by change f.ts.sys.net.stopper j ≠ _; rw [g4]; simp)
            (by simp) (by simp)
          simpa [FSys.tv, upd_same] using this
        · exact stay (by simp [FSys.tv, upd_ne _ _ _ _ hj])
      · have hk : k = { f.clk with stopAt := upd f.clk.stopAt t (some f.ts.now) } := by
          rcases g4 with ⟨g4, g6⟩ | ⟨m, g4⟩
          · rw [g4] at h2'
            simp only [g6] at h2'
            injection h2' with h2'
            exact h2'.symm
          · rw [g4] at h2'
            injection h2' with h2'
            exact h2'.symm
        subst hk
        have hr : f.ts.sys.net.stopper t ≠ .running := by
          rcases g4 with ⟨g4, g6⟩ | ⟨m, g4⟩ <;> rw [g4] <;> simp
        by_cases hj : j = t
        · subst hj
          have := TVStep.stop (lat := cfg.dataMemLat.toNat) (cores := cfg.cores) (v := f.tv j) hp hr hs
          simpa [FSys.tv, upd_same] using this
        · exact stay (by simp [FSys.tv, upd_ne _ _ _ _ hj])

end

end Ramwich
