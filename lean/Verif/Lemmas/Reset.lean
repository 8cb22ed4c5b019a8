import Verif.Lemmas.CoreReach
import Verif.Spec.Reset

/-! # Calls do not change what a renewed core looks like, except for loaded weights -/
namespace Ramwich

open Spec

/-- The counters of SRAM crossbars that are not there. -/
def idleCounts (m : Mvmu) : Nat × Nat :=
  if m.cfg.haveSramXbar then (0, 0) else (m.sram.macOperations, m.muxSramSelections)

/-- Same configuration and crossbar contents. -/
structure Kept (m m' : Mvmu) : Prop where
  cfg : m'.cfg = m.cfg
  data : m'.data = m.data
  rpos : m'.rram.posXbar = m.rram.posXbar
  rneg : m'.rram.negXbar = m.rram.negXbar
  spos : m'.sram.posXbar = m.sram.posXbar
  sneg : m'.sram.negXbar = m.sram.negXbar
  idle : idleCounts m' = idleCounts m

theorem Kept.refl (m : Mvmu) : Kept m m := ⟨rfl, rfl, rfl, rfl, rfl, rfl, rfl⟩
theorem Kept.trans {a b c : Mvmu} (h : Kept a b) (h' : Kept b c) : Kept a c :=
  ⟨h'.cfg.trans h.cfg, h'.data.trans h.data, h'.rpos.trans h.rpos, h'.rneg.trans h.rneg, h'.spos.trans h.spos,
    h'.sneg.trans h.sneg, h'.idle.trans h.idle⟩
theorem Kept.renewed {m m' : Mvmu} (h : Kept m m') : renewedMvmu m' = renewedMvmu m := by
  unfold renewedMvmu
  rw [h.cfg, h.data, h.rpos, h.rneg, h.spos, h.sneg]

theorem bind_ok {α β : Type} {x : Except PyErr α} {f : α → Except PyErr β} {b : β} (h : (x >>= f) = .ok b) :
    ∃ a, x = .ok a ∧ f a = .ok b := by
  cases x with
  | error e => cases h
  | ok a => exact ⟨a, rfl, h⟩

theorem foldlM_kept (f : Mvmu → Nat → Except PyErr Mvmu) (hf : ∀ m i m', f m i = .ok m' → Kept m m')
    (l : List Nat) (m m' : Mvmu) (h : l.foldlM f m = .ok m') : Kept m m' := by
  induction l generalizing m with
  | nil => injection h with h; rw [← h]; exact .refl m
  | cons i l ih =>
    rw [List.foldlM_cons] at h
    obtain ⟨a, h1, h2⟩ := bind_ok h
    exact (hf _ _ _ h1).trans (ih a h2)

theorem rramColumn_kept (m : Mvmu) (xo : XbarOut) (j : Nat) (r : List (List Int) × Mvmu)
    (h : m.rramColumn xo j = .ok r) : Kept m r.2 := by
  unfold Mvmu.rramColumn at h
  split at h
  · obtain ⟨p, -, h⟩ := bind_ok h
    obtain ⟨n, -, h⟩ := bind_ok h
    obtain ⟨o, -, h⟩ := bind_ok h
    injection h with h; rw [← h]; exact ⟨rfl, rfl, rfl, rfl, rfl, rfl, rfl⟩
  · injection h with h; rw [← h]; exact .refl m

theorem sramColumn_kept (m : Mvmu) (xo : XbarOut) (j : Nat) (r : List (List Int) × Mvmu)
    (h : m.sramColumn xo j = .ok r) : Kept m r.2 := by
  unfold Mvmu.sramColumn at h
  split at h
  · rename_i hs
    obtain ⟨p, -, h⟩ := bind_ok h
    injection h with h; rw [← h]; exact ⟨rfl, rfl, rfl, rfl, rfl, rfl, by simp [idleCounts, hs]⟩
  · injection h with h; rw [← h]; exact .refl m

theorem accumulate_kept (m : Mvmu) (o : List (List Int)) (i j : Nat) (m' : Mvmu)
    (h : m.accumulate o i j = .ok m') : Kept m m' := by
  unfold Mvmu.accumulate at h
  obtain ⟨p, -, h⟩ := bind_ok h
  obtain ⟨n, -, h⟩ := bind_ok h
  obtain ⟨o, -, h⟩ := bind_ok h
  injection h with h; rw [← h]; exact ⟨rfl, rfl, rfl, rfl, rfl, rfl, rfl⟩

theorem columnStep_kept (i : Nat) (xo : XbarOut) (m : Mvmu) (j : Nat) (m' : Mvmu)
    (h : m.columnStep i xo j = .ok m') : Kept m m' := by
  unfold Mvmu.columnStep at h
  obtain ⟨r, hr, h⟩ := bind_ok h
  obtain ⟨s, hs, h⟩ := bind_ok h
  obtain ⟨o, -, h⟩ := bind_ok h
  exact ((rramColumn_kept m xo j r hr).trans (sramColumn_kept _ xo j s hs)).trans (accumulate_kept _ _ _ _ _ h)

theorem rramSlice_kept (m : Mvmu) (noise : Noise) (sl : List I32) (r : (List (List ℚ) × List (List ℚ)) × Mvmu)
    (h : m.rramSlice noise sl = .ok r) : Kept m r.2 := by
  unfold Mvmu.rramSlice at h
  split at h
  · obtain ⟨v, -, h⟩ := bind_ok h
    obtain ⟨o, ho, h⟩ := bind_ok h
    unfold RRAMXbar.executeMvm at ho
    split at ho
    · cases ho
    · injection ho with ho
      injection h with h
      rw [← h, ← ho]; exact ⟨rfl, rfl, rfl, rfl, rfl, rfl, rfl⟩
  · injection h with h; rw [← h]; exact .refl m

theorem sramSlice_kept (m : Mvmu) (sl : List I32) (r : List (List I32) × Mvmu)
    (h : m.sramSlice sl = .ok r) : Kept m r.2 := by
  unfold Mvmu.sramSlice at h
  split at h
  · rename_i hs
    obtain ⟨o, ho, h⟩ := bind_ok h
    unfold SRAMCim.executeMvm at ho
    split at ho
    · cases ho
    · injection ho with ho
      injection h with h
      rw [← h, ← ho]; exact ⟨rfl, rfl, rfl, rfl, rfl, rfl, by simp [idleCounts, hs]⟩
  · injection h with h; rw [← h]; exact .refl m

theorem executeMvm_kept (m : Mvmu) (noise : Nat → Noise) (m' : Mvmu) (h : m.executeMvm noise = .ok m') :
    Kept m m' := by
  unfold Mvmu.executeMvm at h
  split at h
  · cases h
  split at h
  · cases h
  have k0 : Kept m { m with outreg := m.outreg.cleanCells } := ⟨rfl, rfl, rfl, rfl, rfl, rfl, rfl⟩
  refine k0.trans (foldlM_kept _ ?_ _ _ _ h)
  intro a i a' ha
  unfold Mvmu.sliceStep at ha
  obtain ⟨r, hr, ha⟩ := bind_ok ha
  obtain ⟨s, hs, ha⟩ := bind_ok ha
  have k1 : Kept a { a with inreg := (a.inreg.read a.cfg.dacResolution).2 } := ⟨rfl, rfl, rfl, rfl, rfl, rfl, rfl⟩
  exact ((k1.trans (rramSlice_kept _ _ _ r hr)).trans (sramSlice_kept _ _ s hs)).trans
    (foldlM_kept _ (fun m j m' => columnStep_kept i _ m j m') _ _ _ ha)

theorem writeToInreg_kept (m : Mvmu) (start : Int) (v : List I32) (m' : Mvmu)
    (h : m.writeToInreg start v = .ok m') : Kept m m' := by
  unfold Mvmu.writeToInreg at h
  obtain ⟨r, -, h⟩ := bind_ok h
  injection h with h; rw [← h]; exact ⟨rfl, rfl, rfl, rfl, rfl, rfl, rfl⟩

theorem readFromOutreg_kept (m : Mvmu) (start len : Int) (r : List I32 × Mvmu)
    (h : m.readFromOutreg start len = .ok r) : Kept m r.2 := by
  unfold Mvmu.readFromOutreg at h
  split at h
  · cases h
  · obtain ⟨x, -, h⟩ := bind_ok h
    injection h with h; rw [← h]; exact ⟨rfl, rfl, rfl, rfl, rfl, rfl, rfl⟩

theorem reset_kept (m m' : Mvmu) (h : m.reset = .ok m') : Kept m m' := by
  unfold Mvmu.reset at h
  split at h
  · cases h
  · injection h with h; rw [← h]; exact ⟨rfl, rfl, rfl, rfl, rfl, rfl, rfl⟩

/-- Loading weights into a unit is independent of its registers and counters. -/
theorem loadWeights_renewed (m : Mvmu) (w : List (List ℚ)) :
    (renewedMvmu m).loadWeights w = (m.loadWeights w).map renewedMvmu := by
  unfold Mvmu.loadWeights
  have hstep : (renewedMvmu m).loadStep = m.loadStep := rfl
  rw [hstep]
  show (if ¬ shape2 w m.cfg.xbarSize m.cfg.xbarSize then _ else _) = _
  split
  · rfl
  · dsimp only
    show ((List.range m.cfg.numXbarPerMvmu).foldlM (m.loadStep (w.map fun r => r.map npSign)
      (w.map fun r => r.map fun w => (floatToFixed |w| m.data.weightFracBits).toNat))
      { rram := zeros3 m.cfg.numRramXbarPerMvmu m.cfg.xbarSize m.cfg.xbarSize
        sram := zeros3 m.cfg.numSramXbarPerMvmu m.cfg.xbarSize m.cfg.xbarSize } >>= fun acc => do
        let rram ← (renewedMvmu m).loadRram acc.rram
        let sram ← (renewedMvmu m).loadSram acc.sram
        .ok { renewedMvmu m with rram := rram, sram := sram }) = _
    cases (List.range m.cfg.numXbarPerMvmu).foldlM (m.loadStep (w.map fun r => r.map npSign)
      (w.map fun r => r.map fun w => (floatToFixed |w| m.data.weightFracBits).toNat))
      { rram := zeros3 m.cfg.numRramXbarPerMvmu m.cfg.xbarSize m.cfg.xbarSize
        sram := zeros3 m.cfg.numSramXbarPerMvmu m.cfg.xbarSize m.cfg.xbarSize } with
    | error e => rfl
    | ok acc =>
      show (do
        let rram ← (renewedMvmu m).loadRram acc.rram
        let sram ← (renewedMvmu m).loadSram acc.sram
        .ok { renewedMvmu m with rram := rram, sram := sram }) = Except.map renewedMvmu (do
        let rram ← m.loadRram acc.rram
        let sram ← m.loadSram acc.sram
        .ok { m with rram := rram, sram := sram })
      have e1 : (renewedMvmu m).loadRram acc.rram
          = (m.loadRram acc.rram).map fun x => { posXbar := x.posXbar, negXbar := x.negXbar } := by
        unfold Mvmu.loadRram RRAMXbar.loadWeights
        show (if m.cfg.haveRramXbar then _ else _) = _
        split
        · show (if ¬ shape3 acc.rram m.cfg.numRramXbarPerMvmu m.cfg.xbarSize m.cfg.xbarSize then _ else _) = _
          split <;> rfl
        · rfl
      have e2 : (renewedMvmu m).loadSram acc.sram
          = (m.loadSram acc.sram).map fun x => { posXbar := x.posXbar, negXbar := x.negXbar } := by
        unfold Mvmu.loadSram SRAMCim.loadWeights
        show (if m.cfg.haveSramXbar then _ else _) = _
        split
        · show (if ¬ shape3 acc.sram m.cfg.numSramXbarPerMvmu m.cfg.xbarSize m.cfg.xbarSize then _ else _) = _
          split <;> rfl
        · rfl
      rw [e1, e2]
      cases m.loadRram acc.rram with
      | error e => rfl
      | ok x =>
        cases m.loadSram acc.sram with
        | error e => rfl
        | ok y => rfl

theorem loadWeights_idle (m m' : Mvmu) (w : List (List ℚ)) (h : m.loadWeights w = .ok m') :
    idleCounts m' = idleCounts m := by
  unfold Mvmu.loadWeights at h
  split at h
  · cases h
  · obtain ⟨acc, -, h⟩ := bind_ok h
    obtain ⟨x, -, h⟩ := bind_ok h
    obtain ⟨y, hy, h⟩ := bind_ok h
    unfold Mvmu.loadSram SRAMCim.loadWeights at hy
    injection h with h
    split at hy
    · rename_i hs
      rw [← h]; simp [idleCounts, hs]
    · injection hy with hy
      rw [← h, ← hy]; rfl

/-- What calls other than `load` keep. -/
def view (c : Core) : Core × List (Nat × Nat) := (renewedCore c, c.mvmus.map idleCounts)

theorem view_set (c : Core) (i : Nat) (u u' : Mvmu) (hu : c.mvmus[i]? = some u) (k : Kept u u') :
    view { c with mvmus := c.mvmus.set i u' } = view c := by
  unfold view renewedCore
  dsimp only
  rw [List.map_set, List.map_set, k.renewed, k.idle]
  have key : ∀ {α : Type} (f : Mvmu → α), (c.mvmus.map f).set i (f u) = c.mvmus.map f := by
    intro α f
    apply List.ext_getElem?
    intro j
    rw [List.getElem?_set]
    split
    · rename_i h; subst h
      have : i < c.mvmus.length := (List.getElem?_eq_some_iff.1 hu).1
      rw [if_pos (by simpa using this), List.getElem?_map, hu]; rfl
    · rfl
  rw [key, key]

theorem view_write (c : Core) (start : Int) (data : List I32) :
    view (c.writeToRegister start data).2 = view c := by
  unfold Core.writeToRegister
  dsimp only
  split
  · rfl
  split
  · rfl
  split
  · rfl
  cases c.mvmuIdFromAddress start (start + data.length) with
  | error e => rfl
  | ok id =>
    simp only
    cases hu : c.mvmus[id.toNat]? with
    | none => rfl
    | some u =>
      simp only
      cases hw : u.writeToInreg (start % (c.config.mvmuConfig.xbarSize : Int)) data with
      | error e => rfl
      | ok u' => exact view_set c _ u u' hu (writeToInreg_kept _ _ _ _ hw)

theorem view_read (c : Core) (start len : Int) :
    view (c.readFromRegister start len).2 = view c := by
  unfold Core.readFromRegister
  dsimp only
  split
  · rfl
  split
  · rfl
  split
  · rfl
  cases c.mvmuIdFromAddress start (start + len) with
  | error e => rfl
  | ok id =>
    simp only
    cases hu : c.mvmus[id.toNat]? with
    | none => rfl
    | some u =>
      simp only
      cases hw : u.readFromOutreg (start % (c.config.mvmuConfig.xbarSize : Int)) len with
      | error e => rfl
      | ok vu => exact view_set c _ u vu.2 hu (readFromOutreg_kept _ _ _ _ hw)

theorem view_andThen {α β : Type} (c : Core) (r : Res Core α) (f : Core → α → Res Core β)
    (hr : view r.2 = view c) (hf : ∀ k a, view (f k a).2 = view k) :
    view (Res.andThen r f).2 = view c := by
  unfold Res.andThen
  cases r.1 with
  | error e => exact hr
  | ok a => exact (hf _ a).trans hr

theorem view_mvm (c : Core) (noise : Nat → Nat → Noise) (xbar : List Int) :
    view (c.visitMvm noise xbar).2 = view c := by
  induction xbar generalizing c noise with
  | nil => rfl
  | cons i is ih =>
    unfold Core.visitMvm
    refine view_andThen c _ _ ?_ (fun k _ => ih k _)
    unfold Core.mvmOne
    cases hg : c.getMvmu i with
    | error e => rfl
    | ok u =>
      obtain ⟨-, hu⟩ := getMvmu_some c i u hg
      simp only
      cases hx : u.executeMvm (noise 0) with
      | error e => rfl
      | ok u' => exact view_set c _ u u' hu (executeMvm_kept _ _ _ hx)

theorem view_execute (c : Core) (fl : FloatActs) (noise : Nat → Nat → Noise) (op : CoreOp) :
    view (c.execute fl noise op).2 = view c := by
  cases op with
  | set dest imm vec =>
    simp only [Core.execute, Core.visitSet]
    cases npFull32 vec imm with
    | error e => rfl
    | ok data => exact view_write c dest data
  | copy dest read vec => exact view_andThen c _ _ (view_read c _ _) fun k a => view_write k _ _
  | vfu o dest r1 r2 vec =>
    refine view_andThen c _ _ (view_read c _ _) ?_
    intro k a
    cases r2 with
    | none => exact view_andThen k _ _ rfl fun k' a => view_write k' _ _
    | some r2 =>
      refine view_andThen k _ _ (view_read k _ _) ?_
      intro k' b
      exact view_andThen k' _ _ rfl fun k'' a => view_write k'' _ _
  | mvm xbar => exact view_mvm c noise xbar
  | hlt => rfl
  | load => rfl
  | store => rfl

theorem view_reset_go (ms : List Mvmu) : (Core.reset.go ms).2.map renewedMvmu = ms.map renewedMvmu ∧
    (Core.reset.go ms).2.map idleCounts = ms.map idleCounts := by
  induction ms with
  | nil => exact ⟨rfl, rfl⟩
  | cons m ms ih =>
    unfold Core.reset.go
    cases hr : m.reset with
    | error e => exact ⟨rfl, rfl⟩
    | ok m' =>
      exact ⟨by simp only [List.map_cons, ih.1, (reset_kept m m' hr).renewed],
        by simp only [List.map_cons, ih.2, (reset_kept m m' hr).idle]⟩

theorem view_reset (c : Core) : view c.reset.2 = view c := by
  unfold Core.reset view renewedCore
  simp only [view_reset_go]

theorem renewed_load (c : Core) (i : Int) (w : List (List ℚ)) :
    renewedCore (c.loadWeights i w).2 = ((renewedCore c).loadWeights i w).2 := by
  unfold Core.loadWeights
  have hget : (renewedCore c).getMvmu i = (c.getMvmu i).map renewedMvmu := by
    unfold Core.getMvmu
    simp only [renewedCore, List.length_map, List.getElem?_map]
    split
    · rfl
    · cases c.mvmus[i.toNat]? <;> rfl
  rw [hget]
  cases hg : c.getMvmu i with
  | error e => rfl
  | ok u =>
    simp only [Except.map, loadWeights_renewed]
    cases u.loadWeights w with
    | error e => rfl
    | ok u' => simp [renewedCore, List.map_set]

theorem idle_load (c : Core) (i : Int) (w : List (List ℚ)) :
    (c.loadWeights i w).2.mvmus.map idleCounts = c.mvmus.map idleCounts := by
  unfold Core.loadWeights
  cases hg : c.getMvmu i with
  | error e => rfl
  | ok u =>
    obtain ⟨-, hu⟩ := getMvmu_some c i u hg
    simp only
    cases hl : u.loadWeights w with
    | error e => rfl
    | ok u' =>
      dsimp only
      rw [List.map_set, loadWeights_idle u u' w hl]
      apply List.ext_getElem?
      intro j
      rw [List.getElem?_set]
      split
      · rename_i h; subst h
        have : i.toNat < c.mvmus.length := (List.getElem?_eq_some_iff.1 hu).1
        rw [if_pos (by simpa using this), List.getElem?_map, hu]; rfl
      · rfl

theorem view_call (fl : FloatActs) (c : Core) (k : CoreCall) (h : isLoad k = false) : view (c.call fl k).2 = view c := by
  cases k with
  | load i w => cases h
  | write start data => exact view_write c start data
  | read start len => exact view_read c start len
  | exec op e => exact view_execute c fl (noiseOf e) op
  | reset => exact view_reset c

theorem view_after (fl : FloatActs) (hist : List CoreCall) (c : Core) :
    renewedCore (c.after fl hist) = (renewedCore c).after fl (hist.filter isLoad) ∧
    (c.after fl hist).mvmus.map idleCounts = c.mvmus.map idleCounts := by
  induction hist generalizing c with
  | nil => exact ⟨rfl, rfl⟩
  | cons k ks ih =>
    obtain ⟨h1, h2⟩ := ih (c.call fl k).2
    show renewedCore ((c.call fl k).2.after fl ks) = _ ∧ ((c.call fl k).2.after fl ks).mvmus.map _ = _
    rw [h1, h2]
    cases hk : isLoad k with
    | false =>
      have := view_call fl c k hk
      unfold view at this
      injection this with e1 e2
      rw [e1, e2, List.filter_cons_of_neg (by simp [hk])]
      exact ⟨rfl, rfl⟩
    | true =>
      cases k with
      | load i w =>
        refine ⟨?_, idle_load c i w⟩
        show (renewedCore (c.loadWeights i w).2).after fl _ = ((renewedCore c).loadWeights i w).2.after fl _
        rw [renewed_load]
      | _ => cases hk

theorem renewed_new (c : Config) : renewedCore (Core.new c) = Core.new c := by
  simp [renewedCore, Core.new, renewedMvmu, Mvmu.new, RRAMXbar.new, SRAMCim.new]

/-- Sizes of a unit. -/
def SizesOk (m : Mvmu) : Prop :=
  m.inreg.size = m.cfg.xbarSize ∧ m.inreg.registers.length = m.cfg.xbarSize ∧
  m.outreg.size = m.cfg.xbarSize ∧ m.outreg.registers.length = m.cfg.xbarSize

theorem mvmu_reset_eq (m : Mvmu) (h : SizesOk m) (hr : m.cfg.haveRramXbar = true) :
    ∃ m', m.reset = .ok m' ∧ noSramCounts m' = renewedMvmu m ∧
      m'.sram = m.sram ∧ m'.muxSramSelections = m.muxSramSelections := by
  obtain ⟨h1, h2, h3, h4⟩ := h
  refine ⟨_, if_neg (by simp [hr]), ?_, rfl, rfl⟩
  simp only [noSramCounts, renewedMvmu, InReg.reset, OutReg.reset, InReg.new, OutReg.new, h1, h2, h3, h4]

theorem core_reset_eq (cfg : Config) (c : Core) (h : CoreOk cfg c) (hr : cfg.mvmuConfig.haveRramXbar = true) :
    ∃ c', c.reset = (.ok (), c') ∧ noSramCountsCore c' = renewedCore c ∧
      c'.mvmus.map (fun m => (m.sram, m.muxSramSelections)) = c.mvmus.map (fun m => (m.sram, m.muxSramSelections)) := by
  obtain ⟨hc, s, hs⟩ := h
  have hu : ∀ u ∈ c.mvmus, SizesOk u ∧ u.cfg.haveRramXbar = true := by
    intro u hu
    obtain ⟨m, hm⟩ := List.mem_iff_getElem?.1 hu
    obtain ⟨h1, -, h3⟩ := hs.units m u hm
    have := h3.stores.ok
    exact ⟨⟨this.inSize, this.inLen, this.outSize, this.outLen⟩, by rw [h1, hc]; exact hr⟩
  have go : ∀ ms : List Mvmu, (∀ u ∈ ms, SizesOk u ∧ u.cfg.haveRramXbar = true) →
      (Core.reset.go ms).1 = .ok () ∧ (Core.reset.go ms).2.map noSramCounts = ms.map renewedMvmu ∧
      (Core.reset.go ms).2.map (fun m => (m.sram, m.muxSramSelections))
        = ms.map (fun m => (m.sram, m.muxSramSelections)) := by
    intro ms
    induction ms with
    | nil => intro _; exact ⟨rfl, rfl, rfl⟩
    | cons m ms ih =>
      intro hm
      obtain ⟨h1, h2⟩ := hm m List.mem_cons_self
      obtain ⟨m', e, e1, e2, e3⟩ := mvmu_reset_eq m h1 h2
      obtain ⟨i1, i2, i3⟩ := ih fun u hu => hm u (List.mem_cons_of_mem _ hu)
      unfold Core.reset.go
      rw [e]
      exact ⟨i1, by simp only [List.map_cons, e1, i2], by simp only [List.map_cons, e2, e3, i3]⟩
  obtain ⟨g1, g2, g3⟩ := go c.mvmus hu
  refine ⟨c.reset.2, Prod.ext g1 rfl, ?_, g3⟩
  have e1 := hs.csize
  have e2 := hs.clen
  unfold Core.reset noSramCountsCore renewedCore
  simp only [g2, Memory.reset, Memory.new, e2, ← e1]

theorem noSramCounts_of (m : Mvmu) (h : idleCounts m = (0, 0)) (hs : m.cfg.haveSramXbar = false) :
    noSramCounts m = m := by
  unfold idleCounts at h
  rw [if_neg (by simp [hs])] at h
  injection h with h1 h2
  rcases m with ⟨_, _, _, _, _, _, _, _, _, _, _, _, ⟨_, _, _⟩, _⟩
  simp only at h1 h2
  subst h1 h2
  rfl

end Ramwich
