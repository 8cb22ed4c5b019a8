import Verif.Lemmas.ConfigTables
import Verif.Lemmas.PowerOrder
import Mathlib.Tactic.NormNum

/-! # The order of the table entries -/
namespace Ramwich.Tables

open Spec

/-- Larger keys have no smaller entries. -/
def Monotone (d : Table Nat) : Prop := ∀ x ∈ d, ∀ y ∈ d, x.1 ≤ y.1 → x.2 ≤ y.2

/-- No entry is negative. -/
def Nonneg (d : Table Nat) : Prop := ∀ x ∈ d, 0 ≤ x.2

instance (d : Table Nat) : Decidable (Monotone d) := inferInstanceAs (Decidable (∀ x ∈ d, ∀ y ∈ d, x.1 ≤ y.1 → x.2 ≤ y.2))
instance (d : Table Nat) : Decidable (Nonneg d) := inferInstanceAs (Decidable (∀ x ∈ d, 0 ≤ x.2))

theorem val_pick {d : Table Nat} {k : Nat} (u : Option ℚ) (h : k ∈ d.map (·.1)) :
    ∃ q, pick d k u = some q ∧ (k, q) ∈ d := by
  obtain ⟨q, hq⟩ := Option.isSome_iff_exists.1 ((isSome_pick d k u).2 (.inl h))
  exact ⟨q, hq, mem_of_pick ((has_iff d k).2 h) hq⟩

theorem pick_mono {d : Table Nat} (hd : Monotone d) {a b : Nat} (ha : a ∈ d.map (·.1)) (hb : b ∈ d.map (·.1))
    (hab : a ≤ b) (u v : Option ℚ) : val (pick d a u) ≤ val (pick d b v) := by
  obtain ⟨q, e, m⟩ := val_pick u ha
  obtain ⟨r, e', m'⟩ := val_pick v hb
  rw [e, e']
  exact hd _ m _ m' hab

theorem pick_nonneg {d : Table Nat} (hd : Nonneg d) {a : Nat} (ha : a ∈ d.map (·.1)) (u : Option ℚ) :
    0 ≤ val (pick d a u) := by
  obtain ⟨q, e, m⟩ := val_pick u ha
  rw [e]
  exact hd _ m

theorem scale_monotone {r : ℚ} (hr : 0 ≤ r) {d : Table Nat} (hd : Monotone d) : Monotone (scaleTab r d) := by
  intro x hx y hy hxy
  obtain ⟨x', hx', rfl⟩ := List.mem_map.1 hx
  obtain ⟨y', hy', rfl⟩ := List.mem_map.1 hy
  exact mul_le_mul_of_nonneg_right (hd _ hx' _ hy' hxy) hr

theorem scale_nonneg {r : ℚ} (hr : 0 ≤ r) {d : Table Nat} (hd : Nonneg d) : Nonneg (scaleTab r d) := by
  intro x hx
  obtain ⟨x', hx', rfl⟩ := List.mem_map.1 hx
  exact mul_nonneg (hd _ hx') hr

theorem mem_scale {r : ℚ} {d : Table Nat} {k : Nat} (h : k ∈ d.map (·.1)) : k ∈ (scaleTab r d).map (·.1) := by
  rw [keys_scaleTab]; exact h

theorem xbarPow_done (x : Xbar) (h : x.xbarSize ∈ xbarSizes) :
    x.done.xbarPow = some (x.xbarIpLat * x.xbarIpPow) := by
  have : xbarLatTab.has x.xbarSize = true := (has_iff _ _).2 h
  unfold Xbar.done Xbar.doneXbar Xbar.doneSram Xbar.doneCalculator
  simp only [this, if_true]

theorem power_parts {n : Numbers} {p : Power} (h : n.power = .ok p) :
    n.noc.numPort ≠ 0 ∧ ∃ leak area, n.noc.intraPowLeak = some leak ∧ n.noc.intraArea = some area := by
  unfold Numbers.power at h
  split at h
  · cases h
  rename_i h0
  refine ⟨h0, ?_⟩
  split at h
  · rename_i l a e1 e2
    exact ⟨l, a, e1, e2⟩
  · cases h

theorem per_port {a b : Nat} (ha : a ∈ portCounts) (hb : b ∈ portCounts) (hab : a ≤ b) (u v u' v' : Option ℚ) :
    val (pick nocPowLeakTab a u) / a ≤ val (pick nocPowLeakTab b v) / b ∧
    val (pick nocAreaTab a u') / a ≤ val (pick nocAreaTab b v') / b := by
  have hc : ∀ k ∈ portCounts, k = 4 ∨ k = 8 := by decide
  rcases hc a ha with rfl | rfl <;> rcases hc b hb with rfl | rfl
  · exact ⟨le_of_eq rfl, le_of_eq rfl⟩
  · exact ⟨show (0.41 : ℚ) / (4 : Nat) ≤ 1.04 / (8 : Nat) by norm_num, show (0.047 : ℚ) / (4 : Nat) ≤ 0.116 / (8 : Nat) by norm_num⟩
  · omega
  · exact ⟨le_of_eq rfl, le_of_eq rfl⟩

theorem powerLe_done (r8 : ℚ) (hr : 0 ≤ r8) (n : Numbers) (a b : Sizes) (ha : Supported a) (hb : Supported b)
    (hab : SizesLe a b) (p q : Power) (hp : ((withSizes n a).done r8).power = .ok p)
    (hq : ((withSizes n b).done r8).power = .ok q) : PowerLe p q := by
  obtain ⟨hpa, l, ar, e1, e2⟩ := power_parts hp
  obtain ⟨hpb, l', ar', e1', e2'⟩ := power_parts hq
  unfold Numbers.power at hp hq
  rw [if_neg hpa, e1, e2] at hp
  rw [if_neg hpb, e1', e2'] at hq
  simp only [Except.ok.injEq] at hp hq
  have hn := per_port ha.ports hb.ports hab.ports n.noc.intraPowLeak n.noc.intraPowLeak n.noc.intraArea n.noc.intraArea
  have k1 : pick nocPowLeakTab a.ports n.noc.intraPowLeak = some l := e1
  have k2 : pick nocAreaTab a.ports n.noc.intraArea = some ar := e2
  have k3 : pick nocPowLeakTab b.ports n.noc.intraPowLeak = some l' := e1'
  have k4 : pick nocAreaTab b.ports n.noc.intraArea = some ar' := e2'
  rw [k1, k2, k3, k4] at hn
  have kx : val (withSizes n a).mvmu.xbar.done.xbarPow ≤ val (withSizes n b).mvmu.xbar.done.xbarPow := by
    rw [xbarPow_done _ ha.xbar, xbarPow_done _ hb.xbar]
    exact le_refl _
  subst hp
  subst hq
  exact {
    dacPowDyn := pick_mono (d := dacPowDynTab) (by decide +kernel) ha.dac hb.dac hab.dac _ _
    dacPowLeak := pick_mono (d := dacPowLeakTab) (by decide +kernel) ha.dac hb.dac hab.dac _ _
    dacArea := pick_mono (d := dacAreaTab) (by decide +kernel) ha.dac hb.dac hab.dac _ _
    adcPowDyn := pick_mono (d := adcPowDynTab) (by decide +kernel) ha.adc hb.adc hab.adc _ _
    adcPowLeak := pick_mono (d := adcPowLeakTab) (by decide +kernel) ha.adc hb.adc hab.adc _ _
    adcArea := pick_mono (d := adcAreaTab) (by decide +kernel) ha.adc hb.adc hab.adc _ _
    xbarPow := kx
    xbarPowLeak := le_refl _
    xbarArea := pick_mono (d := xbarAreaTab) (by decide +kernel) ha.xbar hb.xbar hab.xbar _ _
    sramXbarPowDyn := pick_mono (d := sramXbarPowDynTab) (by decide +kernel) ha.xbar hb.xbar hab.xbar _ _
    sramXbarPowLeak := pick_mono (d := sramXbarPowLeakTab) (by decide +kernel) ha.xbar hb.xbar hab.xbar _ _
    sramXbarArea := pick_mono (d := sramXbarAreaTab) (by decide +kernel) ha.xbar hb.xbar hab.xbar _ _
    calculatorPowDyn := pick_mono (d := calculatorPowDynTab) (by decide +kernel) ha.xbar hb.xbar hab.xbar _ _
    calculatorPowLeak := pick_mono (d := calculatorPowLeakTab) (by decide +kernel) ha.xbar hb.xbar hab.xbar _ _
    inMemPowDynRead := pick_mono (d := inMemPowDynReadTab) (by decide +kernel) ha.xbar hb.xbar hab.xbar _ _
    inMemPowDynWrite := pick_mono (d := inMemPowDynWriteTab) (by decide +kernel) ha.xbar hb.xbar hab.xbar _ _
    inMemPowLeak := pick_mono (d := inMemPowLeakTab) (by decide +kernel) ha.xbar hb.xbar hab.xbar _ _
    inMemArea := pick_mono (d := inMemAreaTab) (by decide +kernel) ha.xbar hb.xbar hab.xbar _ _
    outMemPowDyn := pick_mono (d := outMemPowDynTab) (by decide +kernel) ha.xbar hb.xbar hab.xbar _ _
    outMemPowLeak := pick_mono (d := outMemPowLeakTab) (by decide +kernel) ha.xbar hb.xbar hab.xbar _ _
    outMemArea := pick_mono (d := outMemAreaTab) (by decide +kernel) ha.xbar hb.xbar hab.xbar _ _
    snhPowDyn := le_refl _
    snhPowLeak := le_refl _
    snhArea := le_refl _
    muxPowDyn := le_refl _
    muxPowLeak := le_refl _
    muxArea := le_refl _
    snaPowDyn := le_refl _
    snaPowLeak := le_refl _
    snaArea := le_refl _
    ccuPowDyn := le_refl _
    ccuPowLeak := le_refl _
    ccuArea := le_refl _
    coreInstrnPowDyn := pick_mono (d := instrnMemPowDynTab) (by decide +kernel) ha.coreInstrn hb.coreInstrn hab.coreInstrn _ _
    coreInstrnPowLeak := pick_mono (d := instrnMemPowLeakTab) (by decide +kernel) ha.coreInstrn hb.coreInstrn hab.coreInstrn _ _
    coreInstrnArea := pick_mono (scale_monotone hr (by decide +kernel)) (mem_scale ha.coreInstrn) (mem_scale hb.coreInstrn) hab.coreInstrn _ _
    dataMemPowDyn := pick_mono (d := dataMemPowDynTab) (by decide +kernel) ha.dataMem hb.dataMem hab.dataMem _ _
    dataMemPowLeak := pick_mono (d := dataMemPowLeakTab) (by decide +kernel) ha.dataMem hb.dataMem hab.dataMem _ _
    dataMemArea := pick_mono (d := dataMemAreaTab) (by decide +kernel) ha.dataMem hb.dataMem hab.dataMem _ _
    aluPowMulDyn := le_refl _
    aluPowDivDyn := le_refl _
    actPowDyn := le_refl _
    aluPowOthersDyn := le_refl _
    aluPowLeak := le_refl _
    aluArea := le_refl _
    actArea := le_refl _
    tcuPowDyn := le_refl _
    tcuPowLeak := le_refl _
    tcuArea := le_refl _
    tileInstrnPowDyn := pick_mono (d := instrnMemPowDynTab) (by decide +kernel) ha.tileInstrn hb.tileInstrn hab.tileInstrn _ _
    tileInstrnPowLeak := pick_mono (d := instrnMemPowLeakTab) (by decide +kernel) ha.tileInstrn hb.tileInstrn hab.tileInstrn _ _
    tileInstrnArea := pick_mono (scale_monotone hr (by decide +kernel)) (mem_scale ha.tileInstrn) (mem_scale hb.tileInstrn) hab.tileInstrn _ _
    edramPowDyn := pick_mono (d := edramPowDynTab) (by decide +kernel) ha.edram hb.edram hab.edram _ _
    edramPowLeak := pick_mono (d := edramPowLeakTab) (by decide +kernel) ha.edram hb.edram hab.edram _ _
    edramArea := pick_mono (d := edramAreaTab) (by decide +kernel) ha.edram hb.edram hab.edram _ _
    edramCtrlPowDyn := le_refl _
    edramCtrlPowLeak := le_refl _
    edramCtrlArea := le_refl _
    edramBusPowLeak := le_refl _
    edramBusArea := le_refl _
    receiveBufferPowDyn := le_refl _
    receiveBufferPowLeak := le_refl _
    receiveBufferArea := le_refl _
    nocInterPowDyn := le_refl _
    nocInterPowLeak := le_refl _
    nocInterArea := le_refl _
    nocIntraPowDyn := pick_mono (d := nocPowDynTab) (by decide +kernel) ha.ports hb.ports hab.ports _ _
    nocIntraPowLeak := hn.1
    nocIntraArea := hn.2 }

/-- Find a scalar among the user's numbers. -/
macro "scalar_mem" : tactic => `(tactic| simp [Numbers.done, Tile.done, Tile.doneEdram, Tile.doneInstrn, Core.done,
  Core.doneData, Core.doneInstrn, Noc.done, Xbar.done, Xbar.doneXbar, Xbar.doneSram, Xbar.doneCalculator])

theorem powerNonneg_done (r8 : ℚ) (hr : 0 ≤ r8) (n : Numbers) (ha : Supported (sizesOf n)) (hs : NonnegScalars n)
    (p : Power) (hp : (n.done r8).power = .ok p) : PowerNonneg p := by
  obtain ⟨hpa, l, ar, e1, e2⟩ := power_parts hp
  unfold Numbers.power at hp
  rw [if_neg hpa, e1, e2] at hp
  simp only [Except.ok.injEq] at hp
  have k1 : pick nocPowLeakTab n.noc.numPort n.noc.intraPowLeak = some l := e1
  have k2 : pick nocAreaTab n.noc.numPort n.noc.intraArea = some ar := e2
  have n1 : 0 ≤ l := by
    have := pick_nonneg (d := nocPowLeakTab) (by decide +kernel) ha.ports n.noc.intraPowLeak
    change 0 ≤ val (pick nocPowLeakTab n.noc.numPort n.noc.intraPowLeak) at this
    rwa [k1] at this
  have n2 : 0 ≤ ar := by
    have := pick_nonneg (d := nocAreaTab) (by decide +kernel) ha.ports n.noc.intraArea
    change 0 ≤ val (pick nocAreaTab n.noc.numPort n.noc.intraArea) at this
    rwa [k2] at this
  have kx : 0 ≤ val n.mvmu.xbar.done.xbarPow := by
    rw [xbarPow_done _ ha.xbar]
    exact mul_nonneg (hs _ (by simp)) (hs _ (by simp))
  subst hp
  unfold NonnegScalars at hs
  exact {
    dacPowDyn := pick_nonneg (d := dacPowDynTab) (by decide +kernel) ha.dac _
    dacPowLeak := pick_nonneg (d := dacPowLeakTab) (by decide +kernel) ha.dac _
    dacArea := pick_nonneg (d := dacAreaTab) (by decide +kernel) ha.dac _
    adcPowDyn := pick_nonneg (d := adcPowDynTab) (by decide +kernel) ha.adc _
    adcPowLeak := pick_nonneg (d := adcPowLeakTab) (by decide +kernel) ha.adc _
    adcArea := pick_nonneg (d := adcAreaTab) (by decide +kernel) ha.adc _
    xbarPow := kx
    xbarPowLeak := hs _ (by scalar_mem)
    xbarArea := pick_nonneg (d := xbarAreaTab) (by decide +kernel) ha.xbar _
    sramXbarPowDyn := pick_nonneg (d := sramXbarPowDynTab) (by decide +kernel) ha.xbar _
    sramXbarPowLeak := pick_nonneg (d := sramXbarPowLeakTab) (by decide +kernel) ha.xbar _
    sramXbarArea := pick_nonneg (d := sramXbarAreaTab) (by decide +kernel) ha.xbar _
    calculatorPowDyn := pick_nonneg (d := calculatorPowDynTab) (by decide +kernel) ha.xbar _
    calculatorPowLeak := pick_nonneg (d := calculatorPowLeakTab) (by decide +kernel) ha.xbar _
    inMemPowDynRead := pick_nonneg (d := inMemPowDynReadTab) (by decide +kernel) ha.xbar _
    inMemPowDynWrite := pick_nonneg (d := inMemPowDynWriteTab) (by decide +kernel) ha.xbar _
    inMemPowLeak := pick_nonneg (d := inMemPowLeakTab) (by decide +kernel) ha.xbar _
    inMemArea := pick_nonneg (d := inMemAreaTab) (by decide +kernel) ha.xbar _
    outMemPowDyn := pick_nonneg (d := outMemPowDynTab) (by decide +kernel) ha.xbar _
    outMemPowLeak := pick_nonneg (d := outMemPowLeakTab) (by decide +kernel) ha.xbar _
    outMemArea := pick_nonneg (d := outMemAreaTab) (by decide +kernel) ha.xbar _
    snhPowDyn := hs _ (by scalar_mem)
    snhPowLeak := hs _ (by scalar_mem)
    snhArea := hs _ (by scalar_mem)
    muxPowDyn := hs _ (by scalar_mem)
    muxPowLeak := hs _ (by scalar_mem)
    muxArea := hs _ (by scalar_mem)
    snaPowDyn := hs _ (by scalar_mem)
    snaPowLeak := hs _ (by scalar_mem)
    snaArea := hs _ (by scalar_mem)
    ccuPowDyn := hs _ (by scalar_mem)
    ccuPowLeak := hs _ (by scalar_mem)
    ccuArea := hs _ (by scalar_mem)
    coreInstrnPowDyn := pick_nonneg (d := instrnMemPowDynTab) (by decide +kernel) ha.coreInstrn _
    coreInstrnPowLeak := pick_nonneg (d := instrnMemPowLeakTab) (by decide +kernel) ha.coreInstrn _
    coreInstrnArea := pick_nonneg (scale_nonneg hr (by decide +kernel)) (mem_scale ha.coreInstrn) _
    dataMemPowDyn := pick_nonneg (d := dataMemPowDynTab) (by decide +kernel) ha.dataMem _
    dataMemPowLeak := pick_nonneg (d := dataMemPowLeakTab) (by decide +kernel) ha.dataMem _
    dataMemArea := pick_nonneg (d := dataMemAreaTab) (by decide +kernel) ha.dataMem _
    aluPowMulDyn := hs _ (by scalar_mem)
    aluPowDivDyn := hs _ (by scalar_mem)
    actPowDyn := hs _ (by scalar_mem)
    aluPowOthersDyn := hs _ (by scalar_mem)
    aluPowLeak := hs _ (by scalar_mem)
    aluArea := hs _ (by scalar_mem)
    actArea := hs _ (by scalar_mem)
    tcuPowDyn := hs _ (by scalar_mem)
    tcuPowLeak := hs _ (by scalar_mem)
    tcuArea := hs _ (by scalar_mem)
    tileInstrnPowDyn := pick_nonneg (d := instrnMemPowDynTab) (by decide +kernel) ha.tileInstrn _
    tileInstrnPowLeak := pick_nonneg (d := instrnMemPowLeakTab) (by decide +kernel) ha.tileInstrn _
    tileInstrnArea := pick_nonneg (scale_nonneg hr (by decide +kernel)) (mem_scale ha.tileInstrn) _
    edramPowDyn := pick_nonneg (d := edramPowDynTab) (by decide +kernel) ha.edram _
    edramPowLeak := pick_nonneg (d := edramPowLeakTab) (by decide +kernel) ha.edram _
    edramArea := pick_nonneg (d := edramAreaTab) (by decide +kernel) ha.edram _
    edramCtrlPowDyn := hs _ (by scalar_mem)
    edramCtrlPowLeak := hs _ (by scalar_mem)
    edramCtrlArea := hs _ (by scalar_mem)
    edramBusPowLeak := hs _ (by scalar_mem)
    edramBusArea := hs _ (by scalar_mem)
    receiveBufferPowDyn := hs _ (by scalar_mem)
    receiveBufferPowLeak := hs _ (by scalar_mem)
    receiveBufferArea := hs _ (by scalar_mem)
    nocInterPowDyn := hs _ (by scalar_mem)
    nocInterPowLeak := hs _ (by scalar_mem)
    nocInterArea := hs _ (by scalar_mem)
    nocIntraPowDyn := pick_nonneg (d := nocPowDynTab) (by decide +kernel) ha.ports _
    nocIntraPowLeak := div_nonneg n1 (Nat.cast_nonneg _)
    nocIntraArea := div_nonneg n2 (Nat.cast_nonneg _) }

end Ramwich.Tables
