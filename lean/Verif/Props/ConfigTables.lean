import Verif.Lemmas.ConfigOrder
import Verif.Props.GetStats

/-! # Lookup tables of the configuration (C67, C68, C69) -/
namespace Ramwich

open Spec Tables

/-- **C67.** The numbers of a configuration are accepted exactly if the injection rate is at most 0.025
and a latency of the network is known for it, from the table or from the user. No other size or
resolution is rejected, and no lookup fails. -/
theorem C67_accepted_iff (r8 : ℚ) (n : Numbers) :
    (∃ n', n.init r8 = .ok n') ↔
      n.noc.injRate ≤ 0.025 ∧ (n.noc.injRate ∈ injRates ∨ n.noc.intraLat.isSome = true) := by
  rw [numbers_init]
  have hm : injRateMax = (0.025 : ℚ) := rfl
  have hk : n.noc.injRate ∈ injRates ↔ n.noc.injRate ∈ nocLatTab.map (·.1) := Iff.rfl
  rw [hk, ← isSome_pick]
  by_cases h : injRateMax < n.noc.injRate
  · rw [if_pos h]
    simp [hm ▸ h]
  · rw [if_neg h]
    have h' : n.noc.injRate ≤ 0.025 := hm ▸ not_lt.1 h
    split
    · rename_i hs; simp [h', hs]
    · rename_i hs; simp [hs]

/-- **C67, the two rejections.** -/
theorem C67_rejected (r8 : ℚ) (n : Numbers) :
    (0.025 < n.noc.injRate → n.init r8 = .error .valueError) ∧
    (n.noc.injRate ≤ 0.025 → n.noc.injRate ∉ injRates → n.noc.intraLat = none → n.init r8 = .error .typeError) := by
  rw [numbers_init]
  have hm : injRateMax = (0.025 : ℚ) := rfl
  constructor
  · intro h; rw [if_pos (hm ▸ h)]
  · intro h h1 h2
    rw [if_neg (by rw [hm]; exact not_lt.2 h), if_neg]
    rw [isSome_pick, h2]
    rintro (h' | h')
    · exact h1 h'
    · cases h'

theorem init_done {r8 : ℚ} {n n' : Numbers} (h : n.init r8 = .ok n') : n' = n.done r8 := by
  rw [numbers_init] at h
  split at h
  · cases h
  split at h
  · exact (Except.ok.inj h).symm
  · cases h

theorem init_of_supported (r8 : ℚ) (n : Numbers) (h : Supported (sizesOf n)) : n.init r8 = .ok (n.done r8) := by
  have hle : ∀ q ∈ injRates, q ≤ (0.025 : ℚ) := by decide +kernel
  obtain ⟨n', e⟩ := (C67_accepted_iff r8 n).2 ⟨hle _ h.injRate, .inl h.injRate⟩
  rw [e, init_done e]

/-- **C67, what the user wrote into the fields for the results has no effect** if the sizes are in the
tables. -/
theorem C67_ignored (r8 : ℚ) (n : Numbers) (h : Supported (sizesOf n)) : n.init r8 = (bare n).init r8 := by
  rw [init_of_supported r8 n h, init_of_supported r8 (bare n) h]
  congr 1
  obtain ⟨hi, hp, he, ht, hd, hc, hda, hx, ha⟩ := h
  have xL : xbarLatTab.has n.mvmu.xbar.xbarSize = true := (has_iff _ _).2 hx
  have key : ∀ (κ : Type) [DecidableEq κ] (d : Table κ) (k : κ) (u v : Option ℚ), k ∈ d.map (·.1) →
      pick d k u = pick d k v := fun κ _ d k u v h => pick_of_has d k u v ((has_iff _ _).2 h)
  unfold Numbers.done bare
  simp only [Numbers.mk.injEq, Tables.Mvmu.mk.injEq, true_and]
  refine ⟨?_, ?_, ?_, ?_, ?_, ?_⟩
  · unfold Noc.done
    simp only [Noc.mk.injEq, true_and]
    have hl := key _ nocLatTab n.noc.injRate n.noc.intraLat none hi
    exact ⟨by rw [hl], hl, key _ nocPowDynTab _ _ _ hp, key _ nocPowLeakTab _ _ _ hp, key _ nocAreaTab _ _ _ hp⟩
  · unfold Tile.done Tile.doneEdram Tile.doneInstrn
    simp only [Tile.mk.injEq, true_and]
    exact ⟨key _ edramLatTab _ _ _ he, key _ edramPowDynTab _ _ _ he, key _ edramPowLeakTab _ _ _ he,
      key _ edramAreaTab _ _ _ he, key _ instrnMemLatTab _ _ _ ht, key _ instrnMemPowDynTab _ _ _ ht,
      key _ instrnMemPowLeakTab _ _ _ ht, key _ _ _ _ _ (mem_scale (d := instrnMemAreaTab) ht), trivial⟩
  · unfold Tables.Core.done Tables.Core.doneData Tables.Core.doneInstrn
    simp only [Tables.Core.mk.injEq, true_and]
    exact ⟨key _ dataMemLatTab _ _ _ hd, key _ dataMemPowDynTab _ _ _ hd, key _ dataMemPowLeakTab _ _ _ hd,
      key _ dataMemAreaTab _ _ _ hd, key _ instrnMemLatTab _ _ _ hc, key _ instrnMemPowDynTab _ _ _ hc,
      key _ instrnMemPowLeakTab _ _ _ hc, key _ _ _ _ _ (mem_scale (d := instrnMemAreaTab) hc), trivial⟩
  · unfold Dac.done
    simp only [Dac.mk.injEq, true_and]
    exact ⟨key _ dacLatTab _ _ _ hda, key _ dacPowDynTab _ _ _ hda, key _ dacPowLeakTab _ _ _ hda,
      key _ dacAreaTab _ _ _ hda⟩
  · unfold Xbar.done Xbar.doneXbar Xbar.doneSram Xbar.doneCalculator
    simp only [Xbar.mk.injEq, xL, if_true, true_and]
    exact ⟨key _ inMemLatTab _ _ _ hx, key _ inMemPowDynReadTab _ _ _ hx, key _ inMemPowDynWriteTab _ _ _ hx,
      key _ inMemPowLeakTab _ _ _ hx, key _ inMemAreaTab _ _ _ hx, key _ xbarLatTab _ _ _ hx,
      key _ xbarAreaTab _ _ _ hx, key _ sramXbarLatTab _ _ _ hx, key _ sramXbarPowDynTab _ _ _ hx,
      key _ sramXbarPowLeakTab _ _ _ hx, key _ sramXbarAreaTab _ _ _ hx, key _ calculatorLatTab _ _ _ hx,
      key _ calculatorPowLeakTab _ _ _ hx, key _ calculatorPowDynTab _ _ _ hx, key _ calculatorAreaTab _ _ _ hx,
      key _ outMemLatTab _ _ _ hx, key _ outMemPowDynTab _ _ _ hx, key _ outMemPowLeakTab _ _ _ hx,
      key _ outMemAreaTab _ _ _ hx, trivial⟩
  · unfold Adc.done
    simp only [Adc.mk.injEq, true_and]
    exact ⟨key _ adcLatTab _ _ _ ha, key _ adcPowDynTab _ _ _ ha, key _ adcPowLeakTab _ _ _ ha,
      key _ adcAreaTab _ _ _ ha⟩

/-- **C67, what the user wrote is kept** where a size is not in its table. -/
theorem C67_kept (r8 : ℚ) (n n' : Numbers) (h : n.init r8 = .ok n') :
    (n.mvmu.dac.resolution ∉ resolutions → n'.mvmu.dac = n.mvmu.dac) ∧
    (n.mvmu.adc.resolution ∉ resolutions → n'.mvmu.adc = n.mvmu.adc) ∧
    (n.mvmu.xbar.xbarSize ∉ xbarSizes → n'.mvmu.xbar = n.mvmu.xbar) ∧
    (n.tile.edramSizeInKB ∉ edramSizes → n.tile.instrnMemSize ∉ instrnSizes → n'.tile = n.tile) ∧
    (n.core.dataMemSize ∉ dataSizes → n.core.instrnMemSize ∉ instrnSizes → n'.core = n.core) ∧
    (n.noc.numPort ∉ portCounts → n'.noc.intraPowDyn = n.noc.intraPowDyn ∧
      n'.noc.intraPowLeak = n.noc.intraPowLeak ∧ n'.noc.intraArea = n.noc.intraArea) ∧
    (n.noc.injRate ∉ injRates → n'.noc.intraLat = n.noc.intraLat) := by
  rw [init_done h]
  have key : ∀ (κ : Type) [DecidableEq κ] (d : Table κ) (k : κ) (u : Option ℚ), k ∉ d.map (·.1) →
      pick d k u = u := fun κ _ d k u h => pick_of_not d k u (fun h' => h ((has_iff _ _).1 h'))
  refine ⟨fun g => ?_, fun g => ?_, fun g => ?_, fun g g' => ?_, fun g g' => ?_, fun g => ⟨?_, ?_, ?_⟩, fun g => ?_⟩
  · change n.mvmu.dac.done = _
    unfold Dac.done
    rw [key _ dacLatTab _ _ g, key _ dacPowDynTab _ _ g, key _ dacPowLeakTab _ _ g, key _ dacAreaTab _ _ g]
  · change n.mvmu.adc.done = _
    unfold Adc.done
    rw [key _ adcLatTab _ _ g, key _ adcPowDynTab _ _ g, key _ adcPowLeakTab _ _ g, key _ adcAreaTab _ _ g]
  · change n.mvmu.xbar.done = _
    have xL : ¬ xbarLatTab.has n.mvmu.xbar.xbarSize = true := fun h' => g ((has_iff _ _).1 h')
    unfold Xbar.done Xbar.doneXbar Xbar.doneSram Xbar.doneCalculator
    simp only [xL]
    rw [key _ inMemLatTab _ _ g, key _ inMemPowDynReadTab _ _ g, key _ inMemPowDynWriteTab _ _ g,
      key _ inMemPowLeakTab _ _ g, key _ inMemAreaTab _ _ g, key _ xbarLatTab _ _ g, key _ xbarAreaTab _ _ g,
      key _ sramXbarLatTab _ _ g, key _ sramXbarPowDynTab _ _ g, key _ sramXbarPowLeakTab _ _ g,
      key _ sramXbarAreaTab _ _ g, key _ calculatorLatTab _ _ g, key _ calculatorPowLeakTab _ _ g,
      key _ calculatorPowDynTab _ _ g, key _ calculatorAreaTab _ _ g, key _ outMemLatTab _ _ g,
      key _ outMemPowDynTab _ _ g, key _ outMemPowLeakTab _ _ g, key _ outMemAreaTab _ _ g]
    rfl
  · change n.tile.done r8 = _
    unfold Tile.done Tile.doneEdram Tile.doneInstrn
    dsimp only
    rw [key _ edramLatTab _ _ g, key _ edramPowDynTab _ _ g, key _ edramPowLeakTab _ _ g, key _ edramAreaTab _ _ g,
      key _ instrnMemLatTab _ _ g', key _ instrnMemPowDynTab _ _ g', key _ instrnMemPowLeakTab _ _ g',
      key _ (scaleTab r8 instrnMemAreaTab) _ _ (by rw [keys_scaleTab]; exact g')]
  · change n.core.done r8 = _
    unfold Tables.Core.done Tables.Core.doneData Tables.Core.doneInstrn
    dsimp only
    rw [key _ dataMemLatTab _ _ g, key _ dataMemPowDynTab _ _ g, key _ dataMemPowLeakTab _ _ g,
      key _ dataMemAreaTab _ _ g, key _ instrnMemLatTab _ _ g', key _ instrnMemPowDynTab _ _ g',
      key _ instrnMemPowLeakTab _ _ g', key _ (scaleTab r8 instrnMemAreaTab) _ _ (by rw [keys_scaleTab]; exact g')]
  · exact key _ nocPowDynTab _ _ g
  · exact key _ nocPowLeakTab _ _ g
  · exact key _ nocAreaTab _ _ g
  · exact key _ nocLatTab _ _ g

/-- **C67, nothing else changes**: the constructors write only into the fields for the results. -/
theorem C67_rest (r8 : ℚ) (n n' : Numbers) (h : n.init r8 = .ok n') : bare n' = bare n := by
  rw [init_done h]
  rfl

/-- **C67, latencies.** A packet between nodes takes the hypertransport latency plus the latency in a
node, whatever the user wrote into `noc_inter_lat`; it is longer than that in a node if the
hypertransport takes time. For sizes in the tables: a converter of a DAC takes 1 cycle, an ADC that of
the functional model, a memory 1 cycle, the DRAM 50, a crossbar as many as it has rows. -/
theorem C67_latencies (r8 : ℚ) (n n' : Numbers) (h : n.init r8 = .ok n') :
    (∃ l, n'.noc.intraLat = some l ∧ n'.noc.interLat = n.noc.htLat + l ∧ (0 < n.noc.htLat → l < n'.noc.interLat)) ∧
    (n.noc.injRate ∈ injRates → ∃ l, n'.noc.intraLat = some l ∧ 29 ≤ l ∧ l ≤ 115) ∧
    (n.tile.edramSizeInKB ∈ edramSizes → n'.tile.edramLat = some 50) ∧
    (n.tile.instrnMemSize ∈ instrnSizes → n'.tile.instrnMemLat = some 1) ∧
    (n.core.instrnMemSize ∈ instrnSizes → n'.core.instrnMemLat = some 1) ∧
    (n.core.dataMemSize ∈ dataSizes → n'.core.dataMemLat = some 1) ∧
    (n.mvmu.xbar.xbarSize ∈ xbarSizes → n'.mvmu.xbar.xbarLat = some (n.mvmu.xbar.xbarSize : ℚ)) ∧
    (∀ m : MVMUConfig, m.dacResolution = n.mvmu.dac.resolution → m.dacResolution ∈ resolutions →
      n'.mvmu.dac.lat = m.dacLat.map fun l => (l : ℚ)) ∧
    (∀ m : MVMUConfig, m.adcResolution = n.mvmu.adc.resolution → m.adcResolution ∈ resolutions →
      n'.mvmu.adc.lat = m.adcLat.map fun l => (l : ℚ)) := by
  have hs : (pick nocLatTab n.noc.injRate n.noc.intraLat).isSome = true := by
    rw [isSome_pick]
    exact ((C67_accepted_iff r8 n).1 ⟨n', h⟩).2
  rw [init_done h]
  have key : ∀ (d : Table Nat) (k : Nat) (u : Option ℚ) (f : Nat → ℚ), (∀ x ∈ d, x.2 = f x.1) → k ∈ d.map (·.1) →
      pick d k u = some (f k) := by
    intro d k u f hf hk
    obtain ⟨q, e, m⟩ := val_pick u hk
    rw [e]
    exact congrArg some (hf _ m)
  refine ⟨?_, fun g => ?_, fun g => ?_, fun g => ?_, fun g => ?_, fun g => ?_, fun g => ?_, fun m e g => ?_, fun m e g => ?_⟩
  · obtain ⟨l, hl⟩ := Option.isSome_iff_exists.1 hs
    have e : (n.done r8).noc.interLat = n.noc.htLat + l := by
      change n.noc.htLat + (pick nocLatTab n.noc.injRate n.noc.intraLat).getD 0 = _
      rw [hl]; rfl
    exact ⟨l, hl, e, fun h0 => by rw [e]; linarith⟩
  · obtain ⟨l, hl⟩ := Option.isSome_iff_exists.1 hs
    have hm := mem_of_pick ((has_iff nocLatTab _).2 g) hl
    have hb : ∀ x ∈ nocLatTab, 29 ≤ x.2 ∧ x.2 ≤ 115 := by decide +kernel
    exact ⟨l, hl, hb _ hm⟩
  · exact key edramLatTab _ _ (fun _ => 50) (by decide +kernel) g
  · exact key instrnMemLatTab _ _ (fun _ => 1) (by decide +kernel) g
  · exact key instrnMemLatTab _ _ (fun _ => 1) (by decide +kernel) g
  · exact key dataMemLatTab _ _ (fun _ => 1) (by decide +kernel) g
  · exact key xbarLatTab _ _ (fun k => (k : ℚ)) (by decide +kernel) g
  · have e1 : m.dacLat = some 1 := by unfold MVMUConfig.dacLat; exact if_pos g
    rw [e1]
    exact key dacLatTab _ _ (fun _ => 1) (by decide +kernel) (e ▸ g)
  · change pick adcLatTab n.mvmu.adc.resolution n.mvmu.adc.lat = _
    rw [← e]
    unfold MVMUConfig.adcLat
    simp only [resolutions, List.mem_cons, List.not_mem_nil, or_false] at g
    rcases g with g | g | g | g | g <;> rw [g] <;> rfl

/-- **C67, the power of a crossbar.** It is the product of two numbers of the user for every size in the
table: the table of powers (config.py:119) has no effect. -/
theorem C67_xbar_power (r8 : ℚ) (n n' : Numbers) (h : n.init r8 = .ok n') (hx : n.mvmu.xbar.xbarSize ∈ xbarSizes) :
    n'.mvmu.xbar.xbarPow = some (n.mvmu.xbar.xbarIpLat * n.mvmu.xbar.xbarIpPow) := by
  rw [init_done h]
  exact xbarPow_done _ hx

/-- The default configuration, and one with a few entries of a user: a rate that is not in the table, but
with a latency; a DAC of 3 bits without numbers; an ADC of 8 bits with numbers, which are overwritten. -/
def oddNumbers : Numbers :=
  { noc := { injRate := 0.003, intraLat := some 30, interLat := 7 }
    mvmu := { dac := { resolution := 3 }, adc := { resolution := 8, lat := some 5, area := some 9 } } }

/-- The numbers after construction. -/
def Tables.Numbers.made (n : Numbers) : Numbers := match n.init (14 / 5) with | .ok n => n | .error _ => n

theorem default_init : ({} : Numbers).init (14 / 5) = .ok ({} : Numbers).made := by decide +kernel
theorem odd_init : oddNumbers.init (14 / 5) = .ok oddNumbers.made := by decide +kernel

theorem default_supported : Supported (sizesOf {}) :=
  ⟨by decide +kernel, by decide, by decide, by decide, by decide, by decide, by decide, by decide, by decide⟩

example := C67_ignored (14 / 5) {} default_supported
example := C67_kept (14 / 5) oddNumbers _ odd_init
example := C67_latencies (14 / 5) oddNumbers _ odd_init
example : oddNumbers.made.noc.interLat = 35 ∧ oddNumbers.made.mvmu.adc.lat = some 100 ∧
    oddNumbers.made.mvmu.adc.area = some 0.0012 ∧ oddNumbers.made.mvmu.dac.area = none := by decide +kernel
example : ({ noc := { injRate := 0.003 } } : Numbers).init 0 = .error .typeError :=
  (C67_rejected 0 _).2 (by decide +kernel) (by decide +kernel) rfl
example : ({ noc := { injRate := 0.03 } } : Numbers).init 0 = .error .valueError := (C67_rejected 0 _).1 (by decide +kernel)
-- the functional model's default latencies are those of the default configuration
example : ({} : Numbers).made.noc.intraLat = some (({} : NOCConfig).nocIntraLat : ℚ) ∧
    ({} : Numbers).made.noc.interLat = (({} : NOCConfig).nocInterLat : ℚ) ∧
    ({} : Numbers).made.tile.edramLat = some (({} : TileConfig).edramLat : ℚ) ∧
    ({} : Numbers).made.core.dataMemLat = some (({} : CoreConfig).dataMemLat : ℚ) ∧
    ({} : Numbers).made.core.instrnMemLat = some (({} : CoreConfig).instrnMemLat : ℚ) := by decide +kernel

/-- **C68.** The network of a node can be built exactly if it has a port and its leakage and area are
known, from the table or from the user. -/
theorem C68_network_iff (r8 : ℚ) (n n' : Numbers) (h : n.init r8 = .ok n') :
    (∃ p, n'.power = .ok p) ↔ n.noc.numPort ≠ 0 ∧
      (n.noc.numPort ∈ portCounts ∨ (n.noc.intraPowLeak.isSome = true ∧ n.noc.intraArea.isSome = true)) := by
  rw [init_done h]
  have k1 : (n.done r8).noc.intraPowLeak.isSome = true ↔ n.noc.numPort ∈ portCounts ∨ n.noc.intraPowLeak.isSome = true :=
    isSome_pick nocPowLeakTab _ _
  have k2 : (n.done r8).noc.intraArea.isSome = true ↔ n.noc.numPort ∈ portCounts ∨ n.noc.intraArea.isSome = true :=
    isSome_pick nocAreaTab _ _
  have e : (n.done r8).noc.numPort = n.noc.numPort := rfl
  constructor
  · rintro ⟨p, hp⟩
    obtain ⟨h0, l, a, e1, e2⟩ := power_parts hp
    refine ⟨h0, ?_⟩
    rw [e1] at k1
    rw [e2] at k2
    have := k1.1 rfl
    have := k2.1 rfl
    tauto
  · rintro ⟨h0, h1⟩
    obtain ⟨l, e1⟩ := Option.isSome_iff_exists.1 (k1.2 (by tauto))
    obtain ⟨a, e2⟩ := Option.isSome_iff_exists.1 (k2.2 (by tauto))
    unfold Numbers.power
    rw [if_neg (by rw [e]; exact h0), e1, e2]
    exact ⟨_, rfl⟩

theorem power_fields {n : Numbers} {p : Power} (h : n.power = .ok p) :
    ∃ leak area, n.noc.intraPowLeak = some leak ∧ n.noc.intraArea = some area ∧
      p.dacPowDyn = n.mvmu.dac.powDyn ∧ p.dacPowLeak = n.mvmu.dac.powLeak ∧ p.dacArea = n.mvmu.dac.area ∧
      p.adcPowDyn = n.mvmu.adc.powDyn ∧ p.adcPowLeak = n.mvmu.adc.powLeak ∧ p.adcArea = n.mvmu.adc.area ∧
      p.xbarPow = n.mvmu.xbar.xbarPow ∧ p.xbarArea = n.mvmu.xbar.xbarArea ∧
      p.sramXbarPowDyn = n.mvmu.xbar.sramXbarPowDyn ∧ p.sramXbarPowLeak = n.mvmu.xbar.sramXbarPowLeak ∧
      p.sramXbarArea = n.mvmu.xbar.sramXbarArea ∧ p.calculatorPowDyn = n.mvmu.xbar.calculatorPowDyn ∧
      p.calculatorPowLeak = n.mvmu.xbar.calculatorPowLeak ∧ p.inMemPowDynRead = n.mvmu.xbar.inMemPowDynRead ∧
      p.inMemPowDynWrite = n.mvmu.xbar.inMemPowDynWrite ∧ p.inMemPowLeak = n.mvmu.xbar.inMemPowLeak ∧
      p.inMemArea = n.mvmu.xbar.inMemArea ∧ p.outMemPowDyn = n.mvmu.xbar.outMemPowDyn ∧
      p.outMemPowLeak = n.mvmu.xbar.outMemPowLeak ∧ p.outMemArea = n.mvmu.xbar.outMemArea ∧
      p.coreInstrnPowDyn = n.core.instrnMemPowDyn ∧ p.coreInstrnPowLeak = n.core.instrnMemPowLeak ∧
      p.coreInstrnArea = n.core.instrnMemArea ∧ p.dataMemPowDyn = n.core.dataMemPowDyn ∧
      p.dataMemPowLeak = n.core.dataMemPowLeak ∧ p.dataMemArea = n.core.dataMemArea ∧
      p.tileInstrnPowDyn = n.tile.instrnMemPowDyn ∧ p.tileInstrnPowLeak = n.tile.instrnMemPowLeak ∧
      p.tileInstrnArea = n.tile.instrnMemArea ∧ p.edramPowDyn = n.tile.edramPowDyn ∧
      p.edramPowLeak = n.tile.edramPowLeak ∧ p.edramArea = n.tile.edramArea ∧
      p.nocIntraPowDyn = n.noc.intraPowDyn := by
  obtain ⟨h0, l, a, e1, e2⟩ := power_parts h
  unfold Numbers.power at h
  rw [if_neg h0, e1, e2] at h
  simp only [Except.ok.injEq] at h
  subst h
  exact ⟨l, a, e1, e2, rfl, rfl, rfl, rfl, rfl, rfl, rfl, rfl, rfl, rfl, rfl, rfl, rfl, rfl, rfl, rfl, rfl, rfl, rfl, rfl,
    rfl, rfl, rfl, rfl, rfl, rfl, rfl, rfl, rfl, rfl, rfl, rfl, rfl⟩

theorem ifs_some (a b : Bool) (l1 l2 l3 : List (Option ℚ)) (A B C : Prop) (h1 : (∀ o ∈ l1, o.isSome = true) ↔ A)
    (h2 : (∀ o ∈ l2, o.isSome = true) ↔ B) (h3 : (∀ o ∈ l3, o.isSome = true) ↔ C) :
    (∀ o ∈ (if a then l1 else []) ++ (if b then l2 else []) ++ l3, o.isSome = true) ↔
      C ∧ (a = true → A) ∧ (b = true → B) := by
  rw [List.forall_mem_append, List.forall_mem_append, h3, ← h1, ← h2]
  have nil : ∀ x ∈ ([] : List (Option ℚ)), x.isSome = true := by simp
  cases a <;> cases b <;> simp [nil] <;> tauto

/-- **C68, when there is a report.** After construction, `get_stats` of a simulator in any state returns
exactly if every node has a tile and, for each part that the simulator has, the size is in the table or
the user gave the numbers. -/
theorem C68_report_iff (r8 : ℚ) (n n' : Numbers) (h : n.init r8 = .ok n') (p : Power) (hp : n'.power = .ok p)
    (s : Sim) (hp' : Heap) : (∃ d h', s.getStats p hp' = .ok (d, h')) ↔ Reportable n s := by
  rw [C48_succeeds]
  rw [init_done h] at hp
  obtain ⟨-, -, -, -, d1, d2, d3, a1, a2, a3, x1, x2, s1, s2, s3, k1, k2, i1, i2, i3, i4, o1, o2, o3, ci1, ci2, ci3, cd1, cd2,
    cd3, ti1, ti2, ti3, te1, te2, te3, nd⟩ := power_fields hp
  have tDac : ∀ (d : Table Nat) u, d.map (·.1) = resolutions → ((pick d n.mvmu.dac.resolution u).isSome = true ↔
      (sizesOf n).dac ∈ resolutions ∨ u.isSome = true) := fun d u hd => by rw [isSome_pick, hd]; rfl
  have tAdc : ∀ (d : Table Nat) u, d.map (·.1) = resolutions → ((pick d n.mvmu.adc.resolution u).isSome = true ↔
      (sizesOf n).adc ∈ resolutions ∨ u.isSome = true) := fun d u hd => by rw [isSome_pick, hd]; rfl
  have tX : ∀ (d : Table Nat) u, d.map (·.1) = xbarSizes → ((pick d n.mvmu.xbar.xbarSize u).isSome = true ↔
      (sizesOf n).xbar ∈ xbarSizes ∨ u.isSome = true) := fun d u hd => by rw [isSome_pick, hd]; rfl
  have tCI : ∀ (d : Table Nat) u, d.map (·.1) = instrnSizes → ((pick d n.core.instrnMemSize u).isSome = true ↔
      (sizesOf n).coreInstrn ∈ instrnSizes ∨ u.isSome = true) := fun d u hd => by rw [isSome_pick, hd]; rfl
  have tCD : ∀ (d : Table Nat) u, d.map (·.1) = dataSizes → ((pick d n.core.dataMemSize u).isSome = true ↔
      (sizesOf n).dataMem ∈ dataSizes ∨ u.isSome = true) := fun d u hd => by rw [isSome_pick, hd]; rfl
  have tTI : ∀ (d : Table Nat) u, d.map (·.1) = instrnSizes → ((pick d n.tile.instrnMemSize u).isSome = true ↔
      (sizesOf n).tileInstrn ∈ instrnSizes ∨ u.isSome = true) := fun d u hd => by rw [isSome_pick, hd]; rfl
  have tTE : ∀ (d : Table Nat) u, d.map (·.1) = edramSizes → ((pick d n.tile.edramSizeInKB u).isSome = true ↔
      (sizesOf n).edram ∈ edramSizes ∨ u.isSome = true) := fun d u hd => by rw [isSome_pick, hd]; rfl
  have hxp : n.mvmu.xbar.done.xbarPow.isSome = true ↔
      (sizesOf n).xbar ∈ xbarSizes ∨ n.mvmu.xbar.xbarPow.isSome = true := by
    by_cases hx : n.mvmu.xbar.xbarSize ∈ xbarSizes
    · rw [xbarPow_done _ hx]
      exact ⟨fun _ => .inl hx, fun _ => rfl⟩
    · have : ¬ xbarLatTab.has n.mvmu.xbar.xbarSize = true := fun h' => hx ((has_iff _ _).1 h')
      unfold Xbar.done Xbar.doneXbar Xbar.doneSram Xbar.doneCalculator
      simp only [this, if_false, Bool.false_eq_true]
      exact ⟨.inr, fun h' => h'.resolve_left hx⟩
  have kI : instrnMemAreaTab.map (·.1) = instrnSizes := by decide
  have e_mvmu : ∀ m : Ramwich.Mvmu, (∀ o ∈ mvmuNeeds p m, o.isSome = true) ↔
      (((sizesOf n).xbar ∈ xbarSizes ∨ (n.mvmu.xbar.inMemPowDynRead.isSome ∧ n.mvmu.xbar.inMemPowDynWrite.isSome ∧
          n.mvmu.xbar.inMemPowLeak.isSome ∧ n.mvmu.xbar.inMemArea.isSome ∧ n.mvmu.xbar.outMemPowDyn.isSome ∧
          n.mvmu.xbar.outMemPowLeak.isSome ∧ n.mvmu.xbar.outMemArea.isSome)) ∧
        (m.cfg.haveRramXbar = true →
          ((sizesOf n).xbar ∈ xbarSizes ∨ (n.mvmu.xbar.xbarPow.isSome ∧ n.mvmu.xbar.xbarArea.isSome)) ∧
          ((sizesOf n).dac ∈ resolutions ∨ (n.mvmu.dac.powDyn.isSome ∧ n.mvmu.dac.powLeak.isSome ∧ n.mvmu.dac.area.isSome)) ∧
          ((sizesOf n).adc ∈ resolutions ∨ (n.mvmu.adc.powDyn.isSome ∧ n.mvmu.adc.powLeak.isSome ∧ n.mvmu.adc.area.isSome))) ∧
        (m.cfg.haveSramXbar = true →
          (sizesOf n).xbar ∈ xbarSizes ∨ (n.mvmu.xbar.sramXbarPowDyn.isSome ∧ n.mvmu.xbar.sramXbarPowLeak.isSome ∧
            n.mvmu.xbar.sramXbarArea.isSome ∧ n.mvmu.xbar.calculatorPowDyn.isSome ∧
            n.mvmu.xbar.calculatorPowLeak.isSome))) := by
    intro m
    unfold mvmuNeeds
    rw [d1, d2, d3, a1, a2, a3, x1, x2, s1, s2, s3, k1, k2, i1, i2, i3, i4, o1, o2, o3]
    have hd1 := tDac dacPowDynTab n.mvmu.dac.powDyn rfl
    have hd2 := tDac dacPowLeakTab n.mvmu.dac.powLeak rfl
    have hd3 := tDac dacAreaTab n.mvmu.dac.area rfl
    have ha1 := tAdc adcPowDynTab n.mvmu.adc.powDyn rfl
    have ha2 := tAdc adcPowLeakTab n.mvmu.adc.powLeak rfl
    have ha3 := tAdc adcAreaTab n.mvmu.adc.area rfl
    have hx2 := tX xbarAreaTab n.mvmu.xbar.xbarArea rfl
    have hs1 := tX sramXbarPowDynTab n.mvmu.xbar.sramXbarPowDyn rfl
    have hs2 := tX sramXbarPowLeakTab n.mvmu.xbar.sramXbarPowLeak rfl
    have hs3 := tX sramXbarAreaTab n.mvmu.xbar.sramXbarArea rfl
    have hk1 := tX calculatorPowDynTab n.mvmu.xbar.calculatorPowDyn rfl
    have hk2 := tX calculatorPowLeakTab n.mvmu.xbar.calculatorPowLeak rfl
    have hi1 := tX inMemPowDynReadTab n.mvmu.xbar.inMemPowDynRead rfl
    have hi2 := tX inMemPowDynWriteTab n.mvmu.xbar.inMemPowDynWrite rfl
    have hi3 := tX inMemPowLeakTab n.mvmu.xbar.inMemPowLeak rfl
    have hi4 := tX inMemAreaTab n.mvmu.xbar.inMemArea rfl
    have ho1 := tX outMemPowDynTab n.mvmu.xbar.outMemPowDyn rfl
    have ho2 := tX outMemPowLeakTab n.mvmu.xbar.outMemPowLeak rfl
    have ho3 := tX outMemAreaTab n.mvmu.xbar.outMemArea rfl
    have last : (∀ o ∈ [(n.done r8).mvmu.xbar.inMemPowDynRead, (n.done r8).mvmu.xbar.inMemPowDynWrite,
        (n.done r8).mvmu.xbar.inMemPowLeak, (n.done r8).mvmu.xbar.inMemArea, (n.done r8).mvmu.xbar.outMemPowDyn,
        (n.done r8).mvmu.xbar.outMemPowLeak, (n.done r8).mvmu.xbar.outMemArea], o.isSome = true) ↔
        ((sizesOf n).xbar ∈ xbarSizes ∨ (n.mvmu.xbar.inMemPowDynRead.isSome ∧ n.mvmu.xbar.inMemPowDynWrite.isSome ∧
          n.mvmu.xbar.inMemPowLeak.isSome ∧ n.mvmu.xbar.inMemArea.isSome ∧ n.mvmu.xbar.outMemPowDyn.isSome ∧
          n.mvmu.xbar.outMemPowLeak.isSome ∧ n.mvmu.xbar.outMemArea.isSome)) := by
      simp only [List.forall_mem_cons]
      have : ∀ x ∈ ([] : List (Option ℚ)), x.isSome = true := by simp
      refine (and_congr hi1 (and_congr hi2 (and_congr hi3 (and_congr hi4 (and_congr ho1 (and_congr ho2
        (and_congr ho3 (iff_true_intro this)))))))).trans ?_
      simp only [or_and_left, and_assoc, and_true]
    have rram : (∀ o ∈ [(n.done r8).mvmu.xbar.xbarPow, (n.done r8).mvmu.xbar.xbarArea, (n.done r8).mvmu.dac.powDyn,
        (n.done r8).mvmu.dac.powLeak, (n.done r8).mvmu.dac.area, (n.done r8).mvmu.adc.powDyn,
        (n.done r8).mvmu.adc.powLeak, (n.done r8).mvmu.adc.area], o.isSome = true) ↔
        (((sizesOf n).xbar ∈ xbarSizes ∨ (n.mvmu.xbar.xbarPow.isSome ∧ n.mvmu.xbar.xbarArea.isSome)) ∧
          ((sizesOf n).dac ∈ resolutions ∨ (n.mvmu.dac.powDyn.isSome ∧ n.mvmu.dac.powLeak.isSome ∧ n.mvmu.dac.area.isSome)) ∧
          ((sizesOf n).adc ∈ resolutions ∨ (n.mvmu.adc.powDyn.isSome ∧ n.mvmu.adc.powLeak.isSome ∧ n.mvmu.adc.area.isSome))) := by
      simp only [List.forall_mem_cons]
      have : ∀ x ∈ ([] : List (Option ℚ)), x.isSome = true := by simp
      refine (and_congr hxp (and_congr hx2 (and_congr hd1 (and_congr hd2 (and_congr hd3 (and_congr ha1 (and_congr ha2
        (and_congr ha3 (iff_true_intro this))))))))).trans ?_
      simp only [or_and_left, and_assoc, and_true]
    have sram : (∀ o ∈ [(n.done r8).mvmu.xbar.sramXbarPowDyn, (n.done r8).mvmu.xbar.sramXbarPowLeak,
        (n.done r8).mvmu.xbar.sramXbarArea, (n.done r8).mvmu.xbar.calculatorPowDyn,
        (n.done r8).mvmu.xbar.calculatorPowLeak], o.isSome = true) ↔
        ((sizesOf n).xbar ∈ xbarSizes ∨ (n.mvmu.xbar.sramXbarPowDyn.isSome ∧ n.mvmu.xbar.sramXbarPowLeak.isSome ∧
            n.mvmu.xbar.sramXbarArea.isSome ∧ n.mvmu.xbar.calculatorPowDyn.isSome ∧
            n.mvmu.xbar.calculatorPowLeak.isSome)) := by
      simp only [List.forall_mem_cons]
      have : ∀ x ∈ ([] : List (Option ℚ)), x.isSome = true := by simp
      refine (and_congr hs1 (and_congr hs2 (and_congr hs3 (and_congr hk1 (and_congr hk2
        (iff_true_intro this)))))).trans ?_
      simp only [or_and_left, and_assoc, and_true]
    exact ifs_some _ _ _ _ _ _ _ _ rram sram last
  have e_core : ∀ c : CoreObj, (∀ o ∈ coreNeeds p c, o.isSome = true) ↔
      ((((sizesOf n).coreInstrn ∈ instrnSizes ∨ (n.core.instrnMemPowDyn.isSome ∧ n.core.instrnMemPowLeak.isSome ∧
        n.core.instrnMemArea.isSome)) ∧
       ((sizesOf n).dataMem ∈ dataSizes ∨ (n.core.dataMemPowDyn.isSome ∧ n.core.dataMemPowLeak.isSome ∧
        n.core.dataMemArea.isSome))) ∧ ∀ m ∈ c.core.mvmus, ∀ o ∈ mvmuNeeds p m, o.isSome = true) := by
    intro c
    unfold coreNeeds
    rw [ci1, ci2, ci3, cd1, cd2, cd3, List.forall_mem_append]
    refine and_congr ?_ ?_
    · have h1 := tCI instrnMemPowDynTab n.core.instrnMemPowDyn (by decide)
      have h2 := tCI instrnMemPowLeakTab n.core.instrnMemPowLeak (by decide)
      have h3 := tCI (scaleTab r8 instrnMemAreaTab) n.core.instrnMemArea ((keys_scaleTab r8 _).trans kI)
      have h4 := tCD dataMemPowDynTab n.core.dataMemPowDyn (by decide)
      have h5 := tCD dataMemPowLeakTab n.core.dataMemPowLeak (by decide)
      have h6 := tCD dataMemAreaTab n.core.dataMemArea (by decide)
      simp only [List.forall_mem_cons]
      have nil : ∀ x ∈ ([] : List (Option ℚ)), x.isSome = true := by simp
      refine (and_congr h1 (and_congr h2 (and_congr h3 (and_congr h4 (and_congr h5 (and_congr h6
        (iff_true_intro nil))))))).trans ?_
      simp only [or_and_left, and_assoc, and_true]
    · simp only [List.mem_flatMap]
      exact ⟨fun h m hm o ho => h o ⟨m, hm, ho⟩, fun h o ⟨m, hm, ho⟩ => h m hm o ho⟩
  have e_tile : ∀ t : TileObj, (∀ o ∈ tileNeeds p t, o.isSome = true) ↔ (2 ≤ t.id →
      ((((sizesOf n).tileInstrn ∈ instrnSizes ∨ (n.tile.instrnMemPowDyn.isSome ∧ n.tile.instrnMemPowLeak.isSome ∧
        n.tile.instrnMemArea.isSome)) ∧
       ((sizesOf n).edram ∈ edramSizes ∨ (n.tile.edramPowDyn.isSome ∧ n.tile.edramPowLeak.isSome ∧
        n.tile.edramArea.isSome))) ∧ ∀ c ∈ t.cores, ∀ o ∈ coreNeeds p c, o.isSome = true)) := by
    intro t
    unfold tileNeeds
    split
    · rename_i hid
      simp only [List.not_mem_nil, false_implies, implies_true, true_iff]
      intro; omega
    · rename_i hid
      rw [ti1, ti2, ti3, te1, te2, te3, List.forall_mem_append]
      have : 2 ≤ t.id := by omega
      simp only [this, forall_const]
      refine and_congr ?_ ?_
      · have h1 := tTI instrnMemPowDynTab n.tile.instrnMemPowDyn (by decide)
        have h2 := tTI instrnMemPowLeakTab n.tile.instrnMemPowLeak (by decide)
        have h3 := tTI (scaleTab r8 instrnMemAreaTab) n.tile.instrnMemArea ((keys_scaleTab r8 _).trans kI)
        have h4 := tTE edramPowDynTab n.tile.edramPowDyn (by decide)
        have h5 := tTE edramPowLeakTab n.tile.edramPowLeak (by decide)
        have h6 := tTE edramAreaTab n.tile.edramArea (by decide)
        simp only [List.forall_mem_cons]
        have nil : ∀ x ∈ ([] : List (Option ℚ)), x.isSome = true := by simp
        refine (and_congr h1 (and_congr h2 (and_congr h3 (and_congr h4 (and_congr h5 (and_congr h6
          (iff_true_intro nil))))))).trans ?_
        simp only [or_and_left, and_assoc, and_true]
      · simp only [List.mem_flatMap]
        exact ⟨fun h m hm o ho => h o ⟨m, hm, ho⟩, fun h o ⟨m, hm, ho⟩ => h m hm o ho⟩
  have e_noc : p.nocIntraPowDyn.isSome = true ↔ (sizesOf n).ports ∈ portCounts ∨ n.noc.intraPowDyn.isSome = true := by
    rw [nd]
    exact isSome_pick nocPowDynTab _ _
  have e_sim : (∀ o ∈ simNeeds p s, o.isSome = true) ↔ ∀ nd ∈ s.nodes, p.nocIntraPowDyn.isSome = true ∧
      ∀ t ∈ nd.tiles, ∀ o ∈ tileNeeds p t, o.isSome = true := by
    unfold simNeeds
    simp only [List.mem_flatMap, List.mem_cons]
    constructor
    · exact fun h m hm => ⟨h _ ⟨m, hm, .inl rfl⟩, fun t ht o ho => h o ⟨m, hm, .inr ⟨t, ht, ho⟩⟩⟩
    · rintro h o ⟨m, hm, rfl | ⟨t, ht, ho⟩⟩
      · exact (h m hm).1
      · exact (h m hm).2 t ht o ho
  rw [e_sim]
  unfold Reportable
  simp only [e_noc, e_tile, e_core, e_mvmu]
  constructor
  · rintro ⟨h1, h2⟩
    exact ⟨fun m hm => ⟨h2 m hm, (h1 m hm).1⟩, fun m hm => (h1 m hm).2⟩
  · rintro ⟨h1, h2⟩
    exact ⟨fun m hm => ⟨(h1 m hm).2, h2 m hm⟩, fun m hm => (h1 m hm).1⟩

/-- **C68, supported sizes.** With all sizes in the tables the configuration is accepted, networks can be
built, and every simulator whose nodes have tiles gives a report in every state. -/
theorem C68_supported (r8 : ℚ) (n : Numbers) (h : Supported (sizesOf n)) :
    ∃ n' p, n.init r8 = .ok n' ∧ n'.power = .ok p ∧
      ∀ (s : Sim) (hp : Heap), (∀ nd ∈ s.nodes, nd.tiles ≠ []) → ∃ d h', s.getStats p hp = .ok (d, h') := by
  have e := init_of_supported r8 n h
  have h0 : n.noc.numPort ≠ 0 := by
    have hc : ∀ k ∈ portCounts, k ≠ 0 := by decide
    exact hc _ h.ports
  obtain ⟨p, hp⟩ := (C68_network_iff r8 n _ e).2 ⟨h0, .inl h.ports⟩
  refine ⟨_, p, e, hp, fun s x hn => (C68_report_iff r8 n _ e p hp s x).2 ?_⟩
  refine ⟨fun nd hnd => ⟨hn nd hnd, .inl h.ports⟩, fun nd _ tl _ _ => ⟨⟨.inl h.tileInstrn, .inl h.edram⟩, fun co _ =>
    ⟨⟨.inl h.coreInstrn, .inl h.dataMem⟩, fun m _ => ⟨.inl h.xbar, fun _ => ⟨.inl h.xbar, .inl h.dac, .inl h.adc⟩,
      fun _ => .inl h.xbar⟩⟩⟩⟩

/-- **C68, no negative energy or area.** If the sizes are in the tables, the user's numbers are not
negative and the counters of the simulator are not, then no entry of the report is negative. -/
theorem C68_nonneg (r8 : ℚ) (hr : 0 ≤ r8) (n n' : Numbers) (hs : Supported (sizesOf n)) (hn : NonnegScalars n)
    (h : n.init r8 = .ok n') (p : Power) (hp : n'.power = .ok p) (s : Sim) (hc : ∀ x ∈ simCounters s, 0 ≤ x)
    (x : Heap) (d : StatsDict) (x' : Heap) (he : s.getStats p x = .ok (d, x')) :
    ∀ k, NonnegStats (statOf d x' k) := by
  intro k
  rw [(C48_report p s x d x' he).1 k]
  rw [init_done h] at hp
  exact costs_total (costs_sim (powerNonneg_done r8 hr n hs hn p hp) s hc) k

/-- **C69.** Larger memories, crossbars, converters and networks never cost less: for two configurations
that differ in sizes only, all sizes in the tables and none larger in the first, the reports on the same
simulator in the same state have the same counts, and no energy or area is larger in the first. -/
theorem C69_larger_costs_more (r8 : ℚ) (hr : 0 ≤ r8) (n : Numbers) (a b : Sizes) (ha : Supported a) (hb : Supported b)
    (hab : SizesLe a b) (na nb : Numbers) (ea : (withSizes n a).init r8 = .ok na) (eb : (withSizes n b).init r8 = .ok nb)
    (p q : Power) (hp : na.power = .ok p) (hq : nb.power = .ok q) (s : Sim) (hc : ∀ x ∈ simCounters s, 0 ≤ x)
    (x y : Heap) (d e : StatsDict) (x' y' : Heap) (hd : s.getStats p x = .ok (d, x')) (he : s.getStats q y = .ok (e, y')) :
    ∀ k, CheaperStats (statOf d x' k) (statOf e y' k) := by
  intro k
  rw [(C48_report p s x d x' hd).1 k, (C48_report q s y e y' he).1 k]
  rw [init_done ea] at hp
  rw [init_done eb] at hq
  exact cheaper_total (cheaper_sim (powerLe_done r8 hr n a b ha hb hab p q hp hq) s hc) k

/-- The power numbers after construction. -/
def Tables.Numbers.madePower (n : Numbers) : Power := match n.made.power with | .ok p => p | .error _ => demoPower

theorem default_power : ({} : Numbers).made.power = .ok ({} : Numbers).madePower := by decide +kernel

/-- The report on the demonstration simulator. -/
def demoReportOf (p : Power) : StatsDict × Heap :=
  match demoSim.getStats p [] with | .ok r => r | .error _ => ([], [])

theorem default_report : demoSim.getStats ({} : Numbers).madePower [] =
    .ok ((demoReportOf ({} : Numbers).madePower).1, (demoReportOf ({} : Numbers).madePower).2) := by decide +kernel

theorem demo_counters : ∀ x ∈ simCounters demoSim, 0 ≤ x := by decide +kernel

example := C68_supported (14 / 5) {} default_supported
example := C68_nonneg (14 / 5) (by norm_num) {} _ default_supported (by unfold NonnegScalars; decide +kernel) default_init _
  default_power demoSim demo_counters [] _ _ default_report
-- 11 busy cycles, three routers: two of them leak for one cycle, the third for 7; 3 * (1 + 1) accesses to buffers
example : statOf (demoReportOf ({} : Numbers).madePower).1 (demoReportOf ({} : Numbers).madePower).2 "Router" =
    ⟨6, 3 * (1 + 1) * (4.48 * 2) + 11 * 16.13, (1 + 1 + 7) * 0.18, 3 * 0.0044⟩ := by decide +kernel

/-- Crossbars of 32 rows and memories of 256 cells. -/
def smallSizes : Sizes := ⟨0.025, 4, 8, 256, 256, 256, 1, 32, 1⟩

theorem small_supported : Supported smallSizes :=
  ⟨by decide +kernel, by decide, by decide, by decide, by decide, by decide, by decide, by decide, by decide⟩

theorem small_init : (withSizes {} smallSizes).init (14 / 5) = .ok (withSizes {} smallSizes).made := by decide +kernel
theorem small_power : (withSizes {} smallSizes).made.power = .ok (withSizes {} smallSizes).madePower := by decide +kernel
theorem small_report : demoSim.getStats (withSizes {} smallSizes).madePower [] =
    .ok ((demoReportOf (withSizes {} smallSizes).madePower).1, (demoReportOf (withSizes {} smallSizes).madePower).2) := by
  decide +kernel

example := C69_larger_costs_more (14 / 5) (by norm_num) {} smallSizes (sizesOf {}) small_supported default_supported
  ⟨by decide, by decide, by decide, by decide, by decide, by decide, by decide, by decide⟩ _ _ small_init default_init _ _
  small_power default_power demoSim demo_counters [] [] _ _ _ _ small_report default_report
example : (statOf (demoReportOf (withSizes {} smallSizes).madePower).1 (demoReportOf (withSizes {} smallSizes).madePower).2
      "ADC").leakageEnergy
    < (statOf (demoReportOf ({} : Numbers).madePower).1 (demoReportOf ({} : Numbers).madePower).2 "ADC").leakageEnergy := by
  decide +kernel

-- A DAC of 3 bits: everything can be built, but there is no report on a simulator with a crossbar.
example : oddNumbers.made.power = .ok oddNumbers.madePower ∧
    demoSim.getStats oddNumbers.madePower [] = .error .typeError := by decide +kernel

end Ramwich
