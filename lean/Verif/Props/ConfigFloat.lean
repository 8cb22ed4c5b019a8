import Verif.Lemmas.ConfigFloat
import Verif.Props.GetStatsFloat

/-! # The numbers of config.py in float64, and reports with them (C112) -/
namespace Ramwich

open Spec Tables

/-- **C112, the default values.** The float64 values of the default formulas of config.py are non-negative and within
three roundings of the exact ones; the two that are multiplied are within one. -/
theorem C112_defaults : nearNumbers 1 3 Numbers.floatDefaults {} := by
  refine ⟨?_, ?_, ?_, ?_⟩
  · constructor <;> first | rfl | trivial | (unfold upTo; decide +kernel) | decide +kernel
  · constructor <;> first | rfl | trivial | (unfold upTo; decide +kernel)
  · constructor <;> first | rfl | trivial | (unfold upTo; decide +kernel)
  · constructor
    case dac => constructor <;> first | rfl | trivial
    case xbar => constructor <;> first | rfl | trivial | (unfold upTo; decide +kernel)
    case adc => constructor <;> first | rfl | trivial
    all_goals (unfold upTo; decide +kernel)

/-- **C112, a given value.** A non-negative decimal of a configuration file becomes a float64 within one rounding, and
a missing one stays missing. -/
theorem C112_given (x : ℚ) (hx : 0 ≤ x) (n : Nat) (hn : 1 ≤ n) : upTo n (f64 x) x ∧ upTo? n (some (f64 x)) (some x) :=
  ⟨near_mono (near_f64 (near_refl x hx)) (by omega), near_mono (near_f64 (near_refl x hx)) (by omega)⟩

/-- **C112, the numbers of a report.** If the numbers before the lookups are within `j` roundings (those that are
multiplied within `i`), then the lookups in float64 raise the exception of the exact lookups, or all numbers that a
report reads are within `j` roundings and the same ones are missing. -/
theorem C112_numbers (i j : Nat) (hi : 2 * i + 1 ≤ j) (hj : 3 ≤ j) (r8F r8 : ℚ) (hr : upTo 1 r8F r8) (nF n : Numbers)
    (h : nearNumbers i j nF n) :
    (∃ e, (nF.initF r8F >>= Numbers.power) = .error e ∧ (n.init r8 >>= Numbers.power) = .error e) ∨
    ∃ pF p, (nF.initF r8F >>= Numbers.power) = .ok pF ∧ (n.init r8 >>= Numbers.power) = .ok p ∧ nearPower j pF p := by
  have g : Outcome (nearPower j) (nF.initF r8F >>= Numbers.power) (n.init r8 >>= Numbers.power) :=
    (outcome_init (by omega) hj hr h).bind fun _ _ h => outcome_power h
  revert g
  cases nF.initF r8F >>= Numbers.power <;> cases n.init r8 >>= Numbers.power <;> intro g
  · exact .inl ⟨_, rfl, congrArg _ (Eq.symm g)⟩
  · exact g.elim
  · exact g.elim
  · exact .inr ⟨_, _, rfl, rfl, g⟩

theorem named_eq {n : Nat} {as xs : List Component} (h : List.Forall₂ (NearComponent n) as xs) (k : String) :
    componentsNamed as k = componentsNamed xs k := by
  unfold componentsNamed
  induction h with
  | nil => rfl
  | cons h _ ih =>
    simp only [List.filter_cons, h.name]
    split
    · rw [List.length_cons, List.length_cons, ih]
    · exact ih

/-- **C112, the report.** In a float64 report with numbers within `j` roundings of exact ones, the activation counts
are exact and each energy and area is the sum over the components of that name with the exact numbers, up to
`(m + 6 + j) · 2^-52` of it, where `m` is the number of those components. -/
theorem C112_report (j : Nat) (pF p : Power) (hp : nearPower j pF p) (s : Sim) (hc : ∀ c ∈ allCounters s, 0 ≤ c)
    (h : Heap) (d : StatsDict) (h' : Heap) (hr : s.getStatsF pF h = .ok (d, h')) (k : String) (m : Nat)
    (hm : m = componentsNamed (simComponents p s) k + 6 + j) (hsize : m ≤ 2 ^ 52) :
    (statOf d h' k).activationCount = (reportTotal (simComponents p s) k).activationCount ∧
    closeTo m (statOf d h' k).dynamicEnergy (reportTotal (simComponents p s) k).dynamicEnergy ∧
    closeTo m (statOf d h' k).leakageEnergy (reportTotal (simComponents p s) k).leakageEnergy ∧
    closeTo m (statOf d h' k).area (reportTotal (simComponents p s) k).area := by
  have hP := nearP_of hp
  have hn : nonNegative pF s := ⟨near_nonneg hP, hc⟩
  have hs := near_sim hP s hc
  obtain ⟨h1, e1, g⟩ := floatReport pF s hn h d h' hr
  have gk := g.near k
  rw [count_namesOf, named_eq hs, (C48_report pF s h d h1 e1).1 k] at gk
  have gt := nearStats_trans gk (near_sum hs k).1
  rw [← hm] at gt
  exact ⟨gt.count, close_of_near gt.dyn hsize, close_of_near gt.leak hsize, close_of_near gt.area hsize⟩

/-- **C112, when there is a report.** The float64 report with these numbers returns exactly if the exact report with the
exact numbers does. -/
theorem C112_returns (j : Nat) (pF p : Power) (hp : nearPower j pF p) (s : Sim) (hc : ∀ c ∈ allCounters s, 0 ≤ c)
    (h : Heap) : (∃ d h', s.getStatsF pF h = .ok (d, h')) ↔ ∃ d h', s.getStats p h = .ok (d, h') := by
  have hn : nonNegative pF s := ⟨near_nonneg (nearP_of hp), hc⟩
  rw [C48_succeeds, ← needs_iff (needs_sim hp s), ← C48_succeeds pF s h]
  rcases C107_outcome pF s hn h with ⟨e, e1, e2⟩ | ⟨d, dF, h1, h2, e1, e2, -⟩
  · rw [e1, e2]
  · exact ⟨fun _ => ⟨d, h1, e1⟩, fun _ => ⟨dF, h2, e2⟩⟩

/-- **C112, what is printed.** The totals that `print` shows are those of all components with the exact numbers, in
joules, up to `(m + 9 + j) · 2^-52` of them, where `m` is the number of all components. -/
theorem C112_printed (j : Nat) (pF p : Power) (hp : nearPower j pF p) (s : Sim) (hc : ∀ c ∈ allCounters s, 0 ≤ c)
    (h : Heap) (d : StatsDict) (h' : Heap) (hr : s.getStatsF pF h = .ok (d, h')) (m : Nat)
    (hm : m = (simComponents p s).length + 9 + j) (hsize : m ≤ 2 ^ 52) :
    let total := ((simComponents p s).map Component.contribution).sum
    closeTo m (d.printedTotals h').1 (total.dynamicEnergy / 10 ^ 12) ∧
    closeTo m (d.printedTotals h').2.1 (total.leakageEnergy / 10 ^ 12) ∧
    closeTo m (d.printedTotals h').2.2 total.area := by
  have hP := nearP_of hp
  have hs := near_sim hP s hc
  have g0 := summary_follows pF s ⟨near_nonneg hP, hc⟩ h d h' hr
  rw [hs.length_eq] at g0
  have g := nearStats_trans g0 (near_sum hs "").2
  have tiny : Near 1 (f64 (1 / 10 ^ 12)) (1 / 10 ^ 12) := near_f64 (near_refl _ (by positivity))
  unfold StatsDict.printedTotals
  dsimp only
  have g1 := near_f64 (near_mul g.dyn tiny)
  have g2 := near_f64 (near_mul g.leak tiny)
  rw [← div_eq_mul_one_div] at g1 g2
  exact ⟨close_of_near (near_mono g1 (by omega)) hsize, close_of_near (near_mono g2 (by omega)) hsize,
    close_of_near (near_mono g.area (by omega)) hsize⟩

/-- **C112, together.** A configuration in float64, its lookups, and a report that it prints: if numbers are within
three roundings (defaults and given decimals are), then the exact configuration is accepted too, and the printed totals
are those of the exact numbers up to `(m + 12) · 2^-52` of them. -/
theorem C112_config (r8F r8 : ℚ) (hr8 : upTo 1 r8F r8) (nF n : Numbers) (hn : nearNumbers 1 3 nF n) (pF : Power)
    (hpF : (nF.initF r8F >>= Numbers.power) = .ok pF) (s : Sim) (hc : ∀ c ∈ allCounters s, 0 ≤ c) (h : Heap)
    (d : StatsDict) (h' : Heap) (hr : s.getStatsF pF h = .ok (d, h')) :
    ∃ p, (n.init r8 >>= Numbers.power) = .ok p ∧
      ∀ m, m = (simComponents p s).length + 12 → m ≤ 2 ^ 52 →
        let total := ((simComponents p s).map Component.contribution).sum
        closeTo m (d.printedTotals h').1 (total.dynamicEnergy / 10 ^ 12) ∧
        closeTo m (d.printedTotals h').2.1 (total.leakageEnergy / 10 ^ 12) ∧
        closeTo m (d.printedTotals h').2.2 total.area := by
  rcases C112_numbers 1 3 (by norm_num) le_rfl r8F r8 hr8 nF n hn with ⟨e, e1, -⟩ | ⟨pF', p, e1, e2, hp⟩
  · rw [e1] at hpF; cases hpF
  · rw [e1] at hpF
    cases hpF
    exact ⟨p, e2, fun m hm hsize => C112_printed 3 pF p hp s hc h d h' hr m hm hsize⟩

/-- The float64 `math.sqrt(8)`. -/
def sqrt8F : ℚ := 6369051672525773 / 2 ^ 51

/-- The square root of 8 to 30 digits. -/
def sqrt8 : ℚ := 2.828427124746190097603377448419

theorem sqrt8_near : upTo 1 sqrt8F sqrt8 := by unfold upTo; decide +kernel

example : |sqrt8 ^ 2 - 8| < 1 / 10 ^ 29 := by decide +kernel

/-- The numbers of the default configuration in float64. -/
def defaultPowerF : Power :=
  match Numbers.floatDefaults.initF sqrt8F >>= Numbers.power with | .ok p => p | .error _ => demoPower

theorem defaultPowerF_eq : (Numbers.floatDefaults.initF sqrt8F >>= Numbers.power) = .ok defaultPowerF := by
  decide +kernel

/-- The float64 report with them on a simulator. -/
def defaultReportF : StatsDict × Heap :=
  match demoSim.getStatsF defaultPowerF [] with | .ok r => r | .error _ => ([], [])

theorem defaultReportF_eq : demoSim.getStatsF defaultPowerF [] = .ok (defaultReportF.1, defaultReportF.2) := by
  decide +kernel

example := C112_numbers 1 3 (by norm_num) le_rfl sqrt8F sqrt8 sqrt8_near _ _ C112_defaults
example := C112_config sqrt8F sqrt8 sqrt8_near _ _ C112_defaults defaultPowerF defaultPowerF_eq demoSim
  demo_nonneg.counters [] defaultReportF.1 defaultReportF.2 defaultReportF_eq
example (p : Power) (hp : nearPower 3 defaultPowerF p) : ∃ d h', demoSim.getStats p [] = .ok (d, h') :=
  (C112_returns 3 defaultPowerF p hp demoSim demo_nonneg.counters []).1 ⟨_, _, defaultReportF_eq⟩
example (p : Power) (hp : nearPower 3 defaultPowerF p) := C112_report 3 defaultPowerF p hp demoSim demo_nonneg.counters []
  defaultReportF.1 defaultReportF.2 defaultReportF_eq "Router"

/-- A user who gives the area of the activation unit: the relation holds for what is given too. -/
example : nearNumbers 1 3 { Numbers.floatDefaults with core := { Numbers.floatDefaults.core with actArea := f64 0.1 } }
    { core := { actArea := 0.1 } } :=
  ⟨C112_defaults.noc, C112_defaults.tile,
    { C112_defaults.core with actArea := (C112_given 0.1 (by norm_num) 3 (by norm_num)).1 }, C112_defaults.mvmu⟩

/-- The exact numbers of the default configuration. -/
def defaultPower : Power := match ({} : Numbers).init sqrt8 >>= Numbers.power with | .ok p => p | .error _ => demoPower

/-- **C112, the error is there.** With the default configuration the power of the shift-and-add unit and that of a
crossbar are not the exact ones. -/
theorem C112_rounding_witness :
    ∃ (nF n : Numbers) (pF p : Power), nearNumbers 1 3 nF n ∧ (nF.initF sqrt8F >>= Numbers.power) = .ok pF ∧
      (n.init sqrt8 >>= Numbers.power) = .ok p ∧ pF.snaPowDyn ≠ p.snaPowDyn ∧ pF.xbarPow ≠ p.xbarPow :=
  ⟨_, _, defaultPowerF, defaultPower, C112_defaults, defaultPowerF_eq, by decide +kernel, by decide +kernel,
    by decide +kernel⟩

end Ramwich
