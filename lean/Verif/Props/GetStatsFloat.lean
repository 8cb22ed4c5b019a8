import Verif.Lemmas.GetStatsFloatParts
import Verif.Props.GetStats

/-! # The report in float64 (C107) -/
namespace Ramwich

open Spec

theorem close_of_near {n : Nat} {a x : ℚ} (h : Near n a x) (hn : n ≤ 2 ^ 52) : closeTo n a x := by
  obtain ⟨ha, hx, h1, h2⟩ := h
  have hu := ulp_pos
  have hb : 1 + (n : ℚ) * (-ulp) ≤ (1 + (-ulp)) ^ n := one_add_mul_le_pow (by have := ulp_lt; linarith) n
  rw [← sub_eq_add_neg] at hb
  have hnu : (n : ℚ) * ulp ≤ 1 / 2 := by
    have : (n : ℚ) ≤ 2 ^ 52 := by exact_mod_cast hn
    unfold ulp
    rw [mul_one_div, div_le_iff₀ (by positivity)]
    calc (n : ℚ) ≤ 2 ^ 52 := this
      _ = 1 / 2 * 2 ^ 53 := by norm_num
  have hnu0 : 0 ≤ (n : ℚ) * ulp := by positivity
  have e : (n : ℚ) / 2 ^ 52 * x = 2 * (n * ulp) * x := by unfold ulp; ring
  unfold closeTo
  rw [e, abs_le]
  have l1 : x * (1 - n * ulp) ≤ a := le_trans (mul_le_mul_of_nonneg_left (by linarith) hx) h1
  have l2 : a * (1 - n * ulp) ≤ x := le_trans (mul_le_mul_of_nonneg_left (by linarith) ha) h2
  have l3 : a ≤ 2 * x := by nlinarith
  constructor
  · nlinarith
  · nlinarith

theorem count_namesOf (cs : List Component) (k : String) : (namesOf cs).count k = componentsNamed cs k := by
  unfold namesOf componentsNamed
  induction cs with
  | nil => rfl
  | cons c cs ih =>
    rw [List.map_cons, List.count_cons, List.filter_cons, ih]
    by_cases h : c.name = k <;> simp [h]

/-- **C107, outcome.** The float64 report raises exactly the exception of the exact report, or both return
dictionaries with the same names in the same order. -/
theorem C107_outcome (p : Power) (s : Sim) (hn : nonNegative p s) (h : Heap) :
    (∃ e, s.getStats p h = .error e ∧ s.getStatsF p h = .error e) ∨
    ∃ d dF h' hF', s.getStats p h = .ok (d, h') ∧ s.getStatsF p h = .ok (dF, hF') ∧ names dF = names d := by
  rcases follows_sim p s hn h h rfl with he | ⟨d, h', hF', e1, e2, -⟩
  · exact Or.inl he
  · exact Or.inr ⟨d, d, h', hF', e1, e2, rfl⟩

theorem floatReport (p : Power) (s : Sim) (hn : nonNegative p s) (h : Heap) (d : StatsDict) (hF : Heap)
    (hr : s.getStatsF p h = .ok (d, hF)) :
    ∃ h', s.getStats p h = .ok (d, h') ∧ Parallel 6 h h d h' hF (namesOf (simComponents p s)) := by
  rcases follows_sim p s hn h h rfl with ⟨e, e1, e2⟩ | ⟨d', h', hF', e1, e2, g⟩
  · rw [e2] at hr; cases hr
  · rw [e2] at hr
    simp only [Except.ok.injEq, Prod.mk.injEq] at hr
    obtain ⟨rfl, rfl⟩ := hr
    exact ⟨h', e1, g⟩

/-- **C107.** In a float64 report the activation counts are exact, and each energy and area is the exact sum over
the components of that name up to `(m + 6) · 2^-52` of it, where `m` is the number of those components. -/
theorem C107_report (p : Power) (s : Sim) (hn : nonNegative p s) (h : Heap) (d : StatsDict) (h' : Heap)
    (hr : s.getStatsF p h = .ok (d, h')) (k : String) (m : Nat) (hm : m = componentsNamed (simComponents p s) k + 6)
    (hsize : m ≤ 2 ^ 52) :
    (statOf d h' k).activationCount = (reportTotal (simComponents p s) k).activationCount ∧
    closeTo m (statOf d h' k).dynamicEnergy (reportTotal (simComponents p s) k).dynamicEnergy ∧
    closeTo m (statOf d h' k).leakageEnergy (reportTotal (simComponents p s) k).leakageEnergy ∧
    closeTo m (statOf d h' k).area (reportTotal (simComponents p s) k).area := by
  obtain ⟨h1, e1, g⟩ := floatReport p s hn h d h' hr
  have gk := g.near k
  rw [count_namesOf, ← hm, (C48_report p s h d h1 e1).1 k] at gk
  exact ⟨gk.count, close_of_near gk.dyn hsize, close_of_near gk.leak hsize, close_of_near gk.area hsize⟩

theorem summaryF_near (d : StatsDict) (h hF : Heap) (ns : List String) (c : Nat) (s sF : Stats) (n : Nat)
    (hs : NearStats (n + c + 1) sF s)
    (hd : ∀ e ∈ d, 1 ≤ ns.count e.1 ∧ NearStats (ns.count e.1 + c) (hF.get e.2) (h.get e.2)) :
    NearStats (n + (d.map fun e => ns.count e.1).sum + c + 1) (d.foldl (fun s e => s.mergeF (hF.get e.2)) sF)
      (d.foldl (fun s e => s.merge (h.get e.2)) s) := by
  induction d generalizing s sF n with
  | nil => simpa using hs
  | cons e d ih =>
    rw [List.foldl_cons, List.foldl_cons]
    obtain ⟨h1, h2⟩ := hd e List.mem_cons_self
    have := ih _ _ (n + ns.count e.1) (nearStats_merge hs h2 (k := n + ns.count e.1 + c + 1) (by omega) (by omega))
      (fun x hx => hd x (List.mem_cons_of_mem _ hx))
    rw [List.map_cons, List.sum_cons, ← Nat.add_assoc n]
    exact this

theorem counts_le (l ns : List String) (hl : l.Nodup) : (l.map fun k => ns.count k).sum ≤ ns.length := by
  induction ns with
  | nil => simp
  | cons x ns ih =>
    have one : ∀ l : List String, l.Nodup → (l.map fun k => if (x == k) = true then 1 else 0).sum ≤ 1 := by
      intro l
      induction l with
      | nil => simp
      | cons y l ih' =>
        intro hn
        rw [List.nodup_cons] at hn
        rw [List.map_cons, List.sum_cons]
        by_cases hy : x = y
        · have : (l.map fun k => if (x == k) = true then 1 else 0).sum = 0 := by
            rw [List.map_congr_left (g := fun _ => (0 : Nat))
              (fun k hk => if_neg (by simp; rintro rfl; exact hn.1 (hy ▸ hk)))]
            simp
          rw [this]; split <;> omega
        · have := ih' hn.2
          simp only [beq_iff_eq, hy, if_false] at this ⊢
          omega
    have h1 := one l hl
    simp only [List.count_cons, List.sum_map_add, List.length_cons]
    omega

/-- The summary of a float64 report. -/
theorem summary_follows (p : Power) (s : Sim) (hn : nonNegative p s) (h : Heap) (d : StatsDict) (h' : Heap)
    (hr : s.getStatsF p h = .ok (d, h')) :
    NearStats ((simComponents p s).length + 7) (d.summaryF h')
      ((simComponents p s).map Component.contribution).sum := by
  obtain ⟨h1, e1, g⟩ := floatReport p s hn h d h' hr
  rw [← C48_summary p s h d h1 e1]
  have := summaryF_near d h1 h' (namesOf (simComponents p s)) 6 0 0 0 (nearStats_zero _) (by
    intro e he
    have hf := find_of_mem d g.wf.names e.1 e.2 he
    have gk := g.near e.1
    rw [statOf_some hf, statOf_some hf] at gk
    exact ⟨List.count_pos_iff.2 ((g.keys _).1 (mem_names_of_find hf)), gk⟩)
  apply nearStats_mono this
  have hc := counts_le (names d) (namesOf (simComponents p s)) g.wf.names
  have e : (d.map fun e => (namesOf (simComponents p s)).count e.1)
      = (names d).map fun k => (namesOf (simComponents p s)).count k := by
    unfold names; rw [List.map_map]; rfl
  rw [e]
  have : (namesOf (simComponents p s)).length = (simComponents p s).length := by simp [namesOf]
  omega

/-- **C107, totals.** The summary of a float64 report is the sum over all components up to
`(m + 7) · 2^-52` of it, where `m` is the number of all components; the count is exact. -/
theorem C107_summary (p : Power) (s : Sim) (hn : nonNegative p s) (h : Heap) (d : StatsDict) (h' : Heap)
    (hr : s.getStatsF p h = .ok (d, h')) (m : Nat) (hm : m = (simComponents p s).length + 7) (hsize : m ≤ 2 ^ 52) :
    let total := ((simComponents p s).map Component.contribution).sum
    (d.summaryF h').activationCount = total.activationCount ∧
    closeTo m (d.summaryF h').dynamicEnergy total.dynamicEnergy ∧
    closeTo m (d.summaryF h').leakageEnergy total.leakageEnergy ∧
    closeTo m (d.summaryF h').area total.area := by
  have g := summary_follows p s hn h d h' hr
  rw [← hm] at g
  exact ⟨g.count, close_of_near g.dyn hsize, close_of_near g.leak hsize, close_of_near g.area hsize⟩

/-- **C107, what is printed.** The totals that `print` shows are the energies of all components, from picojoules to
joules, and the area, up to `(m + 9) · 2^-52` of them. -/
theorem C107_printed (p : Power) (s : Sim) (hn : nonNegative p s) (h : Heap) (d : StatsDict) (h' : Heap)
    (hr : s.getStatsF p h = .ok (d, h')) (m : Nat) (hm : m = (simComponents p s).length + 9) (hsize : m ≤ 2 ^ 52) :
    let total := ((simComponents p s).map Component.contribution).sum
    closeTo m (d.printedTotals h').1 (total.dynamicEnergy / 10 ^ 12) ∧
    closeTo m (d.printedTotals h').2.1 (total.leakageEnergy / 10 ^ 12) ∧
    closeTo m (d.printedTotals h').2.2 total.area := by
  have g := summary_follows p s hn h d h' hr
  have tiny : Near 1 (f64 (1 / 10 ^ 12)) (1 / 10 ^ 12) := near_f64 (near_refl _ (by positivity))
  unfold StatsDict.printedTotals
  dsimp only
  have g1 := near_f64 (near_mul g.dyn tiny)
  have g2 := near_f64 (near_mul g.leak tiny)
  rw [← div_eq_mul_one_div] at g1 g2
  exact ⟨close_of_near (near_mono g1 (Nat.le_of_eq hm.symm)) hsize, close_of_near (near_mono g2 (Nat.le_of_eq hm.symm)) hsize,
    close_of_near (near_mono g.area (by omega)) hsize⟩

theorem demo_nonneg : nonNegative demoPower demoSim := ⟨by decide +kernel, by decide +kernel⟩

/-- The float64 report on it. -/
def demoReportF : StatsDict × Heap := match demoSim.getStatsF demoPower [] with | .ok r => r | .error _ => ([], [])

theorem demoReportF_eq : demoSim.getStatsF demoPower [] = .ok (demoReportF.1, demoReportF.2) := by decide +kernel

example := C107_outcome demoPower demoSim demo_nonneg []
example := C107_report demoPower demoSim demo_nonneg [] demoReportF.1 demoReportF.2 demoReportF_eq "Router" 10
  (by decide +kernel) (by norm_num)
example := C107_summary demoPower demoSim demo_nonneg [] demoReportF.1 demoReportF.2 demoReportF_eq _ rfl
  (by decide +kernel)
example := C107_printed demoPower demoSim demo_nonneg [] demoReportF.1 demoReportF.2 demoReportF_eq _ rfl
  (by decide +kernel)

/-- One tile whose router sent one packet to another node. -/
def packetSim : Sim :=
  let tile : TileObj :=
    { id := 0, ctrl := Ctrl.new 4, cores := [], router := { stats := { created := 1, sent := 1, sentInter := 1 } } }
  { config := demoCoreBuilt, nodes := [⟨0, [tile], 0, false⟩] }

/-- A picojoule for a packet to another node. -/
def packetPower : Power := { demoPower with nocInterPowDyn := 1 }

/-- The float64 report on it. -/
def packetReport : StatsDict × Heap :=
  match packetSim.getStatsF packetPower [] with | .ok r => r | .error _ => ([], [])

/-- **C107, the error is there.** A twelfth of the energy of a packet is no float64, so its report is not exact. -/
theorem C107_rounding_witness :
    ∃ (p : Power) (s : Sim) (d : StatsDict) (h : Heap), nonNegative p s ∧ s.getStatsF p [] = .ok (d, h) ∧
      (statOf d h "Router").dynamicEnergy ≠ (reportTotal (simComponents p s) "Router").dynamicEnergy := by
  refine ⟨packetPower, packetSim, packetReport.1, packetReport.2, ⟨by decide +kernel, by decide +kernel⟩, ?_, ?_⟩
  · decide +kernel
  · decide +kernel

end Ramwich
