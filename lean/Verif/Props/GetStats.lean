import Verif.Lemmas.GetStatsOk
import Verif.Props.Core

/-! # Reports (C48, C49) -/
namespace Ramwich

open Spec

theorem yields_ok {c : StatsCall} {ps : Parts} (y : Yields c ps) {h : Heap} {d : StatsDict} {h' : Heap}
    (e : c h = .ok (d, h')) : Gives h d h' ps := by
  rcases y with ⟨e', he⟩ | hg
  · rw [he] at e; cases e
  · obtain ⟨d2, h2, e2, g⟩ := hg h
    rw [e2] at e
    simp only [Except.ok.injEq, Prod.mk.injEq] at e
    obtain ⟨rfl, rfl⟩ := e
    exact g

theorem mem_names_parts (cs : List Component) (k : String) :
    k ∈ (partsOf cs).map (·.1) ↔ ∃ c ∈ cs, c.name = k := by simp [partsOf]

/-- **C48.** A report of the simulator has, under each name, the sum of the contributions of all
components of that name: counts, energies and areas of all nodes, tiles, cores and MVMUs are added once
each, and the leakage of a component is its leakage per cycle times the cycles of its level. No name is
lost and none is invented. -/
theorem C48_report (p : Power) (s : Sim) (h : Heap) (d : StatsDict) (h' : Heap)
    (hr : s.getStats p h = .ok (d, h')) :
    (∀ k, statOf d h' k = reportTotal (simComponents p s) k) ∧
    (∀ k, k ∈ names d ↔ ∃ c ∈ simComponents p s, c.name = k) := by
  have g := yields_ok (yields_sim p s) hr
  exact ⟨fun k => (g.sum k).trans (reportTotal_eq _ k).symm, fun k => (g.keys k).trans (mem_names_parts _ k)⟩

/-- **C48, lower levels.** The same for the report of a core, a tile or a node. -/
theorem C48_report_levels (p : Power) (h : Heap) (d : StatsDict) (h' : Heap) :
    (∀ c : CoreObj, c.getStats p h = .ok (d, h') → ∀ k, statOf d h' k = reportTotal (coreComponents p c) k) ∧
    (∀ t : TileObj, t.getStats p h = .ok (d, h') → ∀ k, statOf d h' k = reportTotal (tileComponents p t) k) ∧
    (∀ n : NodeObj, n.getStats p h = .ok (d, h') → ∀ k, statOf d h' k = reportTotal (nodeComponents p n) k) :=
  ⟨fun c e k => ((yields_ok (yields_core p c) e).sum k).trans (reportTotal_eq _ k).symm,
    fun t e k => ((yields_ok (yields_tile p t) e).sum k).trans (reportTotal_eq _ k).symm,
    fun n e k => ((yields_ok (yields_node p n) e).sum k).trans (reportTotal_eq _ k).symm⟩

theorem sum_by_names (ps : Parts) (l : List String) (hl : l.Nodup) (hs : ∀ k ∈ ps.map (·.1), k ∈ l) :
    (l.map fun k => sumOf k ps).sum = (ps.map (·.2)).sum := by
  induction ps with
  | nil => simp
  | cons x ps ih =>
    have hx : x.1 ∈ l := hs _ (by simp)
    have one : ∀ l : List String, l.Nodup → x.1 ∈ l → (l.map fun k => if x.1 = k then x.2 else 0).sum = x.2 := by
      intro l
      induction l with
      | nil => intro _ h; cases h
      | cons y l ih' =>
        intro hn hm
        rw [List.nodup_cons] at hn
        rw [List.map_cons, List.sum_cons]
        by_cases hy : x.1 = y
        · rw [if_pos hy]
          have : (l.map fun k => if x.1 = k then x.2 else 0).sum = 0 := by
            rw [List.map_congr_left (g := fun _ => (0 : Stats))
              (fun k hk => if_neg (by rintro rfl; exact hn.1 (hy ▸ hk)))]
            simp
          rw [this, add_zero]
        · rw [if_neg hy, zero_add]
          exact ih' hn.2 (by simpa [hy] using hm)
    simp only [sumOf_cons, List.sum_map_add, List.map_cons, List.sum_cons]
    rw [one l hl hx, ih fun k hk => hs k (by simp [List.mem_map] at hk ⊢; right; exact hk)]

/-- **C48, totals.** The summary of the report is the sum over all components. -/
theorem C48_summary (p : Power) (s : Sim) (h : Heap) (d : StatsDict) (h' : Heap)
    (hr : s.getStats p h = .ok (d, h')) :
    d.summary h' = ((simComponents p s).map Component.contribution).sum := by
  have g := yields_ok (yields_sim p s) hr
  rw [summary_names d h' g.wf.names, List.map_congr_left (fun k _ => g.sum k),
    sum_by_names _ _ g.wf.names fun k hk => (g.keys k).2 hk]
  simp [partsOf, Function.comp_def]

/-- **C48, when there is a report.** `get_stats` returns exactly if every table entry the report needs is
there and every node has a tile. -/
theorem C48_succeeds (p : Power) (s : Sim) (h : Heap) :
    (∃ d h', s.getStats p h = .ok (d, h')) ↔
      (∀ o ∈ simNeeds p s, o.isSome = true) ∧ ∀ n ∈ s.nodes, n.tiles ≠ [] := okIff_sim p s h

/-- A node with no tile has no "Router" entry to add the network's energy to. -/
theorem C48_no_tiles_witness (p : Power) (c : Config) (h : Heap) (hp : p.nocIntraPowDyn.isSome = true) :
    ({ config := c, nodes := [⟨0, [], 0, false⟩] } : Sim).getStats p h = .error .keyError := by
  obtain ⟨x, hx⟩ := Option.isSome_iff_exists.1 hp
  cases p
  subst hx
  rfl

/-- **C49.** Calls of `get_stats` do not affect each other. The second call returns a dictionary with the
same names and numbers as the first; it consists of new objects, so nothing done to one dictionary shows
in the other; the first keeps its numbers, and so does every other object that existed before. (`get_stats`
has no result state in the model because no `get_stats` method assigns to a component.) -/
theorem C49_repeatable (p : Power) (s : Sim) (h : Heap) (d : StatsDict) (h' : Heap)
    (hr : s.getStats p h = .ok (d, h')) (h1 : Heap) (later : h'.length ≤ h1.length)
    (kept : ∀ r ∈ refs d, h1.get r = h'.get r) :
    ∃ d2 h2, s.getStats p h1 = .ok (d2, h2) ∧
      (∀ k, statOf d2 h2 k = statOf d h' k) ∧ (∀ k, k ∈ names d2 ↔ k ∈ names d) ∧
      separate d d2 ∧ (∀ k, statOf d h2 k = statOf d h' k) ∧
      ∀ r, r < h1.length → h2.get r = h1.get r := by
  have y := yields_sim p s
  have g := yields_ok y hr
  rcases y with ⟨e, he⟩ | hg
  · rw [he] at hr; cases hr
  · obtain ⟨d2, h2, e2, g2⟩ := hg h1
    have alive : ∀ r ∈ refs d, r < h1.length := fun r hr => lt_of_lt_of_le (g.wf.alive r hr) later
    refine ⟨d2, h2, e2, fun k => (g2.sum k).trans (g.sum k).symm, fun k => (g2.keys k).trans (g.keys k).symm,
      fun r hr hr2 => absurd (alive r hr) (Nat.not_lt.2 (g2.fresh r hr2)), ?_, g2.old⟩
    intro k
    unfold statOf
    cases hf : StatsDict.find d k with
    | none => rfl
    | some r =>
      have := mem_refs_of_find hf
      exact (g2.old r (alive r this)).trans (kept r this)

/-- **C49, failures.** If a call raises, every call raises the same exception. -/
theorem C49_same_error (p : Power) (s : Sim) (h : Heap) (e : PyErr) (hr : s.getStats p h = .error e) :
    ∀ h1, s.getStats p h1 = .error e := by
  rcases yields_sim p s with ⟨e', he⟩ | hg
  · have : e' = e := by have := (he h).symm.trans hr; simpa using this
    rw [← this]; exact he
  · obtain ⟨d, h', e', -⟩ := hg h
    rw [e'] at hr; cases hr

/-- A simulator with one node of three tiles, one core each, whose tile 2 ran for 7 cycles and its core
for 5; MVMUs as in `demoCore`. All power and area numbers are 1, except 3 for the
leakage of an ADC and 10 for the area of a calculator. -/
def demoPower : Power :=
  { dacPowDyn := some 1, dacPowLeak := some 1, dacArea := some 1, adcPowDyn := some 1, adcPowLeak := some 3,
    adcArea := some 1, xbarPow := some 1, xbarPowLeak := 1, xbarArea := some 1, sramXbarPowDyn := some 1,
    sramXbarPowLeak := some 1, sramXbarArea := some 1, calculatorPowDyn := some 1, calculatorPowLeak := some 1,
    calculatorArea := some 10, inMemPowDynRead := some 1, inMemPowDynWrite := some 1, inMemPowLeak := some 1,
    inMemArea := some 1, outMemPowDyn := some 1, outMemPowLeak := some 1, outMemArea := some 1, snhPowDyn := 1,
    snhPowLeak := 1, snhArea := 1, muxPowDyn := 1, muxPowLeak := 1, muxArea := 1, snaPowDyn := 1, snaPowLeak := 1,
    snaArea := 1, ccuPowDyn := 1, ccuPowLeak := 1, ccuArea := 1, coreInstrnPowDyn := some 1,
    coreInstrnPowLeak := some 1, coreInstrnArea := some 1, dataMemPowDyn := some 1, dataMemPowLeak := some 1,
    dataMemArea := some 1, aluPowMulDyn := 1, aluPowDivDyn := 1, actPowDyn := 1, aluPowOthersDyn := 1, aluPowLeak := 1,
    aluArea := 1, actArea := 1, tcuPowDyn := 1, tcuPowLeak := 1, tcuArea := 1, tileInstrnPowDyn := some 1,
    tileInstrnPowLeak := some 1, tileInstrnArea := some 1, edramPowDyn := some 1, edramPowLeak := some 1,
    edramArea := some 1, edramCtrlPowDyn := 1, edramCtrlPowLeak := 1, edramCtrlArea := 1, edramBusPowLeak := 1,
    edramBusArea := 1, receiveBufferPowDyn := 1, receiveBufferPowLeak := 1, receiveBufferArea := 1,
    nocInterPowDyn := 12, nocInterPowLeak := 1, nocInterArea := 1, nocIntraPowDyn := some 1, nocIntraPowLeak := 1,
    nocIntraArea := 1, numPort := 4 }

def demoSim : Sim :=
  let c := demoCoreBuilt
  let core : CoreObj := { CoreObj.new c with activeCycles := 5 }
  let tile (id : Nat) : TileObj :=
    { id := id, ctrl := Ctrl.new 4, cores := [core], activeCycles := 7,
      router := { stats := { created := 2, sent := 2, sentIntra := 2, received := 1, read := 1 } } }
  { config := c, nodes := [⟨0, [tile 0, tile 1, tile 2], 11, false⟩] }

/-- The report on it. -/
def demoReport : StatsDict × Heap := match demoSim.getStats demoPower [] with | .ok r => r | .error _ => ([], [])

theorem demoReport_eq : demoSim.getStats demoPower [] = .ok (demoReport.1, demoReport.2) := by decide +kernel

example := C48_report demoPower demoSim [] demoReport.1 demoReport.2 demoReport_eq
example := C48_summary demoPower demoSim [] demoReport.1 demoReport.2 demoReport_eq
example := C49_repeatable demoPower demoSim [] demoReport.1 demoReport.2 demoReport_eq demoReport.2 (le_refl _)
  (fun _ _ => rfl)
-- two MVMUs with two pairs of crossbars, two ADCs for each crossbar, leakage 3, in a core active for 5 cycles
example : statOf demoReport.1 demoReport.2 "ADC" = ⟨0, 0, 2 * (2 * 2 * 2) * 3 * 5, 2 * (2 * 2 * 2)⟩ := by decide +kernel
-- three routers; those of tiles 0 and 1 leak for one cycle, that of tile 2 for 7; 11 busy cycles
example : statOf demoReport.1 demoReport.2 "Router" = ⟨3 * 2, 3 * (1 + 1) + 11, 1 + 1 + 7, 3⟩ := by decide +kernel
example : statOf demoReport.1 demoReport.2 "NOC intra" = ⟨0, 0, 3 / 4 * 11, 3 / 4⟩ := by decide +kernel
-- one of the numbers is missing
example : demoSim.getStats { demoPower with edramArea := none } [] = .error .valueError := by decide +kernel
example : demoSim.getStats { demoPower with edramPowDyn := none } [] = .error .typeError := by decide +kernel

/-- **C48, area of the SRAM units.** The reported area is not that of the crossbars and their
calculators: line 31 of sram_cim_unit.py adds the number of calculators instead of their area. -/
theorem C48_sram_area_witness :
    ∃ (p : Power) (m : Mvmu) (h : Heap) (d : StatsDict) (h' : Heap), sramStats p m h = .ok (d, h') ∧
      (statOf d h' "SRAM CIM Unit").area ≠ 2 * m.cfg.numSramXbarPerMvmu
        * (val p.sramXbarArea + ((m.cfg.xbarSize / m.cfg.numColumnsPerCalculator : Nat) : ℚ) * val p.calculatorArea) := by
  refine ⟨demoPower, { Mvmu.new demoCoreBuilt with
    cfg := { demoCoreBuilt.mvmuConfig with numColumnsPerCalculator := 2 } }, [], _, _, rfl, ?_⟩
  decide +kernel

end Ramwich
