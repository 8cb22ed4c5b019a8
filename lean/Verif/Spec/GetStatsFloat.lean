import Verif.Spec.GetStats
import Verif.Model.GetStatsFloat

/-! # How far a float64 report may be from the exact one

Energies and areas are sums of products of non-negative numbers, so there is no cancellation and the error is
relative: a few units in the last place for each component that is added. -/
namespace Ramwich.Spec

/-- `a` is `x` up to `n` units of `2^-52`, relative to `x`. -/
def closeTo (n : Nat) (a x : ℚ) : Prop := |a - x| ≤ n / 2 ^ 52 * x

/-- All numbers of a configuration that a report may use. -/
def powerNumbers (p : Power) : List ℚ :=
  [p.xbarPowLeak, p.snhPowDyn, p.snhPowLeak, p.snhArea, p.muxPowDyn, p.muxPowLeak, p.muxArea, p.snaPowDyn,
    p.snaPowLeak, p.snaArea, p.ccuPowDyn, p.ccuPowLeak, p.ccuArea, p.aluPowMulDyn, p.aluPowDivDyn, p.actPowDyn,
    p.aluPowOthersDyn, p.aluPowLeak, p.aluArea, p.actArea, p.tcuPowDyn, p.tcuPowLeak, p.tcuArea, p.edramCtrlPowDyn,
    p.edramCtrlPowLeak, p.edramCtrlArea, p.edramBusPowLeak, p.edramBusArea, p.receiveBufferPowDyn,
    p.receiveBufferPowLeak, p.receiveBufferArea, p.nocInterPowDyn, p.nocInterPowLeak, p.nocInterArea,
    p.nocIntraPowLeak, p.nocIntraArea]
  ++ [p.dacPowDyn, p.dacPowLeak, p.dacArea, p.adcPowDyn, p.adcPowLeak, p.adcArea, p.xbarPow, p.xbarArea,
    p.sramXbarPowDyn, p.sramXbarPowLeak, p.sramXbarArea, p.calculatorPowDyn, p.calculatorPowLeak,
    p.inMemPowDynRead, p.inMemPowDynWrite, p.inMemPowLeak, p.inMemArea, p.outMemPowDyn, p.outMemPowLeak,
    p.outMemArea, p.coreInstrnPowDyn, p.coreInstrnPowLeak, p.coreInstrnArea, p.dataMemPowDyn, p.dataMemPowLeak,
    p.dataMemArea, p.tileInstrnPowDyn, p.tileInstrnPowLeak, p.tileInstrnArea, p.edramPowDyn, p.edramPowLeak,
    p.edramArea, p.nocIntraPowDyn].map val

/-- The counters of an MVMU that are integers in the model (the others are natural numbers). -/
def mvmuCounters (m : Mvmu) : List Int :=
  [m.inreg.stats.readOperations, m.inreg.stats.writeCells, m.outreg.stats.totalOperatedCells]

/-- The counters of a core. -/
def coreCounters (c : CoreObj) : List Int :=
  [c.activeCycles, c.core.cache.stats.totalOperatedCells] ++ c.core.mvmus.flatMap mvmuCounters

/-- The counters of a tile. -/
def tileCounters (t : TileObj) : List Int :=
  [t.activeCycles, t.ctrl.mem.stats.totalOperations, t.ctrl.stats.totalRequests] ++ t.cores.flatMap coreCounters

/-- The counters of a simulator. -/
def allCounters (s : Sim) : List Int :=
  s.nodes.flatMap fun n => n.queueBusyCycles :: n.tiles.flatMap tileCounters

/-- No negative number anywhere. -/
structure nonNegative (p : Power) (s : Sim) : Prop where
  numbers : ∀ q ∈ powerNumbers p, 0 ≤ q
  counters : ∀ n ∈ allCounters s, 0 ≤ n

/-- How many components have a name. -/
def componentsNamed (cs : List Component) (k : String) : Nat := (cs.filter fun c => c.name = k).length

end Ramwich.Spec
