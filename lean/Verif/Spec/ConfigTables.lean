import Verif.Model.ConfigTables
import Verif.Spec.GetStats

/-! # Sizes that the lookup tables know, and what a configuration should be good for -/
namespace Ramwich.Spec

open Tables

/-- Resolutions of converters. -/
def resolutions : List Nat := [1, 2, 4, 8, 16]
/-- Sizes of crossbars. -/
def xbarSizes : List Nat := [32, 64, 128, 256]
/-- Numbers of ports of the network. -/
def portCounts : List Nat := [4, 8]
/-- Injection rates. -/
def injRates : List ℚ := [0.001, 0.005, 0.01, 0.02, 0.025]
/-- Sizes of the DRAM in KB. -/
def edramSizes : List Nat := [8, 64, 128, 2048, 8192, 16384]
/-- Sizes of instruction memories. -/
def instrnSizes : List Nat := (List.range 10).map fun k => 256 * 2 ^ k
/-- Sizes of data memories. -/
def dataSizes : List Nat := (List.range 5).map fun k => 256 * 2 ^ k

/-- The sizes by which everything is looked up. -/
structure Sizes where
  injRate : ℚ
  ports : Nat
  edram : Nat
  tileInstrn : Nat
  dataMem : Nat
  coreInstrn : Nat
  dac : Nat
  xbar : Nat
  adc : Nat

/-- The sizes in a configuration. -/
def sizesOf (n : Numbers) : Sizes :=
  ⟨n.noc.injRate, n.noc.numPort, n.tile.edramSizeInKB, n.tile.instrnMemSize, n.core.dataMemSize,
    n.core.instrnMemSize, n.mvmu.dac.resolution, n.mvmu.xbar.xbarSize, n.mvmu.adc.resolution⟩

/-- The configuration with other sizes. -/
def withSizes (n : Numbers) (z : Sizes) : Numbers :=
  { noc := { n.noc with injRate := z.injRate, numPort := z.ports }
    tile := { n.tile with edramSizeInKB := z.edram, instrnMemSize := z.tileInstrn }
    core := { n.core with dataMemSize := z.dataMem, instrnMemSize := z.coreInstrn }
    mvmu := { n.mvmu with
      dac := { n.mvmu.dac with resolution := z.dac }
      xbar := { n.mvmu.xbar with xbarSize := z.xbar }
      adc := { n.mvmu.adc with resolution := z.adc } } }

/-- All sizes are in the tables. -/
structure Supported (z : Sizes) : Prop where
  injRate : z.injRate ∈ injRates
  ports : z.ports ∈ portCounts
  edram : z.edram ∈ edramSizes
  tileInstrn : z.tileInstrn ∈ instrnSizes
  dataMem : z.dataMem ∈ dataSizes
  coreInstrn : z.coreInstrn ∈ instrnSizes
  dac : z.dac ∈ resolutions
  xbar : z.xbar ∈ xbarSizes
  adc : z.adc ∈ resolutions

/-- No size of `a` is larger than that of `b`. -/
structure SizesLe (a b : Sizes) : Prop where
  ports : a.ports ≤ b.ports
  edram : a.edram ≤ b.edram
  tileInstrn : a.tileInstrn ≤ b.tileInstrn
  dataMem : a.dataMem ≤ b.dataMem
  coreInstrn : a.coreInstrn ≤ b.coreInstrn
  dac : a.dac ≤ b.dac
  xbar : a.xbar ≤ b.xbar
  adc : a.adc ≤ b.adc

/-- The configuration without anything a user may have written into the fields for the results. -/
def bare (n : Numbers) : Numbers :=
  { noc := { n.noc with interLat := 0, intraLat := none, intraPowDyn := none, intraPowLeak := none, intraArea := none }
    tile := { n.tile with
      edramLat := none, edramPowDyn := none, edramPowLeak := none, edramArea := none
      instrnMemLat := none, instrnMemPowDyn := none, instrnMemPowLeak := none, instrnMemArea := none }
    core := { n.core with
      dataMemLat := none, dataMemPowDyn := none, dataMemPowLeak := none, dataMemArea := none
      instrnMemLat := none, instrnMemPowDyn := none, instrnMemPowLeak := none, instrnMemArea := none }
    mvmu := { n.mvmu with
      dac := { resolution := n.mvmu.dac.resolution }
      xbar := { xbarPowLeak := n.mvmu.xbar.xbarPowLeak, xbarIpLat := n.mvmu.xbar.xbarIpLat,
                xbarIpPow := n.mvmu.xbar.xbarIpPow, xbarSize := n.mvmu.xbar.xbarSize }
      adc := { resolution := n.mvmu.adc.resolution } } }

/-- The numbers that a user gives and that are not overwritten: none is negative. -/
def NonnegScalars (n : Numbers) : Prop :=
  ∀ q ∈ [n.noc.interPowDyn, n.noc.interPowLeak, n.noc.interArea, n.tile.tcuPowDyn, n.tile.tcuPowLeak, n.tile.tcuArea,
    n.tile.edramBusPowLeak, n.tile.edramBusArea, n.tile.edramCtrlPowDyn, n.tile.edramCtrlPowLeak, n.tile.edramCtrlArea,
    n.tile.receiveBufferPowDyn, n.tile.receiveBufferPowLeak, n.tile.receiveBufferArea, n.core.ccuPowDyn,
    n.core.ccuPowLeak, n.core.ccuArea, n.core.aluPowDivDyn, n.core.aluPowMulDyn, n.core.actPowDyn,
    n.core.aluPowOthersDyn, n.core.aluPowLeak, n.core.aluArea, n.core.actArea, n.mvmu.snhPowLeak, n.mvmu.snhPowDyn,
    n.mvmu.snhArea, n.mvmu.muxPowLeak, n.mvmu.muxPowDyn, n.mvmu.muxArea, n.mvmu.snaPowLeak, n.mvmu.snaPowDyn,
    n.mvmu.snaArea, n.mvmu.xbar.xbarPowLeak, n.mvmu.xbar.xbarIpLat, n.mvmu.xbar.xbarIpPow], 0 ≤ q

/-- The numbers that `get_stats` multiplies with powers and areas and that are integers in the model. -/
def simCounters (s : Sim) : List Int :=
  s.nodes.flatMap fun n => n.queueBusyCycles :: n.tiles.flatMap fun t =>
    [t.activeCycles, t.ctrl.mem.stats.totalOperations, t.ctrl.stats.totalRequests] ++ t.cores.flatMap fun c =>
      [c.activeCycles, c.core.cache.stats.totalOperatedCells] ++ c.core.mvmus.flatMap fun m =>
        [m.inreg.stats.readOperations, m.inreg.stats.writeCells, m.outreg.stats.totalOperatedCells]

/-- No energy and no area is negative. -/
def NonnegStats (x : Stats) : Prop := 0 ≤ x.dynamicEnergy ∧ 0 ≤ x.leakageEnergy ∧ 0 ≤ x.area

/-- The same activity, at no larger cost. -/
def CheaperStats (x y : Stats) : Prop :=
  x.activationCount = y.activationCount ∧ x.dynamicEnergy ≤ y.dynamicEnergy ∧ x.leakageEnergy ≤ y.leakageEnergy ∧
    x.area ≤ y.area

/-- A report can be had of a simulator with these numbers: all that was looked up, for the parts it has. -/
def Reportable (n : Numbers) (s : Sim) : Prop :=
  let z := sizesOf n
  let d := n.mvmu.dac; let a := n.mvmu.adc; let x := n.mvmu.xbar; let c := n.core; let t := n.tile
  (∀ nd ∈ s.nodes, nd.tiles ≠ [] ∧ (z.ports ∈ portCounts ∨ n.noc.intraPowDyn.isSome = true)) ∧
  ∀ nd ∈ s.nodes, ∀ tl ∈ nd.tiles, 2 ≤ tl.id →
    ((z.tileInstrn ∈ instrnSizes ∨ (t.instrnMemPowDyn.isSome ∧ t.instrnMemPowLeak.isSome ∧ t.instrnMemArea.isSome)) ∧
     (z.edram ∈ edramSizes ∨ (t.edramPowDyn.isSome ∧ t.edramPowLeak.isSome ∧ t.edramArea.isSome))) ∧
    ∀ co ∈ tl.cores,
      ((z.coreInstrn ∈ instrnSizes ∨ (c.instrnMemPowDyn.isSome ∧ c.instrnMemPowLeak.isSome ∧ c.instrnMemArea.isSome)) ∧
       (z.dataMem ∈ dataSizes ∨ (c.dataMemPowDyn.isSome ∧ c.dataMemPowLeak.isSome ∧ c.dataMemArea.isSome))) ∧
      ∀ m ∈ co.core.mvmus,
        (z.xbar ∈ xbarSizes ∨ (x.inMemPowDynRead.isSome ∧ x.inMemPowDynWrite.isSome ∧ x.inMemPowLeak.isSome ∧
          x.inMemArea.isSome ∧ x.outMemPowDyn.isSome ∧ x.outMemPowLeak.isSome ∧ x.outMemArea.isSome)) ∧
        (m.cfg.haveRramXbar = true →
          (z.xbar ∈ xbarSizes ∨ (x.xbarPow.isSome ∧ x.xbarArea.isSome)) ∧
          (z.dac ∈ resolutions ∨ (d.powDyn.isSome ∧ d.powLeak.isSome ∧ d.area.isSome)) ∧
          (z.adc ∈ resolutions ∨ (a.powDyn.isSome ∧ a.powLeak.isSome ∧ a.area.isSome))) ∧
        (m.cfg.haveSramXbar = true →
          z.xbar ∈ xbarSizes ∨ (x.sramXbarPowDyn.isSome ∧ x.sramXbarPowLeak.isSome ∧ x.sramXbarArea.isSome ∧
            x.calculatorPowDyn.isSome ∧ x.calculatorPowLeak.isSome))

end Ramwich.Spec
