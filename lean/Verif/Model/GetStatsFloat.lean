import Verif.Model.GetStats
import Verif.Model.MvmuFloat

/-! # `get_stats` and `StatsDict.print` in float64

`Model/GetStats.lean` computes energies and areas with exact rationals. Here every float64 operation is rounded
(`f64` of `Model/MvmuFloat.lean`: no overflow or underflow). A counter that meets a float is converted to the
nearest float first, as Python does for `float * int` and `float + int`; `int / int` is one rounding. The numbers
of the configuration are floats already and are taken as they are. Activation counts remain integers. -/
namespace Ramwich

/-- A float times an int (as at dac.py:29-31). -/
def prodF (q n : ℚ) : ℚ := f64 (q * f64 n)

/-- `a * n`: TypeError for `None` (as at dac.py:29-31). -/
def timesF (a : Option ℚ) (n : ℚ) : Num :=
  match a with
  | some q => .ok (some (prodF q n))
  | none => .error .typeError

/-- `a + b`: TypeError for `None` (as at memory.py:60-61). -/
def plusF (a b : Num) : Num :=
  match a, b with
  | .ok (some x), .ok (some y) => .ok (some (f64 (x + y)))
  | .error e, _ => .error e
  | .ok _, .error e => .error e
  | .ok _, .ok _ => .error .typeError

/-- `a * n` for a computed `a` (as at sram_cim_unit.py:26-31). -/
def scaledF (a : Num) (n : ℚ) : Num :=
  match a with
  | .error e => .error e
  | .ok o => timesF o n

/-- The field updates of `Stats.merge` (stats.py:14-17). -/
def Stats.mergeF (self other : Stats) : Stats :=
  { activationCount := self.activationCount + other.activationCount
    dynamicEnergy := f64 (self.dynamicEnergy + other.dynamicEnergy)
    leakageEnergy := f64 (self.leakageEnergy + other.leakageEnergy)
    area := f64 (self.area + other.area) }

/-- One round of the loop of `StatsDict.merge` (stats.py:26-30). -/
def StatsDict.mergeEntryF (p : StatsDict × Heap) (e : String × Ref) : StatsDict × Heap :=
  match p.1.find e.1 with
  | some r => (p.1, p.2.put r ((p.2.get r).mergeF (p.2.get e.2)))
  | none => (p.1 ++ [e], p.2)

/-- `StatsDict.merge` (stats.py:24-31). -/
def StatsDict.mergeF (self other : StatsDict) (h : Heap) : StatsDict × Heap :=
  other.foldl StatsDict.mergeEntryF (self, h)

/-- `StatsDict.update_leakage_energy` (stats.py:33-37). -/
def StatsDict.updateLeakageF (d : StatsDict) (cycles : Int) (h : Heap) : Heap :=
  d.foldl (fun h e => h.put e.2 { h.get e.2 with leakageEnergy := prodF (h.get e.2).leakageEnergy cycles }) h

/-- `StatsDict.summary` (stats.py:39-44): the fields of the new object it returns. -/
def StatsDict.summaryF (d : StatsDict) (h : Heap) : Stats :=
  d.foldl (fun s e => s.mergeF (h.get e.2)) {}

/-- The three totals of `StatsDict.print` (stats.py:46-51): dynamic and leakage energy in joules, area. `10**-12`
is a float; the C library's `pow` is taken to round it correctly. How the numbers are written in decimal is not
modelled. -/
def StatsDict.printedTotals (d : StatsDict) (h : Heap) : ℚ × ℚ × ℚ :=
  (f64 ((d.summaryF h).dynamicEnergy * f64 (1 / 10 ^ 12)),
    f64 ((d.summaryF h).leakageEnergy * f64 (1 / 10 ^ 12)), (d.summaryF h).area)

/-- `d.merge(x.get_stats())` for several components in turn (as at tile.py:161-163, 169-170). -/
def mergeCallsF (d : StatsDict) : List StatsCall → StatsCall
  | [], h => .ok (d, h)
  | c :: cs, h =>
    match c h with
    | .error e => .error e
    | .ok (x, h) => mergeCallsF (d.mergeF x h).1 cs (d.mergeF x h).2

/-- `d = c(); d.merge(x.get_stats())` for several components `x` (as at core.py:187-190, tile.py:169-170). -/
def StatsCall.mergingF (c : StatsCall) (cs : List StatsCall) : StatsCall := fun h =>
  match c h with
  | .error e => .error e
  | .ok (d, h) => mergeCallsF d cs h

/-- `d = c(); d.update_leakage_energy(cycles)` (as at core.py:193, tile.py:166). -/
def StatsCall.leakingF (c : StatsCall) (cycles : Int) : StatsCall := fun h =>
  match c h with
  | .error e => .error e
  | .ok (d, h) => .ok (d, d.updateLeakageF cycles h)

/-- `d = c(); e = a * n; d[key].dynamic_energy += e` (node.py:67-68). -/
def StatsCall.addDynamicF (c : StatsCall) (key : String) (a : Option ℚ) (n : ℚ) : StatsCall := fun h =>
  match c h with
  | .error e => .error e
  | .ok (d, h) =>
    match timesF a n, d.find key with
    | .error e, _ => .error e
    | .ok none, _ => .error .typeError
    | .ok (some _), none => .error .keyError
    | .ok (some q), some r => .ok (d, h.put r { h.get r with dynamicEnergy := f64 ((h.get r).dynamicEnergy + q) })

/-- `RRAMXbarStats.get_stats` (rram_xbar.py:21-30); `num_xbar` is twice the number of crossbars
(rram_xbar.py:50). -/
def rramStatsF (p : Power) (m : Mvmu) : StatsCall :=
  newDict [("RRAM Xbar", mkStats m.rram.mvmOperations (timesF p.xbarPow m.rram.mvmOperations)
    (num (prodF p.xbarPowLeak (m.cfg.numRramXbarPerMvmu * 2 : Nat)))
    (timesF p.xbarArea (m.cfg.numRramXbarPerMvmu * 2 : Nat)))]

/-- `DACStats.get_stats` (dac.py:25-34, 43). -/
def dacStatsCallF (p : Power) (m : Mvmu) : StatsCall :=
  newDict [("DAC", mkStats m.dacStats.conversions (timesF p.dacPowDyn m.dacStats.conversions)
    (timesF p.dacPowLeak m.cfg.xbarSize) (timesF p.dacArea m.cfg.xbarSize))]

/-- `ADCStats.get_stats` (adc.py:29-38). -/
def adcStatsCallF (p : Power) (m : Mvmu) : StatsCall :=
  newDict [("ADC", mkStats m.adcStats.conversions (timesF p.adcPowDyn m.adcStats.conversions)
    (timesF p.adcPowLeak m.cfg.adcSize) (timesF p.adcArea m.cfg.adcSize))]

/-- `SNHStats.get_stats` (snh.py:22-31, 43-44). -/
def snhStatsF (p : Power) (m : Mvmu) (samples : Nat) : StatsCall :=
  newDict [("Sample and Hold", mkStats samples (num (prodF p.snhPowDyn samples))
    (num (prodF p.snhPowLeak (m.cfg.numRramXbarPerMvmu * m.cfg.xbarSize : Nat)))
    (num (prodF p.snhArea (m.cfg.numRramXbarPerMvmu * m.cfg.xbarSize : Nat))))]

/-- `MUXStats.get_stats` (mux.py:23-32, 40-51) for an array over `numXbar` crossbars. -/
def muxStatsF (p : Power) (m : Mvmu) (numXbar selections : Nat) : StatsCall :=
  newDict [("MUX", mkStats selections (num (prodF p.muxPowDyn selections))
    (num (prodF p.muxPowLeak (numXbar * m.cfg.numAdcPerXbar : Nat)))
    (num (prodF p.muxArea (numXbar * m.cfg.numAdcPerXbar : Nat))))]

/-- `SRAMCIMUnitStats.get_stats` (sram_cim_unit.py:22-34, 53-56). The area adds the number of
calculators itself (line 31). -/
def sramStatsF (p : Power) (m : Mvmu) : StatsCall :=
  newDict [("SRAM CIM Unit", mkStats m.sram.macOperations
    (scaledF (plusF (attr p.sramXbarPowDyn) (attr p.calculatorPowDyn)) m.sram.macOperations)
    (scaledF (plusF (attr p.sramXbarPowLeak) (timesF p.calculatorPowLeak (numCalculators m)))
      (m.cfg.numSramXbarPerMvmu * 2 : Nat))
    (scaledF (plusF (attr p.sramXbarArea) (num (f64 (numCalculators m)))) (m.cfg.numSramXbarPerMvmu * 2 : Nat)))]

/-- `MemoryStats.get_stats` of the input registers (memory.py:57-65). -/
def inregStatsF (p : Power) (m : Mvmu) : StatsCall :=
  newDict [("Input Register Array", mkStats m.inreg.stats.totalOperations
    (plusF (timesF p.inMemPowDynRead m.inreg.stats.readOperations)
      (timesF p.inMemPowDynWrite m.inreg.stats.writeCells))
    (attr p.inMemPowLeak) (attr p.inMemArea))]

/-- `MemoryStats.get_stats` of the output registers (memory.py:67-74). -/
def outregStatsF (p : Power) (m : Mvmu) : StatsCall :=
  newDict [("Output Register Array", mkStats m.outreg.stats.totalOperations
    (timesF p.outMemPowDyn m.outreg.stats.totalOperatedCells)
    (attr p.outMemPowLeak) (attr p.outMemArea))]

/-- `SNAStats.get_stats` (sna.py:24-33). -/
def snaStatsF (p : Power) (m : Mvmu) : StatsCall :=
  newDict [("Shift and Add", mkStats m.snaOperations (num (prodF p.snaPowDyn m.snaOperations))
    (num p.snaPowLeak) (num p.snaArea))]

/-- `MVMU.get_stats` (mvmu.py:232-250). -/
def Mvmu.getStatsF (p : Power) (m : Mvmu) : StatsCall :=
  StatsCall.mergingF (newDict [])
    ((if m.cfg.haveRramXbar then
        [rramStatsF p m, dacStatsCallF p m, adcStatsCallF p m, snhStatsF p m m.snhPosSamples,
          snhStatsF p m m.snhNegSamples, muxStatsF p m m.cfg.numRramXbarPerMvmu m.muxPosSelections,
          muxStatsF p m m.cfg.numRramXbarPerMvmu m.muxNegSelections]
      else [])
    ++ (if m.cfg.haveSramXbar then
        [sramStatsF p m, muxStatsF p m m.cfg.numSramXbarPerMvmu m.muxSramSelections]
      else [])
    ++ [inregStatsF p m, outregStatsF p m, snaStatsF p m])

/-- `MemoryStats.get_stats` of the cache (memory.py:39-46). -/
def cacheStatsF (p : Power) (m : Memory) : StatsCall :=
  newDict [("SRAM", mkStats m.stats.totalOperatedCells (timesF p.dataMemPowDyn m.stats.totalOperatedCells)
    (attr p.dataMemPowLeak) (attr p.dataMemArea))]

/-- `VFUStats.get_stats` (vfu.py:33-60). -/
def vfuStatsF (p : Power) (v : VfuStats) : StatsCall :=
  newDict [
    ("VFU", mkStats v.totalOperations
      (num (f64 (f64 (f64 (prodF p.aluPowMulDyn v.mulOperations + prodF p.aluPowDivDyn v.divOperations)
        + prodF p.actPowDyn v.actOperations) + prodF p.aluPowOthersDyn v.otherOperations)))
      (num p.aluPowLeak) (num (f64 (p.aluArea + p.actArea)))),
    ("VFU MUL", mkStats v.mulOperations (num 0) (num 0) (num 0)),
    ("VFU DIV", mkStats v.divOperations (num 0) (num 0) (num 0)),
    ("VFU ACT", mkStats v.actOperations (num 0) (num 0) (num 0)),
    ("VFU OTHERS", mkStats v.otherOperations (num 0) (num 0) (num 0))]

/-- `Core.get_stats` (core.py:166-195). -/
def CoreObj.getStatsF (p : Power) (c : CoreObj) : StatsCall :=
  (StatsCall.mergingF
    (newDict [
      ("Core Control Unit", mkStats c.activeCycles (num (prodF p.ccuPowDyn c.activeCycles)) (num p.ccuPowLeak)
        (num p.ccuArea)),
      ("Core instruction memory", mkStats c.operations.length (timesF p.coreInstrnPowDyn c.operations.length)
        (attr p.coreInstrnPowLeak) (attr p.coreInstrnArea))])
    ([cacheStatsF p c.core.cache, vfuStatsF p c.core.vfu] ++ c.core.mvmus.map (Mvmu.getStatsF p))).leakingF
    c.activeCycles

/-- `MemoryStats.get_stats` of the DRAM (memory.py:48-55). -/
def dramStatsF (p : Power) (m : Memory) : StatsCall :=
  newDict [("DRAM", mkStats m.stats.totalOperations (timesF p.edramPowDyn m.stats.totalOperations)
    (attr p.edramPowLeak) (attr p.edramArea))]

/-- `DRAMControllerStats.get_stats` (dram_controller.py:77-86). -/
def ctrlStatsCallF (p : Power) (s : CtrlStats) : StatsCall :=
  newDict [("DRAM Controller", mkStats s.totalRequests (num (prodF p.edramCtrlPowDyn s.totalRequests))
    (num (f64 (p.edramCtrlPowLeak + p.edramBusPowLeak))) (num (f64 (p.edramCtrlArea + p.edramBusArea))))]

/-- `RouterStats.get_stats` (router.py:34-59). -/
def routerStatsCallF (p : Power) (s : RouterStats) : StatsCall :=
  newDict [
    ("Router", mkStats s.sent
      (num (f64 (f64 (prodF p.nocInterPowDyn s.sentInter / 12)
        + prodF p.receiveBufferPowDyn (s.received + s.read : Nat))))
      (num p.receiveBufferPowLeak) (num p.receiveBufferArea)),
    ("Router send internode", mkStats s.sentInter (num 0) (num 0) (num 0)),
    ("Router send intranode", mkStats s.sentIntra (num 0) (num 0) (num 0)),
    ("Router receive", mkStats s.received (num 0) (num 0) (num 0))]

/-- `Tile.get_stats` (tile.py:135-172). -/
def TileObj.getStatsF (p : Power) (t : TileObj) : StatsCall :=
  if t.id = 0 ∨ t.id = 1 then routerStatsCallF p t.router.stats
  else
    ((StatsCall.mergingF
      (newDict [
        ("Tile Control Unit", mkStats t.activeCycles (num (prodF p.tcuPowDyn t.activeCycles)) (num p.tcuPowLeak)
          (num p.tcuArea)),
        ("Tile instruction memory", mkStats t.operations.length
          (timesF p.tileInstrnPowDyn t.operations.length) (attr p.tileInstrnPowLeak)
          (attr p.tileInstrnArea))])
      [dramStatsF p t.ctrl.mem, ctrlStatsCallF p t.ctrl.stats, routerStatsCallF p t.router.stats]).leakingF
      t.activeCycles).mergingF
      (t.cores.map (CoreObj.getStatsF p))

/-- `NetworkStats.get_stats` (noc.py:18-31); `ratio` is line 45, a node has `num_tiles_per_node`
tiles. -/
def nocStatsF (p : Power) (tiles : Nat) : StatsCall :=
  newDict [
    ("NOC inter", mkStats 0 (num 0) (num p.nocInterPowLeak) (num p.nocInterArea)),
    ("NOC intra", mkStats 0 (num 0) (num (f64 (p.nocIntraPowLeak * f64 ((tiles : ℚ) / p.numPort))))
      (num (f64 (p.nocIntraArea * f64 ((tiles : ℚ) / p.numPort)))))]

/-- `Node.get_stats` (node.py:52-70). -/
def NodeObj.getStatsF (p : Power) (n : NodeObj) : StatsCall :=
  (((StatsCall.mergingF (newDict []) [nocStatsF p n.tiles.length]).leakingF n.queueBusyCycles).mergingF
    (n.tiles.map (TileObj.getStatsF p))).addDynamicF "Router" p.nocIntraPowDyn n.queueBusyCycles

/-- `RAMwich.get_stats` (ramwich.py:214-219). -/
def Sim.getStatsF (p : Power) (s : Sim) : StatsCall :=
  StatsCall.mergingF (newDict []) (s.nodes.map (NodeObj.getStatsF p))

end Ramwich
