import Verif.Model.Simulator
import Verif.Model.Stats

/-! # `get_stats` of all components

Every `get_stats` creates new `Stats` objects and merges dictionaries of them; a call is a function of the
object and of the heap of `Stats` objects, and either raises or returns a dictionary and the heap
afterwards. No `get_stats` method assigns to an attribute of a component. -/
namespace Ramwich

/-- The power and area numbers of the configuration (config.py). Numbers looked up in a table by size
or resolution are `None` when the table has no entry and the user gave none (`Model/ConfigTables`). The
leakage and area of the intranode network cannot be `None`: `Network.__init__` multiplies them
(noc.py:47-53). -/
structure Power where
  dacPowDyn : Option ℚ
  dacPowLeak : Option ℚ
  dacArea : Option ℚ
  adcPowDyn : Option ℚ
  adcPowLeak : Option ℚ
  adcArea : Option ℚ
  xbarPow : Option ℚ
  xbarPowLeak : ℚ
  xbarArea : Option ℚ
  sramXbarPowDyn : Option ℚ
  sramXbarPowLeak : Option ℚ
  sramXbarArea : Option ℚ
  calculatorPowDyn : Option ℚ
  calculatorPowLeak : Option ℚ
  /-- not read by any `get_stats` -/
  calculatorArea : Option ℚ
  inMemPowDynRead : Option ℚ
  inMemPowDynWrite : Option ℚ
  inMemPowLeak : Option ℚ
  inMemArea : Option ℚ
  outMemPowDyn : Option ℚ
  outMemPowLeak : Option ℚ
  outMemArea : Option ℚ
  snhPowDyn : ℚ
  snhPowLeak : ℚ
  snhArea : ℚ
  muxPowDyn : ℚ
  muxPowLeak : ℚ
  muxArea : ℚ
  snaPowDyn : ℚ
  snaPowLeak : ℚ
  snaArea : ℚ
  ccuPowDyn : ℚ
  ccuPowLeak : ℚ
  ccuArea : ℚ
  coreInstrnPowDyn : Option ℚ
  coreInstrnPowLeak : Option ℚ
  coreInstrnArea : Option ℚ
  dataMemPowDyn : Option ℚ
  dataMemPowLeak : Option ℚ
  dataMemArea : Option ℚ
  aluPowMulDyn : ℚ
  aluPowDivDyn : ℚ
  actPowDyn : ℚ
  aluPowOthersDyn : ℚ
  aluPowLeak : ℚ
  aluArea : ℚ
  actArea : ℚ
  tcuPowDyn : ℚ
  tcuPowLeak : ℚ
  tcuArea : ℚ
  tileInstrnPowDyn : Option ℚ
  tileInstrnPowLeak : Option ℚ
  tileInstrnArea : Option ℚ
  edramPowDyn : Option ℚ
  edramPowLeak : Option ℚ
  edramArea : Option ℚ
  edramCtrlPowDyn : ℚ
  edramCtrlPowLeak : ℚ
  edramCtrlArea : ℚ
  edramBusPowLeak : ℚ
  edramBusArea : ℚ
  receiveBufferPowDyn : ℚ
  receiveBufferPowLeak : ℚ
  receiveBufferArea : ℚ
  nocInterPowDyn : ℚ
  nocInterPowLeak : ℚ
  nocInterArea : ℚ
  nocIntraPowDyn : Option ℚ
  nocIntraPowLeak : ℚ
  nocIntraArea : ℚ
  numPort : Nat
  deriving DecidableEq, Repr

/-- A Python number or `None`, or the exception raised on the way
(the arguments of `Stats`, stats.py:6-10). -/
abbrev Num := Except PyErr (Option ℚ)

/-- A number (stats.py:6-10). -/
def num (q : ℚ) : Num := .ok (some q)

/-- An attribute that may be `None`
(config.py: fields declared with default `None`, as at config.py:81-87). -/
def attr (o : Option ℚ) : Num := .ok o

/-- `a * n`: TypeError for `None` (as at dram_controller.py:77-87). -/
def times (a : Option ℚ) (n : ℚ) : Num :=
  match a with
  | some q => .ok (some (q * n))
  | none => .error .typeError

/-- `a + b`: TypeError for `None` (as at memory.py:60-61). -/
def plus (a b : Num) : Num :=
  match a, b with
  | .ok (some x), .ok (some y) => .ok (some (x + y))
  | .error e, _ => .error e
  | .ok _, .error e => .error e
  | .ok _, .ok _ => .error .typeError

/-- `a * n` for a computed `a` (as at router.py:34-60). -/
def scaled (a : Num) (n : ℚ) : Num :=
  match a with
  | .error e => .error e
  | .ok o => times o n

/-- `Stats(activation_count=…, dynamic_energy=…, leakage_energy=…, area=…)`: the arguments are computed
in this order, then pydantic rejects a `None` (ValidationError, a ValueError) (stats.py:6-10). -/
def mkStats (count : Int) (dyn leak area : Num) : Except PyErr Stats :=
  match dyn, leak, area with
  | .error e, _, _ => .error e
  | .ok _, .error e, _ => .error e
  | .ok _, .ok _, .error e => .error e
  | .ok (some d), .ok (some l), .ok (some a) => .ok ⟨count, d, l, a⟩
  | .ok _, .ok _, .ok _ => .error .valueError

/-- A `get_stats` call (as tile.py:135-172). -/
abbrev StatsCall := Heap → Except PyErr (StatsDict × Heap)

/-- `StatsDict({key: Stats(…), …})` or a sequence of assignments of new objects to new keys
(as at tile.py:141-158). -/
def newDict : List (String × Except PyErr Stats) → StatsCall
  | [], h => .ok ([], h)
  | (k, .ok s) :: l, h =>
    match newDict l (h.new s).2 with
    | .ok (d, h') => .ok ((k, (h.new s).1) :: d, h')
    | .error e => .error e
  | (_, .error e) :: _, _ => .error e

/-- `d.merge(x.get_stats())` for several components in turn (as at tile.py:161-163, 169-170). -/
def mergeCalls (d : StatsDict) : List StatsCall → StatsCall
  | [], h => .ok (d, h)
  | c :: cs, h =>
    match c h with
    | .error e => .error e
    | .ok (x, h) => mergeCalls (d.merge x h).1 cs (d.merge x h).2

/-- `d = c(); d.merge(x.get_stats())` for several components `x` (as at core.py:187-190, tile.py:169-170). -/
def StatsCall.merging (c : StatsCall) (cs : List StatsCall) : StatsCall := fun h =>
  match c h with
  | .error e => .error e
  | .ok (d, h) => mergeCalls d cs h

/-- `d = c(); d.update_leakage_energy(cycles)` (as at core.py:193, tile.py:166). -/
def StatsCall.leaking (c : StatsCall) (cycles : Int) : StatsCall := fun h =>
  match c h with
  | .error e => .error e
  | .ok (d, h) => .ok (d, d.updateLeakage cycles h)

/-- `d = c(); e = a * n; d[key].dynamic_energy += e` (node.py:67-68). -/
def StatsCall.addDynamic (c : StatsCall) (key : String) (a : Option ℚ) (n : ℚ) : StatsCall := fun h =>
  match c h with
  | .error e => .error e
  | .ok (d, h) =>
    match times a n, d.find key with
    | .error e, _ => .error e
    | .ok none, _ => .error .typeError
    | .ok (some _), none => .error .keyError
    | .ok (some q), some r => .ok (d, h.put r { h.get r with dynamicEnergy := (h.get r).dynamicEnergy + q })

/-- `RRAMXbarStats.get_stats` (rram_xbar.py:21-30); `num_xbar` is twice the number of crossbars
(rram_xbar.py:50). -/
def rramStats (p : Power) (m : Mvmu) : StatsCall :=
  newDict [("RRAM Xbar", mkStats m.rram.mvmOperations (times p.xbarPow m.rram.mvmOperations)
    (num (p.xbarPowLeak * (m.cfg.numRramXbarPerMvmu * 2 : Nat)))
    (times p.xbarArea (m.cfg.numRramXbarPerMvmu * 2 : Nat)))]

/-- `DACStats.get_stats` (dac.py:25-34, 43). -/
def dacStatsCall (p : Power) (m : Mvmu) : StatsCall :=
  newDict [("DAC", mkStats m.dacStats.conversions (times p.dacPowDyn m.dacStats.conversions)
    (times p.dacPowLeak m.cfg.xbarSize) (times p.dacArea m.cfg.xbarSize))]

/-- `ADCStats.get_stats` (adc.py:29-38). -/
def adcStatsCall (p : Power) (m : Mvmu) : StatsCall :=
  newDict [("ADC", mkStats m.adcStats.conversions (times p.adcPowDyn m.adcStats.conversions)
    (times p.adcPowLeak m.cfg.adcSize) (times p.adcArea m.cfg.adcSize))]

/-- `SNHStats.get_stats` (snh.py:22-31, 43-44). -/
def snhStats (p : Power) (m : Mvmu) (samples : Nat) : StatsCall :=
  newDict [("Sample and Hold", mkStats samples (num (p.snhPowDyn * samples))
    (num (p.snhPowLeak * (m.cfg.numRramXbarPerMvmu * m.cfg.xbarSize : Nat)))
    (num (p.snhArea * (m.cfg.numRramXbarPerMvmu * m.cfg.xbarSize : Nat))))]

/-- `MUXStats.get_stats` (mux.py:23-32, 40-51) for an array over `numXbar` crossbars. -/
def muxStats (p : Power) (m : Mvmu) (numXbar selections : Nat) : StatsCall :=
  newDict [("MUX", mkStats selections (num (p.muxPowDyn * selections))
    (num (p.muxPowLeak * (numXbar * m.cfg.numAdcPerXbar : Nat)))
    (num (p.muxArea * (numXbar * m.cfg.numAdcPerXbar : Nat))))]

/-- `num_calculator_per_xbar` (sram_cim_unit.py:47). -/
def numCalculators (m : Mvmu) : Nat := m.cfg.xbarSize / m.cfg.numColumnsPerCalculator

/-- `SRAMCIMUnitStats.get_stats` (sram_cim_unit.py:22-34, 53-56). The area adds the number of
calculators itself (line 31). -/
def sramStats (p : Power) (m : Mvmu) : StatsCall :=
  newDict [("SRAM CIM Unit", mkStats m.sram.macOperations
    (scaled (plus (attr p.sramXbarPowDyn) (attr p.calculatorPowDyn)) m.sram.macOperations)
    (scaled (plus (attr p.sramXbarPowLeak) (times p.calculatorPowLeak (numCalculators m)))
      (m.cfg.numSramXbarPerMvmu * 2 : Nat))
    (scaled (plus (attr p.sramXbarArea) (num (numCalculators m))) (m.cfg.numSramXbarPerMvmu * 2 : Nat)))]

/-- `MemoryStats.get_stats` of the input registers (memory.py:57-65). -/
def inregStats (p : Power) (m : Mvmu) : StatsCall :=
  newDict [("Input Register Array", mkStats m.inreg.stats.totalOperations
    (plus (times p.inMemPowDynRead m.inreg.stats.readOperations)
      (times p.inMemPowDynWrite m.inreg.stats.writeCells))
    (attr p.inMemPowLeak) (attr p.inMemArea))]

/-- `MemoryStats.get_stats` of the output registers (memory.py:67-74). -/
def outregStats (p : Power) (m : Mvmu) : StatsCall :=
  newDict [("Output Register Array", mkStats m.outreg.stats.totalOperations
    (times p.outMemPowDyn m.outreg.stats.totalOperatedCells)
    (attr p.outMemPowLeak) (attr p.outMemArea))]

/-- `SNAStats.get_stats` (sna.py:24-33). -/
def snaStats (p : Power) (m : Mvmu) : StatsCall :=
  newDict [("Shift and Add", mkStats m.snaOperations (num (p.snaPowDyn * m.snaOperations))
    (num p.snaPowLeak) (num p.snaArea))]

/-- `MVMU.get_stats` (mvmu.py:232-250). -/
def Mvmu.getStats (p : Power) (m : Mvmu) : StatsCall :=
  StatsCall.merging (newDict [])
    ((if m.cfg.haveRramXbar then
        [rramStats p m, dacStatsCall p m, adcStatsCall p m, snhStats p m m.snhPosSamples,
          snhStats p m m.snhNegSamples, muxStats p m m.cfg.numRramXbarPerMvmu m.muxPosSelections,
          muxStats p m m.cfg.numRramXbarPerMvmu m.muxNegSelections]
      else [])
    ++ (if m.cfg.haveSramXbar then
        [sramStats p m, muxStats p m m.cfg.numSramXbarPerMvmu m.muxSramSelections]
      else [])
    ++ [inregStats p m, outregStats p m, snaStats p m])

/-- `MemoryStats.get_stats` of the cache (memory.py:39-46). -/
def cacheStats (p : Power) (m : Memory) : StatsCall :=
  newDict [("SRAM", mkStats m.stats.totalOperatedCells (times p.dataMemPowDyn m.stats.totalOperatedCells)
    (attr p.dataMemPowLeak) (attr p.dataMemArea))]

/-- `VFUStats.get_stats` (vfu.py:33-60). -/
def vfuStats (p : Power) (v : VfuStats) : StatsCall :=
  newDict [
    ("VFU", mkStats v.totalOperations
      (num (p.aluPowMulDyn * v.mulOperations + p.aluPowDivDyn * v.divOperations
        + p.actPowDyn * v.actOperations + p.aluPowOthersDyn * v.otherOperations))
      (num p.aluPowLeak) (num (p.aluArea + p.actArea))),
    ("VFU MUL", mkStats v.mulOperations (num 0) (num 0) (num 0)),
    ("VFU DIV", mkStats v.divOperations (num 0) (num 0) (num 0)),
    ("VFU ACT", mkStats v.actOperations (num 0) (num 0) (num 0)),
    ("VFU OTHERS", mkStats v.otherOperations (num 0) (num 0) (num 0))]

/-- `Core.get_stats` (core.py:166-195). -/
def CoreObj.getStats (p : Power) (c : CoreObj) : StatsCall :=
  (StatsCall.merging
    (newDict [
      ("Core Control Unit", mkStats c.activeCycles (num (c.activeCycles * p.ccuPowDyn)) (num p.ccuPowLeak)
        (num p.ccuArea)),
      ("Core instruction memory", mkStats c.operations.length (times p.coreInstrnPowDyn c.operations.length)
        (attr p.coreInstrnPowLeak) (attr p.coreInstrnArea))])
    ([cacheStats p c.core.cache, vfuStats p c.core.vfu] ++ c.core.mvmus.map (Mvmu.getStats p))).leaking
    c.activeCycles

/-- `MemoryStats.get_stats` of the DRAM (memory.py:48-55). -/
def dramStats (p : Power) (m : Memory) : StatsCall :=
  newDict [("DRAM", mkStats m.stats.totalOperations (times p.edramPowDyn m.stats.totalOperations)
    (attr p.edramPowLeak) (attr p.edramArea))]

/-- `DRAMControllerStats.get_stats` (dram_controller.py:77-86). -/
def ctrlStatsCall (p : Power) (s : CtrlStats) : StatsCall :=
  newDict [("DRAM Controller", mkStats s.totalRequests (num (p.edramCtrlPowDyn * s.totalRequests))
    (num (p.edramCtrlPowLeak + p.edramBusPowLeak)) (num (p.edramCtrlArea + p.edramBusArea)))]

/-- `RouterStats.get_stats` (router.py:34-59). -/
def routerStatsCall (p : Power) (s : RouterStats) : StatsCall :=
  newDict [
    ("Router", mkStats s.sent
      (num (p.nocInterPowDyn * s.sentInter / 12 + p.receiveBufferPowDyn * (s.received + s.read : Nat)))
      (num p.receiveBufferPowLeak) (num p.receiveBufferArea)),
    ("Router send internode", mkStats s.sentInter (num 0) (num 0) (num 0)),
    ("Router send intranode", mkStats s.sentIntra (num 0) (num 0) (num 0)),
    ("Router receive", mkStats s.received (num 0) (num 0) (num 0))]

/-- `Tile.get_stats` (tile.py:135-172). -/
def TileObj.getStats (p : Power) (t : TileObj) : StatsCall :=
  if t.id = 0 ∨ t.id = 1 then routerStatsCall p t.router.stats
  else
    ((StatsCall.merging
      (newDict [
        ("Tile Control Unit", mkStats t.activeCycles (num (t.activeCycles * p.tcuPowDyn)) (num p.tcuPowLeak)
          (num p.tcuArea)),
        ("Tile instruction memory", mkStats t.operations.length
          (times p.tileInstrnPowDyn t.operations.length) (attr p.tileInstrnPowLeak)
          (attr p.tileInstrnArea))])
      [dramStats p t.ctrl.mem, ctrlStatsCall p t.ctrl.stats, routerStatsCall p t.router.stats]).leaking
      t.activeCycles).merging
      (t.cores.map (CoreObj.getStats p))

/-- `NetworkStats.get_stats` (noc.py:18-31); `ratio` is line 45, a node has `num_tiles_per_node`
tiles. -/
def nocStats (p : Power) (tiles : Nat) : StatsCall :=
  newDict [
    ("NOC inter", mkStats 0 (num 0) (num p.nocInterPowLeak) (num p.nocInterArea)),
    ("NOC intra", mkStats 0 (num 0) (num (p.nocIntraPowLeak * ((tiles : ℚ) / p.numPort)))
      (num (p.nocIntraArea * ((tiles : ℚ) / p.numPort))))]

/-- `Node.get_stats` (node.py:52-70). -/
def NodeObj.getStats (p : Power) (n : NodeObj) : StatsCall :=
  (((StatsCall.merging (newDict []) [nocStats p n.tiles.length]).leaking n.queueBusyCycles).merging
    (n.tiles.map (TileObj.getStats p))).addDynamic "Router" p.nocIntraPowDyn n.queueBusyCycles

/-- `RAMwich.get_stats` (ramwich.py:214-219). -/
def Sim.getStats (p : Power) (s : Sim) : StatsCall :=
  StatsCall.merging (newDict []) (s.nodes.map (NodeObj.getStats p))

end Ramwich
