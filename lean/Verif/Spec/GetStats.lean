import Verif.Model.GetStats
import Verif.Spec.Stats

/-! # What a statistics report should contain

A simulator consists of components. Each has a name, an activation count, a dynamic energy, a leakage
per cycle, an area, and a number of cycles for which it leaks. The report has, for each name, the sum
over the components of that name. Table entries that are missing count as zero here; the theorems speak
about reports that were produced, in which none is missing. -/
namespace Ramwich.Spec

/-- A component of the simulated hardware. -/
structure Component where
  name : String
  count : Int := 0
  dynamic : ℚ := 0
  leakPerCycle : ℚ := 0
  area : ℚ := 0
  /-- for how many cycles it leaks -/
  cycles : Int

/-- What a component contributes to the report. -/
def Component.contribution (c : Component) : Stats :=
  ⟨c.count, c.dynamic, c.leakPerCycle * c.cycles, c.area⟩

/-- A table entry. -/
def val (o : Option ℚ) : ℚ := o.getD 0

/-- The components of an MVMU of a core that was active for `cycles`. -/
def mvmuComponents (p : Power) (m : Mvmu) (cycles : Int) : List Component :=
  let n := m.cfg.numRramXbarPerMvmu
  let s := m.cfg.numSramXbarPerMvmu
  let size := m.cfg.xbarSize
  let adcs := m.cfg.numAdcPerXbar
  let converters := n * adcs * (match m.cfg.adcType with | .differential => 1 | .normal => 2)
  let calculators := size / m.cfg.numColumnsPerCalculator
  let snh (samples : Nat) : Component :=
    ⟨"Sample and Hold", samples, samples * p.snhPowDyn, n * size * p.snhPowLeak, n * size * p.snhArea, cycles⟩
  let mux (arrays selections : Nat) : Component :=
    ⟨"MUX", selections, selections * p.muxPowDyn, arrays * adcs * p.muxPowLeak, arrays * adcs * p.muxArea, cycles⟩
  (if m.cfg.haveRramXbar then [
    ⟨"RRAM Xbar", m.rram.mvmOperations, m.rram.mvmOperations * val p.xbarPow, 2 * n * p.xbarPowLeak,
      2 * n * val p.xbarArea, cycles⟩,
    ⟨"DAC", m.dacStats.conversions, m.dacStats.conversions * val p.dacPowDyn, size * val p.dacPowLeak,
      size * val p.dacArea, cycles⟩,
    ⟨"ADC", m.adcStats.conversions, m.adcStats.conversions * val p.adcPowDyn, converters * val p.adcPowLeak,
      converters * val p.adcArea, cycles⟩,
    snh m.snhPosSamples, snh m.snhNegSamples, mux n m.muxPosSelections, mux n m.muxNegSelections]
  else [])
  ++ (if m.cfg.haveSramXbar then [
    ⟨"SRAM CIM Unit", m.sram.macOperations,
      m.sram.macOperations * (val p.sramXbarPowDyn + val p.calculatorPowDyn),
      2 * s * (val p.sramXbarPowLeak + calculators * val p.calculatorPowLeak),
      -- as the code has it: the number of calculators, not their area
      2 * s * (val p.sramXbarArea + calculators), cycles⟩,
    mux s m.muxSramSelections]
  else [])
  ++ [
    ⟨"Input Register Array", m.inreg.stats.totalOperations,
      m.inreg.stats.readOperations * val p.inMemPowDynRead + m.inreg.stats.writeCells * val p.inMemPowDynWrite,
      val p.inMemPowLeak, val p.inMemArea, cycles⟩,
    ⟨"Output Register Array", m.outreg.stats.totalOperations,
      m.outreg.stats.totalOperatedCells * val p.outMemPowDyn, val p.outMemPowLeak, val p.outMemArea, cycles⟩,
    ⟨"Shift and Add", m.snaOperations, m.snaOperations * p.snaPowDyn, p.snaPowLeak, p.snaArea, cycles⟩]

/-- The components of a core; all leak while the core is active. -/
def coreComponents (p : Power) (c : CoreObj) : List Component :=
  let v := c.core.vfu
  let cycles := c.activeCycles
  [ ⟨"Core Control Unit", cycles, cycles * p.ccuPowDyn, p.ccuPowLeak, p.ccuArea, cycles⟩,
    ⟨"Core instruction memory", c.operations.length, c.operations.length * val p.coreInstrnPowDyn,
      val p.coreInstrnPowLeak, val p.coreInstrnArea, cycles⟩,
    ⟨"SRAM", c.core.cache.stats.totalOperatedCells,
      c.core.cache.stats.totalOperatedCells * val p.dataMemPowDyn, val p.dataMemPowLeak, val p.dataMemArea, cycles⟩,
    ⟨"VFU", v.totalOperations, v.mulOperations * p.aluPowMulDyn + v.divOperations * p.aluPowDivDyn
      + v.actOperations * p.actPowDyn + v.otherOperations * p.aluPowOthersDyn, p.aluPowLeak,
      p.aluArea + p.actArea, cycles⟩,
    { name := "VFU MUL", count := v.mulOperations, cycles := cycles },
    { name := "VFU DIV", count := v.divOperations, cycles := cycles },
    { name := "VFU ACT", count := v.actOperations, cycles := cycles },
    { name := "VFU OTHERS", count := v.otherOperations, cycles := cycles } ]
  ++ c.core.mvmus.flatMap fun m => mvmuComponents p m cycles

/-- The router of a tile. -/
def routerComponents (p : Power) (r : RouterStats) (cycles : Int) : List Component :=
  [ ⟨"Router", r.sent, r.sentInter * p.nocInterPowDyn / 12 + (r.received + r.read) * p.receiveBufferPowDyn,
      p.receiveBufferPowLeak, p.receiveBufferArea, cycles⟩,
    { name := "Router send internode", count := r.sentInter, cycles := cycles },
    { name := "Router send intranode", count := r.sentIntra, cycles := cycles },
    { name := "Router receive", count := r.received, cycles := cycles } ]

/-- The components of a tile. Tiles 0 and 1 (input and output) consist of their router only, which leaks
for one cycle; the others leak while the tile is active, their cores while the core is active. -/
def tileComponents (p : Power) (t : TileObj) : List Component :=
  let cycles := t.activeCycles
  if t.id ≤ 1 then routerComponents p t.router.stats 1
  else
    [ ⟨"Tile Control Unit", cycles, cycles * p.tcuPowDyn, p.tcuPowLeak, p.tcuArea, cycles⟩,
      ⟨"Tile instruction memory", t.operations.length, t.operations.length * val p.tileInstrnPowDyn,
        val p.tileInstrnPowLeak, val p.tileInstrnArea, cycles⟩,
      ⟨"DRAM", t.ctrl.mem.stats.totalOperations, t.ctrl.mem.stats.totalOperations * val p.edramPowDyn,
        val p.edramPowLeak, val p.edramArea, cycles⟩,
      ⟨"DRAM Controller", t.ctrl.stats.totalRequests, t.ctrl.stats.totalRequests * p.edramCtrlPowDyn,
        p.edramCtrlPowLeak + p.edramBusPowLeak, p.edramCtrlArea + p.edramBusArea, cycles⟩ ]
    ++ routerComponents p t.router.stats cycles
    ++ t.cores.flatMap (coreComponents p)

/-- The components of a node: its networks leak for the cycles in which a send queue was not empty; the
intranode network's dynamic energy is counted for the same cycles, under the name of the routers. -/
def nodeComponents (p : Power) (n : NodeObj) : List Component :=
  let ratio : ℚ := n.tiles.length / p.numPort
  [ { name := "NOC inter", leakPerCycle := p.nocInterPowLeak, area := p.nocInterArea, cycles := n.queueBusyCycles },
    { name := "NOC intra", leakPerCycle := ratio * p.nocIntraPowLeak, area := ratio * p.nocIntraArea,
      cycles := n.queueBusyCycles },
    { name := "Router", dynamic := n.queueBusyCycles * val p.nocIntraPowDyn, cycles := 0 } ]
  ++ n.tiles.flatMap (tileComponents p)

/-- All components of a simulator. -/
def simComponents (p : Power) (s : Sim) : List Component := s.nodes.flatMap (nodeComponents p)

/-- The sum over the components of a name. -/
def reportTotal (cs : List Component) (k : String) : Stats :=
  ((cs.filter fun c => c.name = k).map Component.contribution).sum

/-- The table entries that the report of an MVMU needs. -/
def mvmuNeeds (p : Power) (m : Mvmu) : List (Option ℚ) :=
  (if m.cfg.haveRramXbar then
    [p.xbarPow, p.xbarArea, p.dacPowDyn, p.dacPowLeak, p.dacArea, p.adcPowDyn, p.adcPowLeak, p.adcArea] else [])
  ++ (if m.cfg.haveSramXbar then
    [p.sramXbarPowDyn, p.sramXbarPowLeak, p.sramXbarArea, p.calculatorPowDyn, p.calculatorPowLeak] else [])
  ++ [p.inMemPowDynRead, p.inMemPowDynWrite, p.inMemPowLeak, p.inMemArea, p.outMemPowDyn, p.outMemPowLeak,
    p.outMemArea]

/-- The table entries that the report of a core needs. -/
def coreNeeds (p : Power) (c : CoreObj) : List (Option ℚ) :=
  [p.coreInstrnPowDyn, p.coreInstrnPowLeak, p.coreInstrnArea, p.dataMemPowDyn, p.dataMemPowLeak, p.dataMemArea]
  ++ c.core.mvmus.flatMap (mvmuNeeds p)

/-- The table entries that the report of a tile needs. -/
def tileNeeds (p : Power) (t : TileObj) : List (Option ℚ) :=
  if t.id ≤ 1 then []
  else [p.tileInstrnPowDyn, p.tileInstrnPowLeak, p.tileInstrnArea, p.edramPowDyn, p.edramPowLeak, p.edramArea]
    ++ t.cores.flatMap (coreNeeds p)

/-- The table entries that the report of a simulator needs. -/
def simNeeds (p : Power) (s : Sim) : List (Option ℚ) :=
  s.nodes.flatMap fun n => p.nocIntraPowDyn :: n.tiles.flatMap (tileNeeds p)

end Ramwich.Spec
