import Verif.Model.CoreApi
import Verif.Model.NodeRun
import Verif.Spec.System

/-! # What `reset` should give

A component as newly constructed, with the crossbar contents kept. -/
namespace Ramwich.Spec

/-- A new MVMU with the crossbar contents of `m`. -/
def renewedMvmu (m : Mvmu) : Mvmu :=
  { cfg := m.cfg
    data := m.data
    inreg := InReg.new m.cfg.xbarSize
    outreg := OutReg.new m.cfg.xbarSize
    rram := { posXbar := m.rram.posXbar, negXbar := m.rram.negXbar }
    sram := { posXbar := m.sram.posXbar, negXbar := m.sram.negXbar } }

/-- A new core with the crossbar contents of `c`. -/
def renewedCore (c : Core) : Core :=
  { config := c.config
    mvmus := c.mvmus.map renewedMvmu
    cache := Memory.new c.config.coreConfig.dataMemSize }

/-- The counters of the SRAM crossbars set to zero. -/
def noSramCounts (m : Mvmu) : Mvmu :=
  { m with sram := { m.sram with macOperations := 0 }, muxSramSelections := 0 }

/-- The counters of all SRAM crossbars set to zero. -/
def noSramCountsCore (c : Core) : Core := { c with mvmus := c.mvmus.map noSramCounts }

/-- The calls that load weights. -/
def isLoad : CoreCall → Bool
  | .load .. => true
  | _ => false

/-- A node that has not run: weights, operations and DRAM contents may have been loaded. -/
structure readyNode (c : Config) (fl : FloatActs) (n : NodeObj) : Prop where
  count : n.tiles.length = c.numTilesPerNode
  /-- the controllers are new except for the DRAM contents -/
  ctrl : ∀ x ∈ n.tiles, x.ctrl = { mem := x.ctrl.mem, valid := x.ctrl.valid }
  size : ∀ x ∈ n.tiles, x.ctrl.mem.size = c.tileConfig.edramSize ∧
    x.ctrl.mem.cells.length = c.tileConfig.edramSize ∧ x.ctrl.valid.length = c.tileConfig.edramSize
  router : ∀ x ∈ n.tiles, x.router = {}
  cores : ∀ x ∈ n.tiles, x.cores.length = c.numCoresPerTile
  weights : ∀ x ∈ n.tiles, ∀ o ∈ x.cores, ∃ ws, (∀ k ∈ ws, isLoad k = true) ∧ o.core = (Core.new c).after fl ws

/-- The node with new DRAMs and controllers. -/
def emptied (c : Config) (n : NodeObj) : NodeObj :=
  { n with tiles := n.tiles.map fun x => { x with ctrl := Ctrl.new c.tileConfig.edramSize } }

/-- The node with the given DRAM contents and validity bits. -/
def withDram (m : Nat → Memory) (v : Nat → List Bool) (n : NodeObj) : NodeObj :=
  { n with tiles := n.tiles.mapIdx fun t x => { x with ctrl := { x.ctrl with mem := m t, valid := v t } } }

/-- The counters of all SRAM crossbars of a node set to zero. -/
def noSramCountsSys (s : Sys) : Sys :=
  { s with tile := fun t => { s.tile t with
      core := fun k => { (s.tile t).core k with core := noSramCountsCore ((s.tile t).core k).core } } }

/-- `y` is a state that a run of the node ends in: all tiles have executed a Halt and nothing is left to
do. -/
def endsIn (c : Config) (cfg : SysCfg) (n : NodeObj) (y : Sys) : Prop :=
  cfg.net.tiles = n.tiles.length ∧ cfg.cores = c.numCoresPerTile ∧
  (∃ as, (n.start c).run cfg as = some y) ∧ finished cfg y ∧
  ∀ t < cfg.net.tiles, .halted ∈ (y.tile t).log

end Ramwich.Spec
