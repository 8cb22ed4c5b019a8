import Verif.Model.Loader
import Verif.Model.ClockedNode

/-! # The parameters of a run as they follow from the configuration -/
namespace Ramwich

/-- The parameters that the components of a node read from `self.config`: latencies of the network (router.py:136-149),
number of routers (router.py:85) and cores (tile.py:34), latency of the DRAM (dram_controller.py:230, 254) and of the data
memory (visitor.py:169, 197, router.py:155), and of the execution stage (visitor.py:95-135). The activation functions and
the noise are given from outside. -/
def Config.sysCfg (c : Config) (fl : FloatActs) (noise : Nat → Nat → Nat → Nat → Nat → Noise) : SysCfg :=
  { net := { nodes := c.numNodes, tiles := c.numTilesPerNode
             intraLat := some (c.nocConfig.nocIntraLat : Int), interLat := some (c.nocConfig.nocInterLat : Int) }
    cores := c.numCoresPerTile
    edramLat := c.tileConfig.edramLat
    dataMemLat := c.coreConfig.dataMemLat
    execLat := c.executionLatency
    fl := fl
    noise := noise }

/-- `CoreFetchVisitor` and `CoreDecodeVisitor` (visitor.py:73-92). -/
def Config.stageLat (c : Config) : StageLat :=
  { fetch := c.coreConfig.instrnMemLat, decode := c.coreConfig.dataMemLat }

end Ramwich
