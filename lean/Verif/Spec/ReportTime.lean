import Verif.Spec.LeastTime
import Verif.Spec.Simulation
import Verif.Spec.ConfigTables

/-! # The report and the times of a run -/
namespace Ramwich.Spec

/-- A node with these times instead of its own. -/
def nodeWithTimes (n : NodeObj) (u : RunTimes) : NodeObj :=
  { n with
    tiles := n.tiles.mapIdx fun t x =>
      { x with cores := x.cores.mapIdx fun k o => { o with activeCycles := u.core t k }, activeCycles := u.tile t }
    queueBusyCycles := u.busy }

/-- A simulator with these times instead of its own. -/
def simWithTimes (s : Sim) (u : Nat → RunTimes) : Sim := { s with nodes := s.nodes.mapIdx fun a n => nodeWithTimes n (u a) }

/-- No time of a node with `tiles` tiles of `cores` cores is larger. -/
structure TimesLe (tiles cores : Nat) (u v : RunTimes) : Prop where
  tile : ∀ t < tiles, u.tile t ≤ v.tile t
  core : ∀ t < tiles, ∀ k < cores, u.core t k ≤ v.core t k
  busy : u.busy ≤ v.busy

/-- The same hardware, not less active. -/
structure LongerStats (x y : Stats) : Prop where
  count : x.activationCount ≤ y.activationCount
  dynamic : x.dynamicEnergy ≤ y.dynamicEnergy
  leakage : x.leakageEnergy ≤ y.leakageEnergy
  area : x.area = y.area

/-- `queue_busy_cycles` before a call. -/
def busyBefore (hist : List Completed) (a : Nat) : Int := (hist.map fun e => ((e.2.2.node a).clk.busy : Int)).sum

/-- The times of node `a` that the programs need at least. -/
def leastTimes (c : Config) (ps : List Placed) (hist : List Completed) (a : Nat) : RunTimes :=
  { tile := fileTileLeast c ps a, core := fileCoreLeast c ps a, busy := busyBefore hist a, tracking := false }

/-- The times of node `a` if everything happens one after the other and a send queue is never empty. (The queues are looked at
in every cycle from 0 on.) -/
def mostTimes (c : Config) (ps : List Placed) (hist : List Completed) (a : Nat) : RunTimes :=
  { tile := fun _ => fileCycles c ps a, core := fun _ _ => fileCycles c ps a, busy := busyBefore hist a + fileCycles c ps a + 1
    tracking := false }

/-! ## The report from the texts of the programs alone -/

/-- A new node with its operations. -/
def textNode (c : Config) (ps : List Placed) (a : Nat) : NodeObj :=
  { NodeObj.new c a with
    tiles := (List.range c.numTilesPerNode).map fun t =>
      { TileObj.new c t with
        operations := tileProgram ps a t
        cores := (List.range c.numCoresPerTile).map fun k => { CoreObj.new c with operations := coreProgram ps a t k } } }

/-- The components of a simulator that has executed the programs of a file in these times: with the counters that are sums over
the texts of the programs (C95). -/
def textComponents (p : Power) (c : Config) (ps : List Placed) (u : Nat → RunTimes) : List Component :=
  (List.range c.numNodes).flatMap fun a => nodeComponents p (ledgerNode c (textNode c ps a) (u a))

end Ramwich.Spec
