import Verif.Spec.Counters
import Verif.Spec.Dataflow

/-! # The counters of a node, computed from its programs

Nothing is executed here: the numbers are sums over the texts of the programs. -/
namespace Ramwich.Spec

/-! ## Registers -/

/-- The registers that an operation reads: the first and how many. -/
def _root_.Ramwich.CoreOp.regReads : CoreOp → List (Int × Nat)
  | .copy _ read vec => [(read, vec.toNat)]
  | .vfu _ _ read1 read2 vec => (read1, vec.toNat) :: read2.toList.map fun r => (r, vec.toNat)
  | .load _ read _ _ => [(read, 1)]
  | .store dest read width vec => [(dest, 1), (read, (width * vec).toNat)]
  | _ => []

/-- The registers that an operation writes. -/
def _root_.Ramwich.CoreOp.regWrites : CoreOp → List (Int × Nat)
  | .set dest _ vec => [(dest, vec.toNat)]
  | .copy dest _ vec => [(dest, vec.toNat)]
  | .vfu _ dest _ _ vec => [(dest, vec.toNat)]
  | .load dest _ width vec => [(dest, (width * vec).toNat)]
  | _ => []

/-- The accesses that begin in the registers from `lo` up to `hi`. -/
def accesses (rs : List (Int × Nat)) (lo hi : Nat) : List (Int × Nat) :=
  rs.filter fun r => decide ((lo : Int) ≤ r.1 ∧ r.1 < hi)

/-- The accesses that begin at register `lo` or behind it. -/
def accessesFrom (rs : List (Int × Nat)) (lo : Nat) : List (Int × Nat) :=
  rs.filter fun r => decide ((lo : Int) ≤ r.1)

/-- The counters of a memory or register array after these reads and writes and others (numbers of accesses and of
words). -/
def accessCounts (reads writes : List (Int × Nat)) (otherReads otherReadWords otherWrites otherWriteWords : Nat) :
    MemoryStats :=
  let r : Int := reads.length + otherReads
  let rw : Int := (reads.map fun x => x.2).sum + otherReadWords
  let w : Int := writes.length + otherWrites
  let ww : Int := (writes.map fun x => x.2).sum + otherWriteWords
  { readOperations := r, readCells := rw, writeOperations := w, writeCells := ww, totalOperations := r + w
    totalOperatedCells := rw + ww }

/-! ## Vector operations and products -/

/-- The vector operations of a program with their lengths. -/
def vectors (ops : List CoreOp) : List (VfuOp × Nat) :=
  ops.filterMap fun
    | .vfu op _ _ _ vec => some (op, vec.toNat)
    | _ => none

/-- The elements handled by the operations of a class. -/
def lanes (p : VfuOp → Bool) (vs : List (VfuOp × Nat)) : Nat := ((vs.filter fun v => p v.1).map fun v => v.2).sum

/-- The counters of a vector unit. -/
def vectorCounts (vs : List (VfuOp × Nat)) : VfuStats :=
  { mulOperations := lanes (fun o => decide (o = .mul)) vs
    divOperations := lanes (fun o => decide (o = .div)) vs
    actOperations := lanes (fun o => decide (o = .sig ∨ o = .tanh)) vs
    otherOperations := lanes (fun o => decide (o ≠ .mul ∧ o ≠ .div ∧ o ≠ .sig ∧ o ≠ .tanh)) vs
    totalOperations := lanes (fun _ => true) vs }

/-- How often MVMU `u` multiplies. -/
def products (u : Nat) (ops : List CoreOp) : Nat :=
  (ops.map fun
    | .mvm xs => xs.count (u : Int)
    | _ => 0).sum

/-- An MVMU (without contents) after `p` products and the given accesses to its registers. A product takes a slice of
the inputs at a time, and from every slice one column after the other of those that share an ADC. -/
def ledgerUnit (c : Config) (reads writes : List (Int × Nat)) (p : Nat) : Mvmu :=
  let m := c.mvmuConfig
  let size := m.xbarSize
  let slices := p * ((c.dataConfig.activationWidth + m.dacResolution - 1) / m.dacResolution)
  let columns := slices * m.numColumnsPerAdc
  let rrams := m.numRramXbarPerMvmu
  let srams := m.numSramXbarPerMvmu
  let adcs := m.numAdcPerXbar
  { Mvmu.new c with
    inreg := { InReg.new size with stats := accessCounts [] writes slices (slices * size) 0 0 }
    outreg := { OutReg.new size with
      stats := accessCounts reads [] columns (columns * adcs) (p + columns) (p * size + columns * adcs) }
    snaOperations := columns * (m.numXbarPerMvmu * adcs + adcs)
    dacStats := if m.haveRramXbar then
        { conversions := slices * size, activeCycles := slices * m.dacLat.getD 0 } else {}
    rram := { posXbar := [], negXbar := [], mvmOperations := if m.haveRramXbar then slices * (rrams * 2) else 0 }
    snhPosSamples := if m.haveRramXbar then slices * (rrams * size) else 0
    snhNegSamples := if m.haveRramXbar then slices * (rrams * size) else 0
    muxPosSelections := if m.haveRramXbar then columns * (rrams * adcs) else 0
    muxNegSelections := if m.haveRramXbar then columns * (rrams * adcs) else 0
    adcStats := if m.haveRramXbar then
        { conversions := columns * (rrams * adcs * match m.adcType with | .differential => 1 | .normal => 2)
          activeCycles := columns * m.adcLat.getD 0 } else {}
    sram := { posXbar := [], negXbar := [], macOperations := if m.haveSramXbar then slices * (srams * 2 * size) else 0 }
    muxSramSelections := if m.haveSramXbar then columns * (srams * adcs) else 0 }

/-- A core (without contents) after the given accesses to its registers, vector operations and products. The registers
are the input registers of all units, their output registers, and the memory of the core. -/
def ledger (c : Config) (reads writes : List (Int × Nat)) (vs : List (VfuOp × Nat)) (p : Nat → Nat) : Core :=
  let size := c.mvmuConfig.xbarSize
  let out := size * c.numMvmusPerCore
  let mem := 2 * out
  { config := c
    mvmus := (List.range c.numMvmusPerCore).map fun u =>
      ledgerUnit c (accesses reads (out + size * u) (out + size * (u + 1))) (accesses writes (size * u) (size * (u + 1))) (p u)
    cache := { Memory.new c.coreConfig.dataMemSize with
      stats := accessCounts (accessesFrom reads mem) (accessesFrom writes mem) 0 0 0 0 }
    vfu := vectorCounts vs }

/-- What is left of a core without its contents after a program. -/
def coreLedger (c : Config) (ops : List CoreOp) : Core :=
  ledger c (ops.flatMap CoreOp.regReads) (ops.flatMap CoreOp.regWrites) (vectors ops) fun u => products u ops

/-! ## DRAMs and routers -/

/-- The requests of a core program to the DRAM: rows and words, for reads and for writes. -/
def coreTraffic (ops : List CoreOp) : List (Int × Int) × List (Int × Int) :=
  (ops.filterMap fun | .load _ _ w v => some (v, w * v) | _ => none,
   ops.filterMap fun | .store _ _ w v => some (v, w * v) | _ => none)

/-- The requests of a tile program to the DRAM. -/
def tileTraffic (ops : List TileOp) : List (Int × Int) × List (Int × Int) :=
  (ops.filterMap fun | .send _ _ w v => some (v, w * v) | _ => none,
   ops.filterMap fun | .receive _ _ w v => some (v, w * v) | _ => none)

/-- Reads and writes of a tile with these programs for its cores and itself. -/
def traffic (progs : List (List CoreOp)) (ops : List TileOp) : List (Int × Int) × List (Int × Int) :=
  (progs.flatMap (fun p => (coreTraffic (upToHlt p)).1) ++ (tileTraffic ops).1,
   progs.flatMap (fun p => (coreTraffic (upToHlt p)).2) ++ (tileTraffic ops).2)

def rowsOf (l : List (Int × Int)) : Int := (l.map fun x => x.1).sum
def dramWords (l : List (Int × Int)) : Int := (l.map fun x => x.2).sum

/-- The counters of a DRAM that have been `s`. -/
def dramLedger (s : MemoryStats) (tr : List (Int × Int) × List (Int × Int)) : MemoryStats :=
  { readOperations := s.readOperations + rowsOf tr.1
    readCells := s.readCells + dramWords tr.1
    writeOperations := s.writeOperations + rowsOf tr.2
    writeCells := s.writeCells + dramWords tr.2
    totalOperations := s.totalOperations + (rowsOf tr.1 + rowsOf tr.2)
    totalOperatedCells := s.totalOperatedCells + (dramWords tr.1 + dramWords tr.2) }

/-- The number of rows that a tile program sends. -/
def rowsOut (ops : List TileOp) : Nat := (ops.map fun | .send _ _ _ v => v.toNat | _ => 0).sum

/-- The number of rows that a tile program sends to tile `d`. -/
def rowsOutTo (d : Nat) (ops : List TileOp) : Nat :=
  (ops.map fun | .send _ t _ v => if t = (d : Int) then v.toNat else 0 | _ => 0).sum

/-- The number of rows that a tile program receives. -/
def rowsIn (ops : List TileOp) : Nat := (ops.map fun | .receive _ _ _ v => v.toNat | _ => 0).sum

/-- The counters of the router of tile `t`. -/
def routerLedger (tiles : Nat) (ops : Nat → List TileOp) (t : Nat) : RouterStats :=
  { created := rowsOut (ops t)
    sentInter := 0
    sentIntra := rowsOut (ops t)
    sent := rowsOut (ops t)
    received := ∑ i ∈ Finset.range tiles, rowsOutTo t (ops i)
    read := rowsIn (ops t) }

/-! ## A node -/

/-- The transfers of the programs fit: Recvs are from tiles of the node, and the rows that one tile sends to another
are as many and as wide as those that the other receives from it. -/
structure transfersFit (tiles : Nat) (ops : Nat → List TileOp) : Prop where
  source : ∀ t < tiles, ∀ a s w v : Int, .receive a s w v ∈ ops t → 0 ≤ s ∧ s < tiles
  rows : ∀ src < tiles, ∀ dst < tiles,
    rowWidths (sendShapes dst (ops src)) = rowWidths (recvShapes src (ops dst))

/-- The cores of the node are new, except that weights may have been loaded. -/
def newCores (cfg : SysCfg) (c : Config) (i : SysInit) : Prop :=
  ∀ t < cfg.net.tiles, ∀ k < cfg.cores, ∃ fl ws, (∀ x ∈ ws, isLoad x = true) ∧ i.core t k = (Core.new c).after fl ws

/-- A node whose programs have not been executed, with the counters that they would have given and the times of a run.
Contents are those of new components. -/
def ledgerNode (c : Config) (n : NodeObj) (times : RunTimes) : NodeObj :=
  { n with
    tiles := n.tiles.mapIdx fun t x =>
      let tr := traffic (x.cores.map fun o => o.operations) x.operations
      { x with
        ctrl := { x.ctrl with
          mem := { x.ctrl.mem with stats := dramLedger x.ctrl.mem.stats tr }
          stats := { x.ctrl.stats with totalRequests := rowsOf tr.1 + rowsOf tr.2 } }
        router := { x.router with
          stats := routerLedger n.tiles.length (fun t => (n.tiles.getD t (TileObj.new c t)).operations) t }
        cores := x.cores.mapIdx fun k o =>
          { o with core := coreLedger c (upToHlt o.operations), activeCycles := times.core t k }
        activeCycles := times.tile t }
    queueBusyCycles := times.busy
    isTracking := times.tracking }

end Ramwich.Spec
