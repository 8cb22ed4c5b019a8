import Verif.Spec.Counters

/-! # What is left of a node when the data are taken away

Contents of registers, memories, crossbars and packets are replaced by zeros (or dropped); sizes, counters and
everything else stay. -/
namespace Ramwich.Spec

/-- As many zeros. -/
def blank (l : List I32) : List I32 := l.map fun _ => 0

/-- A memory without its contents. -/
def _root_.Ramwich.Memory.books (m : Memory) : Memory := { m with cells := blank m.cells }

/-- An MVMU without contents of registers and crossbars. The two counters that depend on the data, the overflows and
the sum of the errors of the ADCs, are dropped, too; neither is in a report. -/
def _root_.Ramwich.Mvmu.books (m : Mvmu) : Mvmu :=
  { m with
    inreg := { m.inreg with registers := blank m.inreg.registers }
    outreg := { m.outreg with registers := blank m.outreg.registers }
    rram := { posXbar := [], negXbar := [], mvmOperations := m.rram.mvmOperations }
    sram := { posXbar := [], negXbar := [], macOperations := m.sram.macOperations }
    adcStats := { conversions := m.adcStats.conversions, activeCycles := m.adcStats.activeCycles } }

/-- A core without the contents of its registers, memory and crossbars. -/
def _root_.Ramwich.Core.books (c : Core) : Core :=
  { c with mvmus := c.mvmus.map Mvmu.books, cache := c.cache.books }

/-- An event of a tile process without the contents of the rows. -/
def blankEv : TileEv → TileEv
  | .sent a t w v rows => .sent a t w v (rows.map blank)
  | .row s x => .row s (blank x)
  | .received a s w v rows => .received a s w v (rows.map blank)
  | .halted => .halted

/-- Two nodes run the same programs from the same counters, on any data. -/
structure samePrograms (i i' : SysInit) : Prop where
  ops : ∀ t, i'.ops t = i.ops t
  prog : ∀ t k, i'.prog t k = i.prog t k
  core : ∀ t k, (i'.core t k).books = (i.core t k).books
  stats : ∀ t, (i'.mem t).stats = (i.mem t).stats

/-- Two nodes have the same operations for every tile and core and the same counters of the DRAMs. Weights and
contents of the DRAMs may differ. -/
structure sameTask (n n' : NodeObj) : Prop where
  count : n'.tiles.length = n.tiles.length
  tile : ∀ (t : Nat) (x x' : TileObj), n.tiles[t]? = some x → n'.tiles[t]? = some x' →
    x'.id = x.id ∧ x'.operations = x.operations ∧
    x'.cores.map (fun o => o.operations) = x.cores.map (fun o => o.operations) ∧
    x'.ctrl.mem.stats = x.ctrl.mem.stats

end Ramwich.Spec
