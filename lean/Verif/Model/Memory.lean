import Verif.Model.Py

/-! # `src/ramwich/blocks/memory.py` -/
namespace Ramwich

/-- Counters of `MemoryStats` (memory.py:11-24). `batch` arguments are `Int` because Python does not
restrict their sign. -/
structure MemoryStats where
  readOperations : Int := 0
  readCells : Int := 0
  writeOperations : Int := 0
  writeCells : Int := 0
  totalOperations : Int := 0
  totalOperatedCells : Int := 0
  deriving DecidableEq, Repr

/-- Counter update of a successful read (memory.py:104-107, inreg.py:58-61, outreg.py:61-64, 73-77). -/
def MemoryStats.addRead (s : MemoryStats) (batch cells : Int) : MemoryStats :=
  { s with
    readOperations := s.readOperations + batch
    readCells := s.readCells + cells
    totalOperations := s.totalOperations + batch
    totalOperatedCells := s.totalOperatedCells + cells }

/-- Counter update of a successful write (memory.py:133-136, inreg.py:44-47, 70-73, outreg.py:37-54,
88-91). -/
def MemoryStats.addWrite (s : MemoryStats) (batch cells : Int) : MemoryStats :=
  { s with
    writeOperations := s.writeOperations + batch
    writeCells := s.writeCells + cells
    totalOperations := s.totalOperations + batch
    totalOperatedCells := s.totalOperatedCells + cells }

/-- `Memory` (memory.py:80-90): `SRAM` and `DRAM` only fix the size (memory.py:142-165). `size` is
kept separately from the array as in Python. -/
structure Memory where
  size : Nat
  cells : List I32
  stats : MemoryStats := {}
  deriving DecidableEq, Repr

/-- `Memory.__init__` (memory.py:83-90). -/
def Memory.new (size : Nat) : Memory :=
  { size := size, cells := List.replicate size 0 }

/-- `Memory.read` (memory.py:92-109). -/
def Memory.read (m : Memory) (start length : Int) (batch : Int := 1) : Res Memory (List I32) :=
  let stop := start + length
  if start < 0 ∨ stop > m.size then (.error .indexError, m)
  else if length ≤ 0 then (.error .valueError, m)
  else (.ok (pySlice m.cells start stop), { m with stats := m.stats.addRead batch length })

/-- `Memory.write` (memory.py:116-136), array argument. (An `int` argument is the one-element
array, memory.py:119-120.) -/
def Memory.write (m : Memory) (start : Int) (values : List I32) (batch : Int := 1) : Res Memory Unit :=
  let length : Int := values.length
  let stop := start + length
  if start < 0 ∨ stop > m.size then (.error .indexError, m)
  else (.ok (), { m with
    cells := pySliceSet m.cells start.toNat values
    stats := m.stats.addWrite batch length })

/-- `Memory.reset` (memory.py:111-114). -/
def Memory.reset (m : Memory) : Memory :=
  { m with cells := List.replicate m.cells.length 0, stats := {} }

end Ramwich
