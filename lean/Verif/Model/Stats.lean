import Mathlib.Data.Rat.Floor
import Verif.Model.Py

/-! # `src/ramwich/stats.py`

`Stats` objects are mutable and a `StatsDict` holds references to them; `StatsDict.merge` stores the
other dictionary's object when the key is new. The model therefore has a heap of `Stats` objects. -/
namespace Ramwich

/-- `Stats` (stats.py:6-10). Counts are integers, energies and areas exact rationals. -/
structure Stats where
  activationCount : Int := 0
  dynamicEnergy : ℚ := 0
  leakageEnergy : ℚ := 0
  area : ℚ := 0
  deriving DecidableEq, Repr

/-- The field updates of `Stats.merge` (stats.py:14-17). -/
def Stats.merge (self other : Stats) : Stats :=
  { activationCount := self.activationCount + other.activationCount
    dynamicEnergy := self.dynamicEnergy + other.dynamicEnergy
    leakageEnergy := self.leakageEnergy + other.leakageEnergy
    area := self.area + other.area }

/-- Identity of a `Stats` object: its position in the heap (stats.py:6-10). -/
abbrev Ref := Nat

/-- All `Stats` objects ever created, in order of creation (stats.py:6-10). -/
abbrev Heap := List Stats

/-- Attribute access through a reference (as at stats.py:12-19). -/
def Heap.get (h : Heap) (r : Ref) : Stats := List.getD h r {}

/-- Creating an object (stats.py:6-10). -/
def Heap.new (h : Heap) (s : Stats) : Ref × Heap := (h.length, h ++ [s])

/-- Attribute update through a reference (as at stats.py:12-19). -/
def Heap.put (h : Heap) (r : Ref) (s : Stats) : Heap := List.set h r s

/-- `StatsDict` (stats.py:21-22): a Python `dict`, entries in insertion order. -/
abbrev StatsDict := List (String × Ref)

/-- `self[key]` / `key in self` (stats.py:26-31). -/
def StatsDict.find (d : StatsDict) (k : String) : Option Ref :=
  match d with
  | [] => none
  | e :: d => if e.1 = k then some e.2 else StatsDict.find d k

/-- One round of the loop of `StatsDict.merge` (stats.py:26-30). -/
def StatsDict.mergeEntry (p : StatsDict × Heap) (e : String × Ref) : StatsDict × Heap :=
  match p.1.find e.1 with
  | some r => (p.1, p.2.put r ((p.2.get r).merge (p.2.get e.2)))
  | none => (p.1 ++ [e], p.2)

/-- `StatsDict.merge` (stats.py:24-31): the receiver and the heap afterwards. -/
def StatsDict.merge (self other : StatsDict) (h : Heap) : StatsDict × Heap :=
  other.foldl StatsDict.mergeEntry (self, h)

/-- `StatsDict.update_leakage_energy` (stats.py:33-37). -/
def StatsDict.updateLeakage (d : StatsDict) (cycles : Int) (h : Heap) : Heap :=
  d.foldl (fun h e => h.put e.2 { h.get e.2 with leakageEnergy := (h.get e.2).leakageEnergy * cycles }) h

/-- `StatsDict.summary` (stats.py:39-44): the fields of the new object it returns. -/
def StatsDict.summary (d : StatsDict) (h : Heap) : Stats :=
  d.foldl (fun s e => s.merge (h.get e.2)) {}

end Ramwich
