import Verif.Model.Stats
import Mathlib.Algebra.Group.Basic
import Mathlib.Algebra.BigOperators.Group.List.Basic

/-! # What statistics dictionaries mean

A dictionary denotes a function from component names to four numbers; a missing component counts as
zero. -/
namespace Ramwich.Spec

/-- Statistics are added number by number. -/
instance : Add Stats where
  add a b := ⟨a.activationCount + b.activationCount, a.dynamicEnergy + b.dynamicEnergy,
    a.leakageEnergy + b.leakageEnergy, a.area + b.area⟩

instance : Zero Stats where
  zero := ⟨0, 0, 0, 0⟩

theorem stats_ext {a b : Stats} (h1 : a.activationCount = b.activationCount)
    (h2 : a.dynamicEnergy = b.dynamicEnergy) (h3 : a.leakageEnergy = b.leakageEnergy)
    (h4 : a.area = b.area) : a = b := by
  cases a; cases b; simp only at h1 h2 h3 h4; subst h1 h2 h3 h4; rfl

instance : AddCommMonoid Stats where
  add_assoc a b c := stats_ext (add_assoc ..) (add_assoc ..) (add_assoc ..) (add_assoc ..)
  zero_add a := stats_ext (zero_add _) (zero_add _) (zero_add _) (zero_add _)
  add_zero a := stats_ext (add_zero _) (add_zero _) (add_zero _) (add_zero _)
  add_comm a b := stats_ext (add_comm ..) (add_comm ..) (add_comm ..) (add_comm ..)
  nsmul := nsmulRec

/-- The numbers that dictionary `d` holds for a component. -/
def statOf (d : StatsDict) (h : Heap) (k : String) : Stats :=
  match d.find k with
  | some r => h.get r
  | none => 0

/-- The objects of a dictionary. -/
def refs (d : StatsDict) : List Ref := d.map (·.2)

/-- The component names of a dictionary. -/
def names (d : StatsDict) : List String := d.map (·.1)

/-- A dictionary as Python builds it: no key twice, every value an existing object, no object under two
keys. -/
structure wellFormed (d : StatsDict) (h : Heap) : Prop where
  names : (Spec.names d).Nodup
  refs : (Spec.refs d).Nodup
  alive : ∀ r ∈ Spec.refs d, r < h.length

/-- The two dictionaries hold different objects. -/
def separate (a b : StatsDict) : Prop := ∀ r ∈ refs a, r ∉ refs b

/-- Merge dictionaries one after the other into a new one. -/
def mergeAll (ds : List StatsDict) (h : Heap) : StatsDict × Heap :=
  ds.foldl (fun p d => p.1.merge d p.2) ([], h)

end Ramwich.Spec
