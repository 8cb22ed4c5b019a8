import Verif.Model.Visualize

/-! # What `visualize.py` should show -/
namespace Ramwich.Spec

open Visualize

/-- `np.argsort`: positions in ascending order of the numbers, each position once. -/
def sorts (argsort : List Int → List Nat) : Prop :=
  ∀ l, (argsort l).Perm (List.range l.length) ∧ ((argsort l).map fun i => l.getD i 0).Pairwise (· ≤ ·)

/-- A component is at a depth below some components. -/
inductive atDepth : List Comp → Nat → Comp → Prop
  | here {cs : List Comp} {c : Comp} : c ∈ cs → atDepth cs 0 c
  | inside {cs : List Comp} {c x : Comp} {n : Nat} : c ∈ cs → atDepth c.components n x → atDepth cs (n + 1) x

/-- A bar for a node, a tile of a node or a core of a tile of a node, with the sum of its counts. -/
def isBar (cs : List Comp) (label : String) (operations : Int) : Prop :=
  (∃ n ∈ cs, label = "Node " ++ n.id ∧ operations = n.stats.ops) ∨
  (∃ n ∈ cs, ∃ t ∈ n.components, label = "Tile " ++ n.id ++ "." ++ t.id ∧ operations = t.stats.ops) ∨
  ∃ n ∈ cs, ∃ t ∈ n.components, ∃ c ∈ t.components,
    label = "Core " ++ n.id ++ "." ++ t.id ++ "." ++ c.id ∧ operations = c.stats.ops

/-- The bars in the order of the tree: a node before its tiles, a tile before its cores. -/
def treeBars (cs : List Comp) : List (String × Int) :=
  cs.flatMap fun n => [("Node " ++ n.id, n.stats.ops)] ++ n.components.flatMap fun t =>
    [("Tile " ++ n.id ++ "." ++ t.id, t.stats.ops)] ++ t.components.map fun c =>
      ("Core " ++ n.id ++ "." ++ t.id ++ "." ++ c.id, c.stats.ops)

/-- The number of nodes, tiles and cores. -/
def barCount (cs : List Comp) : Nat :=
  (cs.map fun n => 1 + (n.components.map fun t => 1 + t.components.length).sum).sum

mutual
/-- The number of components in a tree. -/
def compSize : Comp → Nat
  | .mk _ _ _ cs => 1 + treeSize cs

/-- The number of components in some trees. -/
def treeSize : List Comp → Nat
  | [] => 0
  | c :: cs => compSize c + treeSize cs
end

end Ramwich.Spec
