import Verif.Model.Collect

/-! # What is printed if workers fail -/
namespace Ramwich.Spec

/-- What worker `w` does: it raises `e` if `fails w = some e`, and else it returns one result for each of its samples. -/
def outcome (batches : List (List Nat)) (right : Nat → Bool) (fails : Nat → Option PyErr) (w : Nat) :
    Except PyErr (List Bool) :=
  match fails w with
  | some e => .error e
  | none => .ok ((batches.getD w []).map right)

/-- What all workers do. -/
def outcomes (batches : List (List Nat)) (right : Nat → Bool) (fails : Nat → Option PyErr) :
    List (Nat × Except PyErr (List Bool)) :=
  (List.range batches.length).map fun w => (w, outcome batches right fails w)

/-- What the workers raise, if anything. -/
def raised (out : Nat → Except PyErr (List Bool)) (w : Nat) : Option PyErr :=
  match out w with
  | .error e => some e
  | .ok _ => none

/-- The sample is one of a worker that does not fail. -/
def served (batches : List (List Nat)) (fails : Nat → Option PyErr) (i : Nat) : Bool :=
  (List.range batches.length).any fun w => (fails w).isNone && (batches.getD w []).contains i

end Ramwich.Spec
