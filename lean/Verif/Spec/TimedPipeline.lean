import Verif.Model.TimedPipeline

/-! # Times of the operations in a pipeline -/
namespace Ramwich.Pipeline

variable {α : Type}

/-- The time at position `k - 1`, `d` for `k = 0`. -/
def before (l : List Nat) (k d : Nat) : Nat := if k = 0 then d else l.getD (k - 1) 0

/-- The arrivals in the input buffer of stage `i`. -/
def Timed.arrivals (s : Timed α) : Nat → List Nat
  | 0 => s.fed
  | i + 1 => s.leaves i

/-- `f 0 + ... + f (m - 1)`. -/
def total (f : Nat → Nat) : Nat → Nat
  | 0 => 0
  | m + 1 => total f m + f m

end Ramwich.Pipeline
