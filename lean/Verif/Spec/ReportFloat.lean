import Verif.Spec.ReportTime
import Verif.Spec.GetStatsFloat

/-! # What a run prints in float64 -/
namespace Ramwich.Spec

/-- The number of rows of a transfer is not negative. -/
def rowsOk : Placed → Prop
  | .core _ _ _ (.load _ _ _ vec) => 0 ≤ vec
  | .core _ _ _ (.store _ _ _ vec) => 0 ≤ vec
  | .tile _ _ (.send _ _ _ vec) => 0 ≤ vec
  | .tile _ _ (.receive _ _ _ vec) => 0 ≤ vec
  | _ => True

instance (p : Placed) : Decidable (rowsOk p) := by unfold rowsOk; split <;> infer_instance

/-- From `x` to `y`, up to `n` units of `2^-52` on both sides. -/
def within (n : Nat) (x a y : ℚ) : Prop := (1 - n / 2 ^ 52) * x ≤ a ∧ a ≤ (1 + n / 2 ^ 52) * y

end Ramwich.Spec
