import Verif.Model.Pipeline

/-! # Operations in flight in a pipeline -/
namespace Ramwich.Pipeline

variable {α : Type}

/-- An operation taken from the buffer but not accepted yet. -/
def Ctl.taken : Ctl α → List α
  | .got op => [op]
  | _ => []

/-- An operation accepted but not handed on yet. -/
def Ctl.held : Ctl α → List α
  | .busy op => [op]
  | .putting op => [op]
  | _ => []

/-- What stage `i` has not accepted yet, nearest first: on its way into the stage, in its buffer, held
by the stage before, and so on up to the feed. -/
def inFlight (s : State α) : Nat → List α
  | 0 => (s.ctl 0).taken ++ s.buf 0 ++ s.feed
  | i + 1 => (s.ctl (i + 1)).taken ++ s.buf (i + 1) ++ (s.ctl i).held ++ inFlight s i

end Ramwich.Pipeline
