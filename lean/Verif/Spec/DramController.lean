import Verif.Model.DramController

/-! # What a DRAM controller should answer -/
namespace Ramwich.Spec

/-- The request names the DRAM word `a`. -/
def covers (r : Req) (a : Nat) : Prop := r.start ≤ a ∧ (a : Int) < r.start + r.length

instance (r : Req) (a : Nat) : Decidable (covers r a) := by unfold covers; infer_instance

/-- The request lies inside a DRAM of `size` words. -/
def inDram (size : Nat) (r : Req) : Prop := 0 ≤ r.start ∧ r.start + r.length ≤ size

instance (n : Nat) (r : Req) : Decidable (inDram n r) := by unfold inDram; infer_instance

/-- The request of an answer. -/
def _root_.Ramwich.Answer.req : Answer → Req
  | .wrote r _ => r
  | .read r _ _ => r

/-- The time of an answer. -/
def _root_.Ramwich.Answer.time : Answer → Nat
  | .wrote _ t => t
  | .read _ t _ => t

/-- The answered writes, in order. -/
def writesOf (answers : List Answer) : List Req :=
  answers.filterMap fun
    | .wrote r _ => some r
    | .read .. => none

/-- The value a write request stores in word `a`. -/
def _root_.Ramwich.Req.value (r : Req) (a : Nat) : I32 :=
  match r.kind with
  | .write data _ => data.getD (a - r.start).toNat 0
  | .read .. => 0

/-- Contents of word `a` after the writes, given its contents before. -/
def wordAfter (old : I32) (writes : List Req) (a : Nat) : I32 :=
  writes.foldl (fun v w => if covers w a then Req.value w a else v) old

/-- Word `a` has been written. -/
def wordValid (old : Bool) (writes : List Req) (a : Nat) : Bool :=
  writes.foldl (fun v w => if covers w a then true else v) old

/-- Waiting reads released by one pass over the list, and those left: after a release the next
element is not looked at. -/
def release (ok : Req → Bool) : List Req → List Req × List Req
  | [] => ([], [])
  | r :: rest =>
    if ok r then
      match rest with
      | [] => ([r], [])
      | x :: rest' => let p := release ok rest'; (r :: p.1, x :: p.2)
    else let p := release ok rest; (p.1, r :: p.2)

/-- The controller has nothing to do: reads without their data may be waiting. -/
def _root_.Ramwich.Ctrl.idle (c : Ctrl) : Prop := c.queue = [] ∧ c.handed = none ∧ c.bus = []

instance (c : Ctrl) : Decidable c.idle := by unfold Ctrl.idle; infer_instance

/-- Actions of the controller and of time, not of its environment. -/
def _root_.Ramwich.CtrlAct.internal : CtrlAct → Bool
  | .submit .. | .stop => false
  | _ => true

/-- The actions are steps of the controller, each taken while it is not idle. -/
def Works (lat : Int) : Ctrl → List CtrlAct → Prop
  | _, [] => True
  | c, a :: as => a.internal = true ∧ ¬c.idle ∧ ∃ c', c.act lat a = some c' ∧ Works lat c' as

end Ramwich.Spec
