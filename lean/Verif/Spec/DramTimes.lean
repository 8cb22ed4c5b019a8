import Verif.Spec.DramController

/-! # When the requests of a DRAM controller should be answered

The controller as a queue with one server: a request that takes `edram_lat * num_batches` cycles. -/
namespace Ramwich.Spec

/-- Cycles that the DRAM needs for a request. -/
def serviceTime (lat : Int) (r : Req) : Nat := (lat * r.numBatches).toNat

/-- Completion times of requests served one after the other in the given order, if the server is free from
time `free` on and serves a request as soon as it is submitted and the one before is completed. -/
def queueTimes (lat : Int) : Nat → List Req → List Nat
  | _, [] => []
  | free, r :: rs =>
    let t := max free r.submitTime + serviceTime lat r
    t :: queueTimes lat t rs

/-- The waiting times that follow from the submission times of requests served in the given order. -/
def queueWaits (lat : Int) (free : Nat) (rs : List Req) : List Int :=
  List.zipWith (fun (t : Nat) (r : Req) => (t : Int) - r.submitTime) (queueTimes lat free rs) rs

/-- Cycles needed for the requests of a list. -/
def workload (lat : Int) (rs : List Req) : Nat := (rs.map (serviceTime lat)).sum

/-- The requests in front of one that is submitted now, in the order in which they will be looked at. -/
def _root_.Ramwich.Ctrl.ahead (c : Ctrl) : List Req := c.bus ++ c.handed.toList ++ c.queue

/-- The time at which all requests ahead have been served if all of them can be served: the one in service ends
at `deadline`. -/
def _root_.Ramwich.Ctrl.clearAt (lat : Int) (c : Ctrl) : Nat :=
  match c.deadline with
  | none => c.now + workload lat c.ahead
  | some d => d + workload lat c.ahead.tail

/-- The request need not wait for data: it is a write, or it reads a block of words that are all valid. -/
def Servable (valid : List Bool) (r : Req) : Prop :=
  r.isWrite = true ∨
    inDram valid.length r ∧ 0 ≤ r.length ∧ ∀ a : Nat, covers r a → valid.getD a false = true

end Ramwich.Spec
