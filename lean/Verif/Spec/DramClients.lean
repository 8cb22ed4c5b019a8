import Verif.Model.DramClients
import Verif.Spec.DramTimes

/-! # Scripts of processes that use a DRAM controller -/
namespace Ramwich.Spec

/-- The request of a statement, without identity and time. -/
def _root_.Ramwich.ClientOp.req : ClientOp → Option Req
  | .submit core start kind => some { id := 0, core := core, start := start, kind := kind, submitTime := 0 }
  | _ => none

/-- The requests of a script, in order. -/
def requests (script : List ClientOp) : List Req := script.filterMap ClientOp.req

/-- Time for which a statement keeps its process or the DRAM busy. -/
def _root_.Ramwich.ClientOp.cost (lat : Int) : ClientOp → Nat
  | .sleep n => n
  | .submit core start kind =>
    serviceTime lat { id := 0, core := core, start := start, kind := kind, submitTime := 0 }
  | .await _ => 0

/-- All delays and all service times of a script. -/
def cost (lat : Int) (script : List ClientOp) : Nat := (script.map (ClientOp.cost lat)).sum

/-- The delays of a script. -/
def delays : List ClientOp → Nat
  | [] => 0
  | .sleep n :: rest => n + delays rest
  | _ :: rest => delays rest

/-- The events a script waits for, in order. -/
def awaited (script : List ClientOp) : List Nat :=
  script.filterMap fun
    | .await i => some i
    | _ => none

/-- All delays and all service times of the scripts. -/
def budget (lat : Int) (scripts : List (List ClientOp)) : Nat := (scripts.map (cost lat)).sum

/-- A request that a DRAM of `size` words can serve: inside the DRAM, reads not empty. -/
def Serviceable (size : Nat) (r : Req) : Prop :=
  inDram size r ∧ 0 ≤ r.numBatches ∧ (r.isWrite = false → 0 < r.length)

/-- A script waits only for events that it has. -/
def Orderly (script : List ClientOp) : Prop :=
  ∀ pre i post, script = pre ++ .await i :: post → i < (requests pre).length

/-- The request reads only words that are valid at the start. -/
def preloaded (valid : List Bool) (r : Req) : Bool :=
  (List.range valid.length).all fun a => decide (covers r a → valid.getD a false = true)

/-- The statement waits for the event of a read. -/
def awaitsRead (script : List ClientOp) : ClientOp → Bool
  | .await i => match (requests script)[i]? with
    | some r => !r.isWrite
    | none => false
  | _ => false

/-- What a process executes without waiting for a read. -/
def certain (script : List ClientOp) : List ClientOp := script.takeWhile fun op => !awaitsRead script op

/-- Every word of a read is valid at the start or written by a request that some process submits without
waiting for a read. -/
def Supplied (valid : List Bool) (scripts : List (List ClientOp)) : Prop :=
  ∀ s ∈ scripts, ∀ r ∈ requests s, r.isWrite = false → ∀ a : Nat, covers r a →
    valid.getD a false = true ∨
      ∃ s' ∈ scripts, ∃ w ∈ requests (certain s'), w.isWrite = true ∧ covers w a

/-- Scripts that cannot block: requests fit, waiting is orderly, data is supplied, and at most one read
may have to wait for data (the controller may forget a second one, C32). -/
structure Sound (lat : Int) (mem : Memory) (valid : List Bool) (scripts : List (List ClientOp)) : Prop where
  cells : mem.cells.length = mem.size
  valids : valid.length = mem.size
  latency : 0 ≤ lat
  fits : ∀ s ∈ scripts, ∀ r ∈ requests s, Serviceable mem.size r
  orderly : ∀ s ∈ scripts, Orderly s
  supplied : Supplied valid scripts
  oneWaits : ((scripts.flatMap requests).filter fun r => !r.isWrite && !preloaded valid r).length ≤ 1

end Ramwich.Spec
