import Verif.Model.DramController

/-! # Processes that use a DRAM controller, as in `tests/test_dram_controller.py`

Each process of the tests is a sequence of three kinds of statements: `yield env.timeout(n)`,
`event = controller.submit_..._request(...)` and `yield event`. The model runs any number of such
processes beside the controller of `Model/DramController.lean`. As there, the order of the events of one
time is left open (simpy has one fixed order among these), and time only passes when neither the
controller nor a process has anything to do at the current time. The creation of a process and the pieces
of code between two statements take no time and are part of the next action. -/
namespace Ramwich

/-- A statement of a process (tests/test_dram_controller.py:43-49, 80-86, 111-127, 151-173, 199-214).
`await i` waits for the event of the `i`-th request that the process submits (counted from 0). Delays
are natural numbers. -/
inductive ClientOp
  | sleep (n : Nat)
  | submit (core start : Int) (kind : ReqKind)
  | await (i : Nat)
  deriving DecidableEq, Repr

/-- A process (tests/test_dram_controller.py:43-49, 111-127). `done` are the statements it has executed
(ghost), `wake` the end of the `timeout` it is in, `sent` the ids of its requests, `got` what its
`yield event`s returned: number of the event, time, value (`None` for a write; dram_controller.py:244,
275). -/
structure Client where
  todo : List ClientOp
  done : List ClientOp := []
  wake : Option Nat := none
  sent : List Nat := []
  got : List (Nat × Nat × Option (List I32)) := []
  deriving DecidableEq, Repr

/-- Which event was triggered (dram_controller.py:244, 275). -/
def Answer.id : Answer → Nat
  | .wrote r _ => r.id
  | .read r _ _ => r.id

/-- The value of a triggered event: `succeed()` or `succeed(data)` (dram_controller.py:244, 275). -/
def Answer.value : Answer → Option (List I32)
  | .wrote .. => none
  | .read _ _ data => some data

/-- The next action of a process; `none` if it has to wait or has ended
(tests/test_dram_controller.py:43-49, 80-86, 111-127, 151-173, 199-214). A `timeout` takes two actions:
its creation and its end. -/
def Client.step (cl : Client) (c : Ctrl) : Option (Client × Ctrl) :=
  match cl.todo with
  | [] => none
  | .sleep n :: rest =>
    match cl.wake with
    | none => some ({ cl with wake := some (c.now + n) }, c)
    | some t =>
      if t ≤ c.now then some ({ cl with todo := rest, done := cl.done ++ [.sleep n], wake := none }, c)
      else none
  | .submit core start kind :: rest =>
    some ({ cl with todo := rest, done := cl.done ++ [.submit core start kind],
                    sent := cl.sent ++ [c.submitted.length] }, c.submit core start kind)
  | .await i :: rest =>
    match cl.sent[i]? with
    | none => none
    | some id =>
      match c.answers.find? (fun a => a.id == id) with
      | none => none
      | some a =>
        some ({ cl with todo := rest, done := cl.done ++ [.await i],
                        got := cl.got ++ [(i, c.now, a.value)] }, c)

/-- The environment of a test: a controller and the processes (tests/test_dram_controller.py:11-29,
51-52). -/
structure Bench where
  ctrl : Ctrl
  clients : List Client
  deriving DecidableEq, Repr

/-- The fixture, on a DRAM with the given contents, and one process for each script
(tests/test_dram_controller.py:11-29, 51-52, 70-74, 129-131). The processes have not begun. -/
def Bench.start (mem : Memory) (valid : List Bool) (now : Nat) (scripts : List (List ClientOp)) : Bench :=
  { ctrl := Ctrl.started mem valid now, clients := scripts.map fun s => { todo := s } }

/-- What happens next (tests/test_dram_controller.py:55, dram_controller.py:199-275): the next action of
process `i`, a step of the controller, or time passes. -/
inductive BenchAct
  | client (i : Nat)
  | pick
  | dispatch
  | grant
  | complete
  | tick
  deriving DecidableEq, Repr

/-- One action; `none` if it cannot happen. `env.run` raises when a process has raised
(tests/test_dram_controller.py:55, dram_controller.py:199-275). -/
def Bench.act (lat : Int) (b : Bench) (a : BenchAct) : Option Bench :=
  if b.ctrl.crashed.isSome then none
  else match a with
    | .client i =>
      match b.clients[i]? with
      | none => none
      | some cl => (cl.step b.ctrl).map fun p => { ctrl := p.2, clients := b.clients.set i p.1 }
    | .pick => b.ctrl.pick.map fun c => { b with ctrl := c }
    | .dispatch => b.ctrl.dispatch.map fun c => { b with ctrl := c }
    | .grant => (b.ctrl.grant lat).map fun c => { b with ctrl := c }
    | .complete => (b.ctrl.complete lat).map fun c => { b with ctrl := c }
    | .tick =>
      if b.clients.all fun cl => (cl.step b.ctrl).isNone then b.ctrl.tick.map fun c => { b with ctrl := c }
      else none

/-- A sequence of actions; `none` if one of them cannot happen. `env.run(until=T)`
(tests/test_dram_controller.py:55, 92, 134, 179, 220) stops in the state in which the time has become
`T` and nothing has happened at `T` yet. -/
def Bench.run (lat : Int) : Bench → List BenchAct → Option Bench
  | b, [] => some b
  | b, a :: as => (b.act lat a).bind fun b => Bench.run lat b as

/-- `requester` of `test_write_request` (tests/test_dram_controller.py:43-49); `rows` is `shape[0]` of the
array. -/
def testWriter (core start : Int) (data : List I32) (rows : Nat) : List ClientOp :=
  [.submit core start (.write data rows), .await 0]

/-- `requester` of `test_read_request_valid_data` and `read_requester` (tests/test_dram_controller.py:80-86,
111-119). -/
def testReader (core start batchSize numBatches : Int) : List ClientOp :=
  [.submit core start (.read batchSize numBatches), .await 0]

/-- `write_requester` (tests/test_dram_controller.py:122-127). -/
def testDelayed (delay : Nat) (core start : Int) (data : List I32) (rows : Nat) : List ClientOp :=
  [.sleep delay, .submit core start (.write data rows), .await 0]

/-- `requester` of `test_multiple_requests_order` (tests/test_dram_controller.py:151-173): the read is of the
words of the first write. -/
def testOrder (delay1 delay2 : Nat) (core start1 : Int) (data1 : List I32) (rows1 : Nat) (start2 : Int)
    (data2 : List I32) (rows2 : Nat) (batchSize numBatches : Int) : List ClientOp :=
  [.sleep delay1, .submit core start1 (.write data1 rows1),
   .sleep delay2, .submit core start2 (.write data2 rows2),
   .await 0, .await 1, .submit core start1 (.read batchSize numBatches), .await 2]

/-- `test_sequence` (tests/test_dram_controller.py:199-214). -/
def testPartial (core start : Int) (data1 : List I32) (rows1 : Nat) (data2 : List I32) (rows2 : Nat)
    (batchSize numBatches : Int) : List ClientOp :=
  [.submit core start (.write data1 rows1), .await 0,
   .submit core start (.read batchSize numBatches),
   .submit core (start + data1.length) (.write data2 rows2), .await 2, .await 1]

end Ramwich
