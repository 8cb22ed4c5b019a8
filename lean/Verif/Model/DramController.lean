import Verif.Model.Memory

/-! # `src/ramwich/blocks/dram_controller.py` as a transition system

The controller is a set of simpy processes: the request handler and one thread per request in
service. The model has one atomic action per piece of code between two `yield`s; any enabled action
may come next, except that time only passes (`tick`) when the controller has nothing to do at the
current time, as in simpy's event queue. Requesters are not restricted: they may submit anything at
any moment. Times are natural numbers (every latency of the simulator is an integer). A Python
exception inside a simpy process ends the simulation: no action is possible afterwards. -/
namespace Ramwich

/-- The part of a request that differs between `ReadRequest` and `WriteRequest`
(dram_controller.py:28-49). `data` is the flattened array, `rows` its `shape[0]`. -/
inductive ReqKind
  | read (batchSize numBatches : Int)
  | write (data : List I32) (rows : Nat)
  deriving DecidableEq, Repr

/-- `Request` (dram_controller.py:14-25). `id` stands for the identity of `done_event`: the number of
requests submitted before this one. `core_id` is only used for logging by the submitters. -/
structure Req where
  id : Nat
  core : Int
  start : Int
  kind : ReqKind
  submitTime : Nat
  deriving DecidableEq, Repr

/-- `length` (dram_controller.py:32-35, 41-44). -/
def Req.length (r : Req) : Int :=
  match r.kind with
  | .read b n => b * n
  | .write data _ => data.length

/-- `num_batches` (dram_controller.py:30, 46-49). -/
def Req.numBatches (r : Req) : Int :=
  match r.kind with
  | .read _ n => n
  | .write _ rows => rows

/-- `isinstance(request, WriteRequest)` (dram_controller.py:199-220). -/
def Req.isWrite (r : Req) : Bool :=
  match r.kind with
  | .read .. => false
  | .write .. => true

/-- `DRAMControllerStats` (dram_controller.py:52-65). -/
structure CtrlStats where
  readRequests : Int := 0
  writeRequests : Int := 0
  totalRequests : Int := 0
  totalWaitTime : Int := 0
  maxWaitTime : Int := 0
  activeCycles : Int := 0
  operatingTime : Int := 0
  deriving DecidableEq, Repr

/-- A triggered `done_event` (ghost history): which request, when, and for a read its value
(dram_controller.py:244, 275). -/
inductive Answer
  | wrote (r : Req) (time : Nat)
  | read (r : Req) (time : Nat) (data : List I32)
  deriving DecidableEq, Repr

/-- State of a controller (dram_controller.py:89-120). `handed` is a request that the handler's `get`
has taken from the store while the handler has not resumed yet. `bus` is the queue of
`memory_bus.request()`s: simpy serves it in order, the head owns the bus; threads request the bus in
the order in which the handler starts them (their first step is scheduled at once and with
priority). `deadline` is the end of the head's `timeout`. `submitted`, `answers` and `crashed` are
ghost variables. -/
structure Ctrl where
  mem : Memory
  valid : List Bool
  running : Bool := false
  handlerAlive : Bool := false
  queue : List Req := []
  handed : Option Req := none
  pending : List Req := []
  bus : List Req := []
  deadline : Option Nat := none
  startTime : Nat := 0
  now : Nat := 0
  stats : CtrlStats := {}
  submitted : List Req := []
  answers : List Answer := []
  crashed : Option PyErr := none
  deriving DecidableEq, Repr

/-- `np.all(self.valid[request.start : request.start + request.length])`
(dram_controller.py:209, 284). -/
def ready (valid : List Bool) (r : Req) : Bool := (pySlice valid r.start (r.start + r.length)).all id

/-- The loop of `_update_ready_requests` (dram_controller.py:282-286): a list iterator keeps an index
into the list that `remove` shortens. Returns the requests put into the store and the list left.
`remove` deletes the first equal element; requests are equal only if identical (`done_event`). The
first argument bounds the number of rounds (the index grows in each round, the list never does). -/
def updateLoop (valid : List Bool) : Nat → Nat → List Req → List Req → List Req × List Req
  | 0, _, pending, put => (put, pending)
  | n + 1, i, pending, put =>
    match pending[i]? with
    | none => (put, pending)
    | some r =>
      if ready valid r then updateLoop valid n (i + 1) (pending.erase r) (put ++ [r])
      else updateLoop valid n (i + 1) pending put

/-- `_update_ready_requests` (dram_controller.py:277-286) on a waiting list: the requests put into the
store and the list left. -/
def updateReady (valid : List Bool) (pending : List Req) : List Req × List Req :=
  updateLoop valid pending.length 0 pending []

/-- Statistics of a completed request (dram_controller.py:239-241, 270-272). -/
def CtrlStats.complete (s : CtrlStats) (waited latency : Int) : CtrlStats :=
  { s with
    totalWaitTime := s.totalWaitTime + waited
    maxWaitTime := max s.maxWaitTime waited
    operatingTime := s.operatingTime + latency }

/-- `DRAMController.__init__` and `run` (dram_controller.py:90-122) at time `now`, on a DRAM and a
validity array with the given contents. -/
def Ctrl.started (mem : Memory) (valid : List Bool) (now : Nat) : Ctrl :=
  { mem := mem, valid := valid, running := true, handlerAlive := true, startTime := now, now := now }

/-- An exception leaves a process (dram_controller.py:199-275). -/
def Ctrl.crash (c : Ctrl) (e : PyErr) : Ctrl := { c with crashed := some e }

/-- `submit_read_request` and `submit_write_request` (dram_controller.py:148-197). Submitting to a
stopped controller raises in the submitting process. -/
def Ctrl.submit (c : Ctrl) (core start : Int) (kind : ReqKind) : Ctrl :=
  if c.running = false then c.crash .runtimeError
  else
    let r : Req := { id := c.submitted.length, core := core, start := start, kind := kind,
                     submitTime := c.now }
    let n := r.numBatches
    { c with
      queue := c.queue ++ [r]
      submitted := c.submitted ++ [r]
      stats := match kind with
        | .read .. => { c.stats with
            readRequests := c.stats.readRequests + n
            totalRequests := c.stats.totalRequests + n }
        | .write .. => { c.stats with
            writeRequests := c.stats.writeRequests + n
            totalRequests := c.stats.totalRequests + n } }

/-- The handler's `get` takes the oldest request (dram_controller.py:204). -/
def Ctrl.pick (c : Ctrl) : Option Ctrl :=
  match c.handlerAlive, c.handed, c.queue with
  | true, none, r :: rest => some { c with handed := some r, queue := rest }
  | _, _, _ => none

/-- The handler resumes with a request (dram_controller.py:207-218). -/
def Ctrl.dispatch (c : Ctrl) : Option Ctrl :=
  match c.handlerAlive, c.handed with
  | true, some r =>
      if r.isWrite ∨ ready c.valid r then some { c with handed := none, bus := c.bus ++ [r] }
      else some { c with handed := none, pending := c.pending ++ [r] }
  | _, _ => none

/-- The head of the bus queue gets the bus and starts its `timeout` (dram_controller.py:227-233,
251-257). simpy rejects a negative delay. -/
def Ctrl.grant (lat : Int) (c : Ctrl) : Option Ctrl :=
  match c.bus, c.deadline with
  | r :: _, none =>
      if lat * r.numBatches < 0 then some (c.crash .valueError)
      else some { c with deadline := some (c.now + (lat * r.numBatches).toNat) }
  | _, _ => none

/-- The `timeout` of the head fires (dram_controller.py:235-244, 259-275). -/
def Ctrl.complete (lat : Int) (c : Ctrl) : Option Ctrl :=
  match c.bus, c.deadline with
  | r :: rest, some d =>
      if d ≠ c.now then none
      else
        let stats := c.stats.complete (c.now - r.submitTime) (lat * r.numBatches)
        match r.kind with
        | .read _ _ =>
          match c.mem.read r.start r.length r.numBatches with
          | (.error e, _) => some (c.crash e)
          | (.ok data, mem) => some { c with
              mem := mem, bus := rest, deadline := none, stats := stats
              answers := c.answers ++ [.read r c.now data] }
        | .write data _ =>
          match c.mem.write r.start data r.numBatches with
          | (.error e, _) => some (c.crash e)
          | (.ok (), mem) =>
            let valid := pySliceSet c.valid r.start.toNat (List.replicate data.length true)
            let u := updateReady valid c.pending
            some { c with
              mem := mem, valid := valid, bus := rest, deadline := none, stats := stats
              queue := c.queue ++ u.1, pending := u.2
              answers := c.answers ++ [.wrote r c.now] }
  | _, _ => none

/-- Nothing is left to do at the current time (the processes of dram_controller.py:199-275). -/
def Ctrl.quiescent (c : Ctrl) : Bool :=
  (!c.handlerAlive || (c.handed.isNone && c.queue.isEmpty)) &&
    (match c.bus, c.deadline with
     | [], _ => true
     | _ :: _, none => false
     | _ :: _, some d => decide (c.now < d))

/-- Time passes (`env.now` of the timeouts of dram_controller.py:233, 257). -/
def Ctrl.tick (c : Ctrl) : Option Ctrl :=
  if c.quiescent then some { c with now := c.now + 1 } else none

/-- `stop` (dram_controller.py:124-146): the handler is interrupted (a request it was about to resume
with is dropped), requests waiting for data fail, which ends the simulation. -/
def Ctrl.stop (c : Ctrl) : Option Ctrl :=
  if c.running = false then some c
  else
    let c := { c with
      running := false, handlerAlive := false
      stats := { c.stats with activeCycles := c.stats.activeCycles + (c.now - c.startTime : Int) } }
    if c.pending = [] then some c else some (c.crash .runtimeError)

/-- The actions of a controller and its environment (dram_controller.py:110-275). -/
inductive CtrlAct
  | submit (core start : Int) (kind : ReqKind)
  | pick
  | dispatch
  | grant
  | complete
  | tick
  | stop
  deriving DecidableEq, Repr

/-- One action; `none` if it cannot happen. `lat` is `tile_config.edram_lat` (dram_controller.py:110-275). -/
def Ctrl.act (lat : Int) (c : Ctrl) (a : CtrlAct) : Option Ctrl :=
  if c.crashed.isSome then none
  else match a with
    | .submit core start kind => some (c.submit core start kind)
    | .pick => c.pick
    | .dispatch => c.dispatch
    | .grant => c.grant lat
    | .complete => c.complete lat
    | .tick => c.tick
    | .stop => c.stop

/-- A sequence of actions; `none` if one of them cannot happen (dram_controller.py:110-275). -/
def Ctrl.run (lat : Int) : Ctrl → List CtrlAct → Option Ctrl
  | c, [] => some c
  | c, a :: as => (c.act lat a).bind fun c => Ctrl.run lat c as

/-- `DRAMController.reset` (dram_controller.py:288-292): only the memory, the validity array and the
statistics. -/
def Ctrl.reset (c : Ctrl) : Ctrl :=
  { c with mem := c.mem.reset, valid := List.replicate c.valid.length false, stats := {} }

end Ramwich
