import Verif.Model.Ops

/-! # `src/ramwich/pipeline.py` as a transition system

The stages are simpy processes; each pending simpy event (a `get`, a `put`, an operation's own event)
may fire at any moment at which simpy could fire it, so a step relation covers every latency and
every tie-break of the event queue. Code between two `yield`s is one step. Operations are of any type
`α`; `hlt op` is the test `op.type == "hlt"` (pipeline.py:39). -/
namespace Ramwich.Pipeline

/-- Control state of `Stage.run` (pipeline.py:27-44). -/
inductive Ctl (α : Type)
  /-- waiting in `input_buffer.get()` (line 32) -/
  | idle
  /-- the `get` event has taken the operation from the buffer, the process has not resumed yet -/
  | got (op : α)
  /-- `op.accept(visitor)` was called, its event has not fired (line 34) -/
  | busy (op : α)
  /-- waiting in `output_buffer.put(op)` (line 37) -/
  | putting (op : α)
  /-- the `put` was accepted (or there is no output buffer); line 39 comes next -/
  | after (op : α)
  /-- the loop was left (line 44) -/
  | stopped
  deriving DecidableEq

/-- State of a pipeline. Stage `i` reads from buffer `i`; buffer 0 is `first_stage_buffer`. `feed` is
the queue of `put`s by `Core.run` (core.py:149-150) that the first buffer has not accepted yet. -/
structure State (α : Type) where
  feed : List α
  /-- contents of the stores -/
  buf : Nat → List α := fun _ => []
  ctl : Nat → Ctl α := fun _ => .idle
  /-- operations whose `accept` was called by the stage, oldest first -/
  accepted : Nat → List α := fun _ => []
  /-- `completion_event.triggered` of the stage -/
  completed : Nat → Bool := fun _ => false
  /-- how many completion events `_monitor_for_completion` has waited for (lines 93-96) -/
  monitor : Nat := 0
  /-- `done_event.triggered` (lines 99-100) -/
  done : Bool := false

/-- Update of a function at one point
(assignment to an attribute of the `i`-th stage of pipeline.py:66-81). -/
def upd {β : Type} (f : Nat → β) (i : Nat) (b : β) : Nat → β := fun j => if j = i then b else f j

/-- `Pipeline.__init__`, `run` and the feeding loop of `Core.run` (pipeline.py:58-91,
core.py:141-150). -/
def init {α : Type} (prog : List α) : State α := { feed := prog }

/-- Capacity of every store (pipeline.py:62, 74). -/
def capacity : Nat := 1

/-- One step of a pipeline with `n` stages (pipeline.py:27-44, 93-100). -/
inductive Step {α : Type} (hlt : α → Bool) (n : Nat) : State α → State α → Prop
  /-- the first buffer accepts the oldest pending `put` -/
  | feedIn (s : State α) (op : α) (rest : List α) (h : s.feed = op :: rest)
      (hb : (s.buf 0).length < capacity) :
      Step hlt n s { s with feed := rest, buf := upd s.buf 0 (s.buf 0 ++ [op]) }
  /-- a pending `get` takes the oldest item -/
  | take (s : State α) (i : Nat) (hi : i < n) (op : α) (rest : List α) (hc : s.ctl i = .idle)
      (hb : s.buf i = op :: rest) :
      Step hlt n s { s with buf := upd s.buf i rest, ctl := upd s.ctl i (.got op) }
  /-- the stage resumes and calls the visitor -/
  | start (s : State α) (i : Nat) (hi : i < n) (op : α) (hc : s.ctl i = .got op) :
      Step hlt n s { s with
        ctl := upd s.ctl i (.busy op)
        accepted := upd s.accepted i (s.accepted i ++ [op]) }
  /-- the operation's event fires: the last stage goes on to line 39, others to `put` -/
  | finish (s : State α) (i : Nat) (hi : i < n) (op : α) (hc : s.ctl i = .busy op) :
      Step hlt n s { s with ctl := upd s.ctl i (if i + 1 = n then .after op else .putting op) }
  /-- the output buffer accepts the operation -/
  | putIn (s : State α) (i : Nat) (hi : i < n) (op : α) (hc : s.ctl i = .putting op)
      (hb : (s.buf (i + 1)).length < capacity) :
      Step hlt n s { s with
        buf := upd s.buf (i + 1) (s.buf (i + 1) ++ [op])
        ctl := upd s.ctl i (.after op) }
  /-- line 39: go round the loop -/
  | again (s : State α) (i : Nat) (hi : i < n) (op : α) (hc : s.ctl i = .after op)
      (hh : hlt op = false) :
      Step hlt n s { s with ctl := upd s.ctl i .idle }
  /-- lines 39-44: signal completion and leave -/
  | stop (s : State α) (i : Nat) (hi : i < n) (op : α) (hc : s.ctl i = .after op)
      (hh : hlt op = true) :
      Step hlt n s { s with
        ctl := upd s.ctl i .stopped
        completed := upd s.completed i true }
  /-- the monitor passes the completion event it waits for -/
  | monitor (s : State α) (hm : s.monitor < n) (hc : s.completed s.monitor = true) :
      Step hlt n s { s with monitor := s.monitor + 1 }
  /-- lines 99-100 -/
  | signal (s : State α) (hm : s.monitor = n) (hd : s.done = false) :
      Step hlt n s { s with done := true }

/-- States reached from the initial one by any number of steps (the processes of pipeline.py:83-87). -/
inductive Reach {α : Type} (hlt : α → Bool) (n : Nat) (prog : List α) : State α → Prop
  | init : Reach hlt n prog (init prog)
  | step {s t : State α} : Reach hlt n prog s → Step hlt n s t → Reach hlt n prog t

end Ramwich.Pipeline
