import Verif.Model.Pipeline

/-! # `src/ramwich/pipeline.py` with the clock of simpy

The transition system of `Model/Pipeline.lean` together with the time `env.now`. simpy advances the clock
only when no event is left at the current time: `tick` is possible only when no stage can do anything
(`quiet`). Which of several possible actions comes first at one time is left open. Times are natural
numbers (every latency of the simulator is an integer). -/
namespace Ramwich.Pipeline

/-- A pipeline with a clock. `deadline i`: when the event of the operation in stage `i` fires (line 34), if
this is fixed when the visitor is called. The other fields are ghost histories: the times at which the
first buffer accepted an operation; at which stage `i` took an operation from its buffer, called the
visitor, saw the event of the operation fire, got rid of the operation (the `put` was accepted; at once for
the last stage); and at which `done_event` was triggered (pipeline.py:27-44, 55-104). -/
structure Timed (α : Type) where
  st : State α
  now : Nat
  deadline : Nat → Option Nat := fun _ => none
  fed : List Nat := []
  takes : Nat → List Nat := fun _ => []
  starts : Nat → List Nat := fun _ => []
  finishes : Nat → List Nat := fun _ => []
  leaves : Nat → List Nat := fun _ => []
  doneAt : Option Nat := none

/-- `Core.run` at time `t0` (core.py:127-150). -/
def Timed.init {α : Type} (prog : List α) (t0 : Nat) : Timed α := { st := Pipeline.init prog, now := t0 }

/-- The actions of a pipeline; see `Step`. `next`: line 39 (pipeline.py:27-44, 89-100). -/
inductive PAct
  | feedIn
  | take (i : Nat)
  | start (i : Nat)
  | finish (i : Nat)
  | putIn (i : Nat)
  | next (i : Nat)
  | monitor
  | signal
  | tick
  deriving DecidableEq, Repr

variable {α : Type}

/-- The first buffer accepts the oldest pending `put` (core.py:149-150, pipeline.py:86-88). -/
def Timed.feedIn (s : Timed α) : Option (Timed α) :=
  match s.st.feed with
  | [] => none
  | op :: rest =>
    if (s.st.buf 0).length < capacity then
      some { s with
        st := { s.st with feed := rest, buf := upd s.st.buf 0 (s.st.buf 0 ++ [op]) }
        fed := s.fed ++ [s.now] }
    else none

/-- `input_buffer.get()` (pipeline.py:32) takes the oldest item. -/
def Timed.take (s : Timed α) (i : Nat) : Option (Timed α) :=
  match s.st.ctl i, s.st.buf i with
  | .idle, op :: rest => some { s with
      st := { s.st with buf := upd s.st.buf i rest, ctl := upd s.st.ctl i (.got op) }
      takes := upd s.takes i (s.takes i ++ [s.now]) }
  | _, _ => none

/-- `op.accept(self.visitor)` (pipeline.py:34): the event fires after `lat i k` cycles for the `k`-th
operation, `none` if something else decides about that. -/
def Timed.start (lat : Nat → Nat → Option Nat) (s : Timed α) (i : Nat) : Option (Timed α) :=
  match s.st.ctl i with
  | .got op => some { s with
      st := { s.st with
        ctl := upd s.st.ctl i (.busy op)
        accepted := upd s.st.accepted i (s.st.accepted i ++ [op]) }
      deadline := upd s.deadline i ((lat i (s.st.accepted i).length).map fun d => s.now + d)
      starts := upd s.starts i (s.starts i ++ [s.now]) }
  | _ => none

/-- The event may fire now (pipeline.py:34). -/
def Timed.due (s : Timed α) (i : Nat) : Bool :=
  match s.deadline i with
  | none => true
  | some d => decide (d = s.now)

/-- The event of the operation fires (pipeline.py:34-36). -/
def Timed.finish (n : Nat) (s : Timed α) (i : Nat) : Option (Timed α) :=
  match s.st.ctl i with
  | .busy op =>
    if s.due i then
      some { s with
        st := { s.st with ctl := upd s.st.ctl i (if i + 1 = n then .after op else .putting op) }
        finishes := upd s.finishes i (s.finishes i ++ [s.now])
        leaves := if i + 1 = n then upd s.leaves i (s.leaves i ++ [s.now]) else s.leaves }
    else none
  | _ => none

/-- `output_buffer.put(op)` (pipeline.py:37) is accepted. -/
def Timed.putIn (s : Timed α) (i : Nat) : Option (Timed α) :=
  match s.st.ctl i with
  | .putting op =>
    if (s.st.buf (i + 1)).length < capacity then
      some { s with
        st := { s.st with
          buf := upd s.st.buf (i + 1) (s.st.buf (i + 1) ++ [op])
          ctl := upd s.st.ctl i (.after op) }
        leaves := upd s.leaves i (s.leaves i ++ [s.now]) }
    else none
  | _ => none

/-- Lines 39-44 of pipeline.py. -/
def Timed.next (hlt : α → Bool) (s : Timed α) (i : Nat) : Option (Timed α) :=
  match s.st.ctl i with
  | .after op =>
    if hlt op then some { s with
      st := { s.st with ctl := upd s.st.ctl i .stopped, completed := upd s.st.completed i true } }
    else some { s with st := { s.st with ctl := upd s.st.ctl i .idle } }
  | _ => none

/-- The monitor passes a completion event (pipeline.py:95-96). -/
def Timed.monitor (n : Nat) (s : Timed α) : Option (Timed α) :=
  if s.st.monitor < n ∧ s.st.completed s.st.monitor = true then
    some { s with st := { s.st with monitor := s.st.monitor + 1 } }
  else none

/-- `done_event.succeed()` (pipeline.py:99-100). -/
def Timed.signal (n : Nat) (s : Timed α) : Option (Timed α) :=
  if s.st.monitor = n ∧ s.st.done = false then
    some { s with st := { s.st with done := true }, doneAt := some s.now }
  else none

/-- An action other than the passing of time (pipeline.py:27-44, 89-100). -/
def Timed.move (hlt : α → Bool) (n : Nat) (lat : Nat → Nat → Option Nat) (s : Timed α) :
    PAct → Option (Timed α)
  | .feedIn => s.feedIn
  | .take i => if i < n then s.take i else none
  | .start i => if i < n then s.start lat i else none
  | .finish i => if i < n then s.finish n i else none
  | .putIn i => if i < n then s.putIn i else none
  | .next i => if i < n then s.next hlt i else none
  | .monitor => s.monitor n
  | .signal => s.signal n
  | .tick => none

/-- Stage `i` has nothing to do at the current time. An event that the pipeline does not decide about does
not count (pipeline.py:27-44). -/
def Timed.stageQuiet (hlt : α → Bool) (n : Nat) (lat : Nat → Nat → Option Nat) (s : Timed α) (i : Nat) : Bool :=
  (s.take i).isNone && (s.start lat i).isNone && ((s.finish n i).isNone || (s.deadline i).isNone) &&
    (s.putIn i).isNone && (s.next hlt i).isNone

/-- No event is left at the current time (pipeline.py:27-44, 93-100). -/
def Timed.quiet (hlt : α → Bool) (n : Nat) (lat : Nat → Nat → Option Nat) (s : Timed α) : Bool :=
  s.feedIn.isNone && (s.monitor n).isNone && (s.signal n).isNone &&
    (List.range n).all (s.stageQuiet hlt n lat)

/-- One action; `none` if it cannot happen (pipeline.py:27-44, 89-100). -/
def Timed.act (hlt : α → Bool) (n : Nat) (lat : Nat → Nat → Option Nat) (s : Timed α) (a : PAct) :
    Option (Timed α) :=
  match a with
  | .tick => if s.quiet hlt n lat then some { s with now := s.now + 1 } else none
  | a => s.move hlt n lat a

/-- A sequence of actions; `none` if one of them cannot happen (pipeline.py:27-44, 89-100). -/
def Timed.run (hlt : α → Bool) (n : Nat) (lat : Nat → Nat → Option Nat) : Timed α → List PAct → Option (Timed α)
  | s, [] => some s
  | s, a :: as => (s.act hlt n lat a).bind fun s => Timed.run hlt n lat s as

end Ramwich.Pipeline
