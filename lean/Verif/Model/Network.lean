import Verif.Model.Py
import Verif.Model.Pipeline

/-! # `src/ramwich/blocks/router.py` and `noc.py` as a transition system

One node: its tiles' routers and the network object that connects them (node.py:16-20; every node has
its own `Network`). As in the other transition systems one action is the code between two `yield`s
and any enabled action may come next; latencies only matter through the exceptions they can cause.
The users of the routers (tile processes) are the environment: they may send at any moment except
while they stop their router, and start a read whenever their previous one has returned. -/
namespace Ramwich

open Pipeline (upd)

/-- The configuration values that the routers use. `intraLat`/`interLat` are `None` in Python when the
injection rate is not in the latency table (config.py). -/
structure NetConfig where
  /-- `num_nodes` -/
  nodes : Nat
  /-- `num_tiles_per_node` -/
  tiles : Nat
  intraLat : Option Int
  interLat : Option Int
  deriving DecidableEq, Repr

/-- `packet = (self.id, target, data)` (router.py:153). -/
structure Packet where
  src : Nat
  target : Int
  data : List I32
  deriving DecidableEq, Repr

/-- Control state of `_send_thread` (router.py:160-190), with the packet it holds. -/
inductive Sender
  /-- waiting in `send_queue.get()` -/
  | idle
  /-- `get` has taken the packet, the thread has not resumed yet -/
  | handed (p : Packet)
  /-- in `timeout(latency)` (line 175) -/
  | flying (p : Packet) (inter : Bool)
  /-- `receive_packet` waits in `put` (line 195) -/
  | putting (p : Packet) (inter : Bool)
  /-- the `put` was accepted, `receive_packet` has not resumed yet -/
  | deposited (p : Packet) (inter : Bool)
  /-- `receive_packet` has returned (line 198), line 181 comes next -/
  | delivered (p : Packet) (inter : Bool)
  deriving DecidableEq, Repr

/-- Control state of `stop_after_all_packets_sent` (router.py:106-134). -/
inductive Stopper
  /-- the router runs and nobody stops it -/
  | running
  /-- `check_queue` looks at the queue every cycle (lines 115-125) -/
  | checking
  /-- `empty_event` has been triggered (line 122), the caller has not resumed yet -/
  | emptied
  /-- waiting for the `sending_event` (line 131) of the send number `k` (counted from 0) -/
  | waiting (k : Nat)
  /-- `stop` was called (lines 97-104): `is_running` is false, the send thread is interrupted -/
  | stopped
  deriving DecidableEq, Repr

/-- Control state of a `read_packet` call (router.py:200-207). -/
inductive Reader
  | idle
  /-- waiting in `get` -/
  | waiting (source : Nat)
  /-- `get` has taken the data, the call has not resumed yet -/
  | got (source : Nat) (data : List I32)
  deriving DecidableEq, Repr

/-- `RouterStats` (router.py:11-23). -/
structure RouterStats where
  created : Nat := 0
  sentInter : Nat := 0
  sentIntra : Nat := 0
  sent : Nat := 0
  received : Nat := 0
  read : Nat := 0
  deriving DecidableEq, Repr

/-- State of the routers of a node; functions of the tile id. `sent` and `readLog` are ghost
histories: the packets put into the send queue of a tile, the data that a tile has read from a
source (router.py:62-95, noc.py:34-56). -/
structure Net where
  queue : Nat → List Packet := fun _ => []
  sender : Nat → Sender := fun _ => .idle
  /-- `buf d s`: contents of the store `receive_buffers[s]` of router `d` -/
  buf : Nat → Nat → List (List I32) := fun _ _ => []
  reader : Nat → Reader := fun _ => .idle
  /-- `add_send_packet` calls whose `timeout` has not fired (router.py:155) -/
  adding : Nat → Nat := fun _ => 0
  stopper : Nat → Stopper := fun _ => .running
  stats : Nat → RouterStats := fun _ => {}
  sent : Nat → List Packet := fun _ => []
  readLog : Nat → Nat → List (List I32) := fun _ _ => []
  crashed : Option PyErr := none

/-- An exception leaves a process (the processes of router.py:106-207). -/
def Net.crash (s : Net) (e : PyErr) : Net := { s with crashed := some e }

/-- `Router._get_latency` (router.py:136-149). -/
def NetConfig.latency (c : NetConfig) (source : Nat) (target : Int) : Option Int × Bool :=
  if source = 0 ∨ target = 1 ∨ (source : Int) / c.tiles = target / c.tiles then (c.intraLat, false)
  else ((do let a ← c.intraLat; let b ← c.interLat; pure (a + b)), true)

/-- Capacity of a receive buffer (router.py:88). -/
def bufferCapacity : Nat := 1

/-- `receive_buffers` of router `d` has a key `s` (router.py:84-88). -/
def NetConfig.hasBuffer (c : NetConfig) (d : Nat) (s : Int) : Bool :=
  decide (0 ≤ s) && decide (s < c.nodes * c.tiles) && decide (s ≠ d)

/-- The counters of a finished send (router.py:184-188). -/
def RouterStats.addSent (r : RouterStats) (inter : Bool) : RouterStats :=
  if inter then { r with sent := r.sent + 1, sentInter := r.sentInter + 1 }
  else { r with sent := r.sent + 1, sentIntra := r.sentIntra + 1 }

/-- `add_send_packet` up to its `timeout` (router.py:151-155). -/
def Net.send (s : Net) (i : Nat) (target : Int) (data : List I32) : Net :=
  let p : Packet := ⟨i, target, data⟩
  { s with
    queue := upd s.queue i (s.queue i ++ [p])
    sent := upd s.sent i (s.sent i ++ [p])
    adding := upd s.adding i (s.adding i + 1) }

/-- The tile process that stops its router waits for that (tile.py:95, 112): it does not send
meanwhile. (After `stop` it may send again; the packet then stays where it is. In simpy the `get` of
the interrupted thread would still remove it from the queue, which nobody looks at any more.) -/
def Net.sendIf (s : Net) (i : Nat) (target : Int) (data : List I32) : Option Net :=
  match s.stopper i with
  | .running => some (s.send i target data)
  | .stopped => some (s.send i target data)
  | _ => none

/-- The end of `add_send_packet` (router.py:158). -/
def Net.added (s : Net) (i : Nat) : Option Net :=
  match s.adding i with
  | 0 => none
  | k + 1 => some { s with
      adding := upd s.adding i k
      stats := upd s.stats i { s.stats i with created := (s.stats i).created + 1 } }

/-- Next action of `_send_thread` (router.py:163-188) and of the `receive_packet` it waits for
(router.py:192-198). The thread of a stopped router has ended. -/
def Net.thread (c : NetConfig) (s : Net) (i : Nat) : Option Net :=
  if s.stopper i = .stopped then none else
  match s.sender i with
  | .idle =>
    match s.queue i with
    | [] => none
    | p :: rest => some { s with queue := upd s.queue i rest, sender := upd s.sender i (.handed p) }
  | .handed p =>
    if ¬(0 ≤ p.target ∧ p.target < c.tiles) then some (s.crash .keyError)
    else match c.latency p.src p.target with
      | (none, _) => some (s.crash .typeError)
      | (some lat, inter) =>
        if lat < 0 then some (s.crash .valueError)
        else some { s with sender := upd s.sender i (.flying p inter) }
  | .flying p inter =>
    if c.hasBuffer p.target.toNat p.src then
      some { s with sender := upd s.sender i (.putting p inter) }
    else some (s.crash .keyError)
  | .putting p inter =>
    let d := p.target.toNat
    if (s.buf d p.src).length < bufferCapacity then
      some { s with
        buf := upd s.buf d (upd (s.buf d) p.src (s.buf d p.src ++ [p.data]))
        sender := upd s.sender i (.deposited p inter) }
    else none
  | .deposited p inter =>
    let d := p.target.toNat
    some { s with
      sender := upd s.sender i (.delivered p inter)
      stats := upd s.stats d { s.stats d with received := (s.stats d).received + 1 } }
  | .delivered _ inter =>
    some { s with
      sender := upd s.sender i .idle
      stats := upd s.stats i ((s.stats i).addSent inter) }

/-- A `read_packet` call (router.py:200-202): an unknown source raises KeyError. -/
def Net.startRead (c : NetConfig) (s : Net) (i : Nat) (source : Int) : Option Net :=
  match s.reader i with
  | .idle =>
    if c.hasBuffer i source then some { s with reader := upd s.reader i (.waiting source.toNat) }
    else some (s.crash .keyError)
  | _ => none

/-- The pending `get` takes the oldest item (router.py:165, 202). -/
def Net.take (s : Net) (i : Nat) : Option Net :=
  match s.reader i with
  | .waiting src =>
    match s.buf i src with
    | [] => none
    | x :: rest => some { s with
        buf := upd s.buf i (upd (s.buf i) src rest)
        reader := upd s.reader i (.got src x) }
  | _ => none

/-- `read_packet` returns (router.py:205-207). -/
def Net.readDone (s : Net) (i : Nat) : Option (Net × List I32) :=
  match s.reader i with
  | .got src x => some ({ s with
      reader := upd s.reader i .idle
      stats := upd s.stats i { s.stats i with read := (s.stats i).read + 1 }
      readLog := upd s.readLog i (upd (s.readLog i) src (s.readLog i src ++ [x])) }, x)
  | _ => none

/-- The packet that the send thread holds and that no buffer has received (router.py:165-178). -/
def Sender.held : Sender → Option Packet
  | .idle => none
  | .handed p => some p
  | .flying p _ => some p
  | .putting p _ => some p
  | .deposited _ _ => none
  | .delivered _ _ => none

/-- `stop_after_all_packets_sent` is called on a running router (router.py:108-125). -/
def Net.halt (s : Net) (i : Nat) : Option Net :=
  match s.stopper i with
  | .running => some { s with stopper := upd s.stopper i .checking }
  | _ => none

/-- The send thread is between taking a packet and the end of its sending, so that its current
`sending_event` (router.py:167) has not been triggered. -/
def Sender.busy : Sender → Bool
  | .flying .. => true
  | .putting .. => true
  | .deposited .. => true
  | .delivered .. => true
  | .idle => false
  | .handed _ => false

/-- Next action of `stop_after_all_packets_sent`. A failed check of the queue (router.py:117-119)
changes nothing. The caller resumes from `yield empty_event` only when the send thread has resumed
from its last `get`: that event was triggered earlier (the queue was empty at the check, and the tile
process, which does the sending, is the caller) and simpy processes events of one moment in the order
in which they were triggered. -/
def Net.stopStep (s : Net) (i : Nat) : Option Net :=
  match s.stopper i with
  | .checking => if s.queue i = [] then some { s with stopper := upd s.stopper i .emptied } else none
  | .emptied =>
    match s.sender i with
    | .handed _ => none
    | k =>
      if k.busy then some { s with stopper := upd s.stopper i (.waiting (s.stats i).sent) }
      else some { s with stopper := upd s.stopper i .stopped }
  | .waiting k => if k < (s.stats i).sent then some { s with stopper := upd s.stopper i .stopped } else none
  | .running => none
  | .stopped => none

/-- The actions of the routers and their environment (router.py:106-207). -/
inductive NetAct
  | send (i : Nat) (target : Int) (data : List I32)
  | added (i : Nat)
  | thread (i : Nat)
  | startRead (i : Nat) (source : Int)
  | take (i : Nat)
  | readDone (i : Nat)
  | halt (i : Nat)
  | stopStep (i : Nat)
  deriving DecidableEq, Repr

/-- The tile that acts (router.py:106-207). -/
def NetAct.tile : NetAct → Nat
  | .send i .. | .added i | .thread i | .startRead i _ | .take i | .readDone i | .halt i | .stopStep i => i

/-- One action; `none` if it cannot happen (router.py:106-207). -/
def Net.act (c : NetConfig) (s : Net) (a : NetAct) : Option Net :=
  if s.crashed.isSome ∨ ¬a.tile < c.tiles then none
  else match a with
    | .send i target data => s.sendIf i target data
    | .added i => s.added i
    | .thread i => s.thread c i
    | .startRead i source => s.startRead c i source
    | .take i => s.take i
    | .readDone i => (s.readDone i).map Prod.fst
    | .halt i => s.halt i
    | .stopStep i => s.stopStep i

/-- A sequence of actions; `none` if one of them cannot happen (router.py:106-207). -/
def Net.run (c : NetConfig) : Net → List NetAct → Option Net
  | s, [] => some s
  | s, a :: as => (s.act c a).bind fun s => Net.run c s as

end Ramwich
