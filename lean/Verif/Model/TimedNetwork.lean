import Verif.Model.Network

/-! # The routers and the network of a node with the clock of simpy

The transition system of `Model/Network.lean` together with the time `env.now`. As in
`Model/TimedPipeline.lean` the clock advances only when nothing is left to do at the current time, and which
of several possible actions comes first at one time is left open. The users of the routers may call
`add_send_packet`, `read_packet` and `stop_after_all_packets_sent` at any time. Times are natural numbers.

Also: `_monitor_queues` of the network (noc.py:76-95). -/
namespace Ramwich

open Pipeline (upd)

/-- The clocks of the routers of a node. All fields after `busy` are ghost histories
(router.py:106-207, noc.py:79-96). -/
structure NetClock where
  /-- the end of the `timeout` in which a send thread is (router.py:175) -/
  flight : Nat → Nat := fun _ => 0
  /-- the ends of the `timeout`s in which `add_send_packet` calls are (router.py:155) -/
  adds : Nat → List Nat := fun _ => []
  /-- when `check_queue` looks at the queue next (router.py:115-122) -/
  check : Nat → Nat := fun _ => 0
  /-- when `_monitor_queues` looks next (noc.py:80-92) -/
  look : Nat := 0
  /-- `queue_busy_cycles` -/
  busy : Nat := 0
  /-- when tile `i` has put its packets into the send queue -/
  queued : Nat → List Nat := fun _ => []
  /-- when the `add_send_packet` calls for them have returned -/
  returned : Nat → List Nat := fun _ => []
  /-- when its send thread has taken them -/
  taken : Nat → List Nat := fun _ => []
  /-- when they have arrived at the target -/
  arrived : Nat → List Nat := fun _ => []
  /-- when the buffer of the target has accepted them -/
  put : Nat → List Nat := fun _ => []
  /-- when the send thread was through with them -/
  done : Nat → List Nat := fun _ => []
  /-- `asked d i`: when tile `d` has called `read_packet(i)` -/
  asked : Nat → Nat → List Nat := fun _ _ => []
  /-- `read d i`: when these calls have taken a packet from the buffer -/
  read : Nat → Nat → List Nat := fun _ _ => []
  /-- when `stop_after_all_packets_sent` was called -/
  haltAt : Nat → Option Nat := fun _ => none
  /-- when it has stopped the router -/
  stopAt : Nat → Option Nat := fun _ => none
  /-- what `_monitor_queues` has seen at times 0, 1, … -/
  looks : List Bool := []

/-- Update of a function of two arguments (assignment to an attribute of a router, router.py:65-95). -/
def updAt {β : Type} (f : Nat → Nat → β) (i j : Nat) (b : β) : Nat → Nat → β := upd f i (upd (f i) j b)

/-- What the clocks say about an action of the routers in state `n` at time `now`: `none` if it cannot
happen at this time. `addLat` is `core_config.dataMem_lat` (router.py:106-207). -/
def NetClock.step (c : NetConfig) (addLat : Int) (n : Net) (now : Nat) (k : NetClock) : NetAct → Option NetClock
  | .send i _ _ => some { k with
      adds := upd k.adds i (k.adds i ++ [now + addLat.toNat])
      queued := upd k.queued i (k.queued i ++ [now]) }
  | .added i =>
    match k.adds i with
    | [] => none
    | d :: rest => if d = now then some { k with
        adds := upd k.adds i rest
        returned := upd k.returned i (k.returned i ++ [now]) }
      else none
  | .thread i =>
    match n.sender i with
    | .idle => some { k with taken := upd k.taken i (k.taken i ++ [now]) }
    | .handed p => some { k with flight := upd k.flight i (now + ((c.latency p.src p.target).1.getD 0).toNat) }
    | .flying .. =>
      if k.flight i = now then some { k with arrived := upd k.arrived i (k.arrived i ++ [now]) } else none
    | .putting .. => some { k with put := upd k.put i (k.put i ++ [now]) }
    | .deposited .. => some k
    | .delivered .. => some { k with done := upd k.done i (k.done i ++ [now]) }
  | .startRead i src => some { k with asked := updAt k.asked i src.toNat (k.asked i src.toNat ++ [now]) }
  | .take i =>
    match n.reader i with
    | .waiting src => some { k with read := updAt k.read i src (k.read i src ++ [now]) }
    | _ => some k
  | .readDone _ => some k
  | .halt i => some { k with check := upd k.check i now, haltAt := upd k.haltAt i (some now) }
  | .stopStep i =>
    match n.stopper i with
    | .checking => if k.check i = now then some k else none
    | .emptied => if (n.sender i).busy then some k else some { k with stopAt := upd k.stopAt i (some now) }
    | .waiting _ => some { k with stopAt := upd k.stopAt i (some now) }
    | _ => some k

/-- `check_queue` finds packets and comes back after one cycle (router.py:116-119). -/
def NetClock.recheck (n : Net) (now : Nat) (k : NetClock) (i : Nat) : Option NetClock :=
  match n.stopper i with
  | .checking =>
    if k.check i = now ∧ n.queue i ≠ [] then some { k with check := upd k.check i (now + 1) } else none
  | _ => none

/-- Some running router has packets in its send queue (noc.py:82-85). -/
def Net.anyQueued (c : NetConfig) (n : Net) : Bool :=
  (List.range c.tiles).any fun i => decide (n.stopper i ≠ .stopped) && !(n.queue i).isEmpty

/-- One round of `_monitor_queues` (noc.py:82-91). -/
def NetClock.monitor (c : NetConfig) (n : Net) (now : Nat) (k : NetClock) : Option NetClock :=
  if k.look = now then some { k with
    look := now + 1
    busy := if n.anyQueued c then k.busy + 1 else k.busy
    looks := k.looks ++ [n.anyQueued c] }
  else none

/-- The router can do something by itself at the current time (router.py:106-207). -/
def NetClock.ready (c : NetConfig) (addLat : Int) (n : Net) (now : Nat) (k : NetClock) (a : NetAct) : Bool :=
  (n.act c a).isSome && (k.step c addLat n now a).isSome

/-- Nothing is left to do for router `i` at the current time (router.py:106-207). -/
def NetClock.routerQuiet (c : NetConfig) (addLat : Int) (n : Net) (now : Nat) (k : NetClock) (i : Nat) : Bool :=
  !k.ready c addLat n now (.added i) && !k.ready c addLat n now (.thread i) && !k.ready c addLat n now (.take i) &&
    !k.ready c addLat n now (.readDone i) && !k.ready c addLat n now (.stopStep i) && (k.recheck n now i).isNone

/-- Nothing is left to do for the routers and the monitor at the current time
(router.py:106-207, noc.py:79-96). -/
def NetClock.quiet (c : NetConfig) (addLat : Int) (n : Net) (now : Nat) (k : NetClock) : Bool :=
  (k.monitor c n now).isNone && (List.range c.tiles).all (k.routerQuiet c addLat n now)

/-- The routers of a node with their clock (router.py, noc.py). -/
structure TNet where
  net : Net := {}
  clk : NetClock := {}
  now : Nat := 0

/-- The actions of the routers, of the monitor, and the passing of time (router.py:106-207, noc.py:79-96). -/
inductive TNetAct
  | net (a : NetAct)
  | recheck (i : Nat)
  | monitor
  | tick
  deriving DecidableEq, Repr

/-- One action; `none` if it cannot happen (router.py:106-207, noc.py:79-96). -/
def TNet.act (c : NetConfig) (addLat : Int) (s : TNet) (a : TNetAct) : Option TNet :=
  if s.net.crashed.isSome then none
  else match a with
    | .net a =>
      match s.net.act c a, s.clk.step c addLat s.net s.now a with
      | some n, some k => some { s with net := n, clk := if n.crashed.isSome then s.clk else k }
      | _, _ => none
    | .recheck i =>
      if i < c.tiles then (s.clk.recheck s.net s.now i).map fun k => { s with clk := k } else none
    | .monitor => (s.clk.monitor c s.net s.now).map fun k => { s with clk := k }
    | .tick => if s.clk.quiet c addLat s.net s.now then some { s with now := s.now + 1 } else none

/-- A sequence of actions; `none` if one of them cannot happen (router.py:106-207, noc.py:79-96). -/
def TNet.run (c : NetConfig) (addLat : Int) : TNet → List TNetAct → Option TNet
  | s, [] => some s
  | s, a :: as => (s.act c addLat a).bind fun s => TNet.run c addLat s as

end Ramwich
