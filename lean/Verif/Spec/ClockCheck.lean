import Verif.Spec.Hang
import Verif.Model.ClockedNode

/-! # A check of the programs of a node with the clock but without their data

What `Model/ClockedNode.lean` describes, without a word of data: the pipelines with the operations in them, the phases of
the cores and of the tile processes, the requests to the DRAMs (which words), the packets (how many words). The DRAM
addresses of loads and stores come from `CoreParams.trace` (`Spec/StaticCheck.lean`). Every action that is possible here is
possible there, whatever the data are (C100). -/
namespace Ramwich.Spec

open Pipeline (Ctl PAct)

/-- Sizes and latencies. -/
structure ClockPar where
  tiles : Nat
  cores : Nat
  size : Nat
  edram : Nat
  mem : Nat
  fetch : Nat
  decode : Nat
  noc : Nat
  exec : CoreOp → Nat

/-! ## The pipeline of a core -/

structure DPipe where
  feed : List CoreOp
  buf : List (List CoreOp) := [[], [], []]
  ctl : List (Ctl CoreOp) := [.idle, .idle, .idle]
  due : List (Option Nat) := [none, none, none]
  completed : List Bool := [false, false, false]
  monitor : Nat := 0
  done : Bool := false
  deriving DecidableEq

/-- The latency of stage `i`. -/
def ClockPar.stage (q : ClockPar) : Nat → Option Nat
  | 0 => some q.fetch
  | 1 => some q.decode
  | _ => none

/-- The stage calls the visitor. -/
def DPipe.start (q : ClockPar) (now : Nat) (p : DPipe) (i : Nat) : Option DPipe :=
  match p.ctl.getD i .idle with
  | .got op => some { p with
      ctl := p.ctl.set i (.busy op), due := p.due.set i ((q.stage i).map fun d => now + d) }
  | _ => none

/-- The event of the operation fires. -/
def DPipe.finish (now : Nat) (p : DPipe) (i : Nat) : Option DPipe :=
  match p.ctl.getD i .idle with
  | .busy op =>
    if (match p.due.getD i none with
        | none => true
        | some d => decide (d = now)) then
      some { p with ctl := p.ctl.set i (if i + 1 = 3 then .after op else .putting op) }
    else none
  | _ => none

/-- An action of the pipeline. -/
def DPipe.move (q : ClockPar) (now : Nat) (p : DPipe) : PAct → Option DPipe
  | .feedIn =>
    match p.feed, p.buf.getD 0 [] with
    | op :: rest, [] => some { p with feed := rest, buf := p.buf.set 0 [op] }
    | _, _ => none
  | .take i =>
    if i < 3 then
      match p.ctl.getD i .idle, p.buf.getD i [] with
      | .idle, op :: rest => some { p with buf := p.buf.set i rest, ctl := p.ctl.set i (.got op) }
      | _, _ => none
    else none
  | .start i => if i < 3 then p.start q now i else none
  | .finish i => if i < 3 then p.finish now i else none
  | .putIn i =>
    if i < 2 then
      match p.ctl.getD i .idle, p.buf.getD (i + 1) [] with
      | .putting op, [] => some { p with buf := p.buf.set (i + 1) [op], ctl := p.ctl.set i (.after op) }
      | _, _ => none
    else none
  | .next i =>
    if i < 3 then
      match p.ctl.getD i .idle with
      | .after op =>
        if isHlt op then some { p with ctl := p.ctl.set i .stopped, completed := p.completed.set i true }
        else some { p with ctl := p.ctl.set i .idle }
      | _ => none
    else none
  | .monitor =>
    if p.monitor < 3 ∧ p.completed.getD p.monitor false = true then some { p with monitor := p.monitor + 1 } else none
  | .signal => if p.monitor = 3 ∧ p.done = false then some { p with done := true } else none
  | .tick => none

/-- Later than every deadline. -/
def farOff : Nat := 2 ^ 60

/-- Stage `i` has nothing to do before this time; 0 if it has something to do now. -/
def DPipe.stageUntil (p : DPipe) (i : Nat) : Nat :=
  match p.ctl.getD i .idle with
  | .idle =>
    match p.buf.getD i [] with
    | [] => farOff
    | _ => 0
  | .got _ => 0
  | .busy _ => (p.due.getD i none).getD farOff
  | .putting _ =>
    match p.buf.getD (i + 1) [] with
    | [] => 0
    | _ => farOff
  | .after _ => 0
  | .stopped => farOff

/-- The feeding of the pipeline and the monitor have nothing to do. -/
def DPipe.rest (p : DPipe) : Bool :=
  (match p.feed, p.buf.getD 0 [] with
   | _ :: _, [] => false
   | _, _ => true) &&
    !p.completed.getD p.monitor false && (p.done || !Nat.beq p.monitor 3)

/-- The pipeline has nothing to do before this time. -/
def DPipe.until (p : DPipe) : Nat :=
  if p.rest then min (p.stageUntil 0) (min (p.stageUntil 1) (p.stageUntil 2)) else 0

/-! ## The controller of a DRAM -/

/-- A request without data: the words `[a, a+n)` in `v` rows. -/
structure DReq where
  id : Nat
  write : Bool
  a : Nat
  n : Nat
  v : Nat
  deriving DecidableEq, Repr

/-- A controller. The words that are valid and the requests that are answered (reads, writes) are sets of bits. -/
structure DCtrl where
  valid : Nat
  up : Bool := true
  queue : List DReq := []
  handed : Option DReq := none
  pending : List DReq := []
  bus : List DReq := []
  deadline : Option Nat := none
  next : Nat := 0
  reads : Nat := 0
  writes : Nat := 0
  deriving DecidableEq, Repr

/-- The words of the request are there. -/
def DReq.ready (r : DReq) (valid : Nat) : Bool := decide (valid &&& span r.a r.n = span r.a r.n)

def DCtrl.submit (q : ClockPar) (c : DCtrl) (write : Bool) (a n v : Nat) : Option DCtrl :=
  if c.up = true ∧ 0 < n ∧ a + n ≤ q.size then
    some { c with queue := c.queue ++ [⟨c.next, write, a, n, v⟩], next := c.next + 1 }
  else none

def DCtrl.act (q : ClockPar) (now : Nat) (c : DCtrl) : CtrlAct → Option DCtrl
  | .pick =>
    match c.up, c.handed, c.queue with
    | true, none, r :: rest => some { c with handed := some r, queue := rest }
    | _, _, _ => none
  | .dispatch =>
    match c.up, c.handed with
    | true, some r =>
      if r.write || r.ready c.valid then some { c with handed := none, bus := c.bus ++ [r] }
      else some { c with handed := none, pending := c.pending ++ [r] }
    | _, _ => none
  | .grant =>
    match c.bus, c.deadline with
    | r :: _, none => some { c with deadline := some (now + q.edram * r.v) }
    | _, _ => none
  | .complete =>
    match c.bus, c.deadline with
    | r :: rest, some d =>
      if d = now then
        if r.write then
          let valid := c.valid ||| span r.a r.n
          let u := onePass (fun r => r.ready valid) c.pending
          some { c with
            valid := valid, bus := rest, deadline := none, queue := c.queue ++ u.1, pending := u.2
            writes := c.writes ||| 2 ^ r.id }
        else some { c with bus := rest, deadline := none, reads := c.reads ||| 2 ^ r.id }
      else none
    | _, _ => none
  | _ => none

/-- The controller has nothing to do before this time. -/
def DCtrl.until (c : DCtrl) : Nat :=
  match c.up, c.handed, c.queue with
  | true, none, [] | false, _, _ =>
    match c.bus, c.deadline with
    | [], _ => farOff
    | _ :: _, none => 0
    | _ :: _, some d => d
  | _, _, _ => 0

/-! ## A core -/

/-- Phases of a core (`CorePhase`) with the end of the `timeout`. -/
inductive DPhase
  | ready
  | timing (d : Nat)
  | loadWait (id n v : Nat)
  | loadGot (d : Nat)
  | storeDelay (d a n v : Nat)
  | storeWait (id : Nat)
  | halting (d : Option Nat)
  | halted
  deriving DecidableEq, Repr

structure DCore where
  pipe : DPipe
  phase : DPhase := .ready
  evs : List MemEv
  deriving DecidableEq

def DCore.exec (q : ClockPar) (now : Nat) (x : DCore) (c : DCtrl) : Option (DCore × DCtrl) :=
  match x.pipe.ctl.getD 2 .idle, x.pipe.start q now 2, x.phase with
  | .got op, some p, .ready =>
    match op with
    | .load _ _ _ vec =>
      match x.evs with
      | .read a n :: evs =>
        (c.submit q false a n vec.toNat).map fun c' =>
          ({ x with pipe := p, phase := .loadWait c.next n vec.toNat, evs := evs }, c')
      | _ => none
    | .store _ _ _ vec =>
      match x.evs with
      | .write a n :: evs =>
        some ({ x with pipe := p, phase := .storeDelay (now + q.mem * vec.toNat) a n vec.toNat, evs := evs }, c)
      | _ => none
    | .hlt => some ({ x with pipe := p, phase := .halting (some (now + q.exec op)) }, c)
    | op => some ({ x with pipe := p, phase := .timing (now + q.exec op) }, c)
  | _, _, _ => none

def DCore.mid (q : ClockPar) (now : Nat) (x : DCore) (c : DCtrl) : Option (DCore × DCtrl) :=
  match x.phase with
  | .loadWait id _ v => if c.reads.testBit id then some ({ x with phase := .loadGot (now + q.mem * v) }, c) else none
  | .storeDelay d a n v =>
    if d = now then
      (c.submit q true a n v).map fun c' => ({ x with phase := .storeWait c.next }, c')
    else none
  | _ => none

def DCore.fin (now : Nat) (x : DCore) (c : DCtrl) : Option DCore :=
  match x.phase with
  | .timing d | .loadGot d =>
    if d = now then (x.pipe.finish now 2).map fun p => { x with pipe := p, phase := .ready } else none
  | .storeWait id =>
    if c.writes.testBit id then (x.pipe.finish now 2).map fun p => { x with pipe := p, phase := .ready } else none
  | .halting d =>
    if d = some now then (x.pipe.finish now 2).map fun p => { x with pipe := p, phase := .halting none } else none
  | _ => none

def DCore.ret (x : DCore) : Option DCore :=
  match x.phase with
  | .halting none => if x.pipe.done then some { x with phase := .halted } else none
  | _ => none

/-- The core has nothing to do before this time. -/
def DCore.until (reads writes : Nat) (x : DCore) : Nat :=
  min (match x.phase with
   | .ready => farOff
   | .timing d => d
   | .loadWait id _ _ => if reads.testBit id then 0 else farOff
   | .loadGot d => d
   | .storeDelay d _ _ _ => d
   | .storeWait id => if writes.testBit id then 0 else farOff
   | .halting none => if x.pipe.done then 0 else farOff
   | .halting (some d) => if x.pipe.done then 0 else d
   | .halted => farOff) x.pipe.until

/-! ## A tile with its router -/

/-- Phases of a tile process (`TilePhase`); rows by their number, `w` words each. -/
inductive DTilePhase
  | ready
  | sendWait (id target w v : Nat)
  | sending (target w rows : Nat)
  | adding (target w rows : Nat)
  | recving (a source w v got : Nat)
  | recvWait (a source w v got : Nat)
  | recvWrite (id : Nat)
  | haltCores
  | haltRouter
  deriving DecidableEq, Repr

/-- States of a send thread (`Sender`): target and number of words of the packet. -/
inductive DSender
  | idle
  | handed (target w : Nat)
  | flying (target w d : Nat)
  | putting (target w : Nat)
  | deposited (target w : Nat)
  | delivered (target w : Nat)
  deriving DecidableEq, Repr

/-- States of a `read_packet` call (`Reader`). -/
inductive DReader
  | idle
  | waiting (source : Nat)
  | got (source w : Nat)
  deriving DecidableEq, Repr

structure DTile where
  ctrl : DCtrl
  cores : List DCore
  ops : List TileOp
  phase : DTilePhase := .ready
  /-- the send queue -/
  queue : List (Nat × Nat) := []
  sender : DSender := .idle
  /-- the receive buffers, by source -/
  buf : List (List Nat)
  reader : DReader := .idle
  /-- ends of the `timeout`s of `add_send_packet` -/
  adds : List Nat := []
  stopper : Stopper := .running
  check : Nat := 0
  sent : Nat := 0
  active : Option Nat := none
  /-- a time before which the cores have nothing to do, if known -/
  wake : Nat := 0
  deriving DecidableEq

def DCore.isHalted (x : DCore) : Bool :=
  match x.phase with
  | .halted => true
  | _ => false

def DTile.endOp (now : Nat) (x : DTile) : DTile :=
  { x with phase := .ready, active := if x.ops.isEmpty then some now else x.active }

/-- `stop_after_all_packets_sent` (`Net.stopStep`). -/
def DTile.stopStep (now : Nat) (x : DTile) : Option DTile :=
  match x.stopper with
  | .checking => if x.check = now ∧ x.queue.isEmpty = true then some { x with stopper := .emptied } else none
  | .emptied =>
    match x.sender with
    | .handed .. => none
    | .idle => some { x with stopper := .stopped }
    | _ => some { x with stopper := .waiting x.sent }
  | .waiting k => if k < x.sent then some { x with stopper := .stopped } else none
  | _ => none

/-- The tile process acts. -/
def DTile.proc (q : ClockPar) (now t : Nat) (x : DTile) : Option DTile :=
  match x.phase with
  | .ready =>
    match x.ops with
    | [] => none
    | .send addr target width vec :: rest =>
      if 0 ≤ addr ∧ 0 ≤ target ∧ target < q.tiles ∧ target ≠ t ∧ 0 < width ∧ 0 < vec then
        (x.ctrl.submit q false addr.toNat (width * vec).toNat vec.toNat).map fun c =>
          { x with ctrl := c, ops := rest, phase := .sendWait x.ctrl.next target.toNat width.toNat vec.toNat }
      else none
    | .receive addr source width vec :: rest =>
      if 0 ≤ addr ∧ 0 ≤ source ∧ source < q.tiles ∧ source ≠ t ∧ 0 < width ∧ 0 < vec then
        some { x with ops := rest, phase := .recving addr.toNat source.toNat width.toNat vec.toNat 0 }
      else none
    | .halt :: rest => some { x with ops := rest, phase := .haltCores }
  | .sendWait id target w v => if x.ctrl.reads.testBit id then some { x with phase := .sending target w v } else none
  | .sending target w rows =>
    match rows with
    | 0 => some (x.endOp now)
    | n + 1 =>
      match x.stopper with
      | .running => some { x with
          queue := x.queue ++ [(target, w)], adds := x.adds ++ [now + q.mem], phase := .adding target w n }
      | _ => none
  | .adding target w rows =>
    match x.adds with
    | d :: rest => if d = now then some { x with adds := rest, phase := .sending target w rows } else none
    | [] => none
  | .recving a source w v got =>
    if got < v then
      match x.reader with
      | .idle => some { x with reader := .waiting source, phase := .recvWait a source w v got }
      | _ => none
    else (x.ctrl.submit q true a (got * w) v).map fun c => { x with ctrl := c, phase := .recvWrite x.ctrl.next }
  | .recvWait a source w v got =>
    match x.reader with
    | .got _ w' =>
      if w' = w then some { x with reader := .idle, phase := .recving a source w v (got + 1) } else none
    | _ => none
  | .recvWrite id => if x.ctrl.writes.testBit id then some (x.endOp now) else none
  | .haltCores =>
    if x.cores.all DCore.isHalted then
      match x.stopper with
      | .running => some { x with stopper := .checking, check := now, phase := .haltRouter }
      | _ => none
    else none
  | .haltRouter =>
    match x.stopper with
    | .stopped =>
      if x.ctrl.up = true ∧ x.ctrl.pending.isEmpty = true then
        some ({ x with ctrl := { x.ctrl with up := false } }.endOp now)
      else none
    | _ => x.stopStep now

/-- `check_queue` finds packets. -/
def DTile.recheck (now : Nat) (x : DTile) : Option DTile :=
  match x.stopper with
  | .checking => if x.check = now ∧ x.queue.isEmpty = false then some { x with check := now + 1 } else none
  | _ => none

/-- The pending `get` of the router takes a packet. -/
def DTile.take (x : DTile) : Option DTile :=
  match x.reader with
  | .waiting src =>
    match x.buf.getD src [] with
    | [] => none
    | w :: rest => some { x with buf := x.buf.set src rest, reader := .got src w }
  | _ => none

/-- The send thread acts, except for the handing over to the buffer of the target. -/
def DTile.thread (q : ClockPar) (now : Nat) (x : DTile) : Option DTile :=
  if x.stopper = .stopped then none else
  match x.sender with
  | .idle =>
    match x.queue with
    | [] => none
    | (target, w) :: rest => some { x with queue := rest, sender := .handed target w }
  | .handed target w => some { x with sender := .flying target w (now + q.noc) }
  | .flying target w d => if d = now then some { x with sender := .putting target w } else none
  | .putting .. => none
  | .deposited target w => some { x with sender := .delivered target w }
  | .delivered .. => some { x with sender := .idle, sent := x.sent + 1 }

/-- The cores have nothing to do before this time. -/
def DTile.coresUntil (x : DTile) : Nat := x.cores.foldr (fun y T => min (y.until x.ctrl.reads x.ctrl.writes) T) farOff

/-- The send thread has nothing to do before this time; `full`: whether the buffer of a target is full. -/
def DTile.threadUntil (full : Nat → Bool) (x : DTile) : Nat :=
  match x.stopper with
  | .stopped => farOff
  | _ =>
    match x.sender with
    | .idle =>
      match x.queue with
      | [] => farOff
      | _ => 0
    | .flying _ _ d => d
    | .putting target _ => if full target then farOff else 0
    | _ => 0

/-- The rest of the router has nothing to do before this time. -/
def DTile.routerUntil (x : DTile) : Nat :=
  min (match x.adds with
    | [] => farOff
    | d :: _ => d)
  (min (match x.reader with
    | .idle => farOff
    | .waiting src =>
      match x.buf.getD src [] with
      | [] => farOff
      | _ => 0
    | .got .. => 0)
  (match x.stopper with
    | .running => farOff
    | .checking => x.check
    | .emptied => 0
    | .waiting k => if k < x.sent then 0 else farOff
    | .stopped => farOff))

/-- The tile process has nothing to do before this time (what it waits for in the router has been looked at). -/
def DTile.procUntil (x : DTile) : Nat :=
  match x.phase with
  | .ready =>
    match x.ops with
    | [] => farOff
    | _ => 0
  | .sendWait id _ _ _ => if x.ctrl.reads.testBit id then 0 else farOff
  | .sending .. => 0
  | .adding .. => farOff
  | .recving .. => 0
  | .recvWait .. => farOff
  | .recvWrite id => if x.ctrl.writes.testBit id then 0 else farOff
  | .haltCores => if x.cores.all DCore.isHalted then 0 else farOff
  | .haltRouter =>
    match x.stopper with
    | .stopped => 0
    | _ => farOff

/-- The tile, with the time until which its cores rest, if nothing happens in it before time `T`. -/
def DTile.rests (T : Nat) (full : Nat → Bool) (x : DTile) : Option DTile :=
  if T ≤ x.threadUntil full ∧ T ≤ x.routerUntil ∧ T ≤ x.procUntil ∧ T ≤ x.ctrl.until then
    if T ≤ x.wake then some x
    else
      let w := x.coresUntil
      if T ≤ w then some { x with wake := w } else none
  else none

/-! ## The node -/

structure DNode where
  now : Nat := 0
  tiles : List DTile
  deriving DecidableEq

/-- Tile `t` changes. -/
def DNode.on (s : DNode) (t : Nat) (f : DTile → Option DTile) : Option DNode :=
  match s.tiles[t]? with
  | none => none
  | some x => (f x).map fun y => { s with tiles := s.tiles.set t y }

/-- Tile `t` changes, perhaps with its cores. -/
def DNode.onAll (s : DNode) (t : Nat) (f : DTile → Option DTile) : Option DNode :=
  s.on t fun x => (f x).map fun y => { y with wake := 0 }

/-- Core `k` of a tile changes. -/
def DTile.onCore (x : DTile) (k : Nat) (f : DCore → DCtrl → Option (DCore × DCtrl)) : Option DTile :=
  match x.cores[k]? with
  | none => none
  | some y => (f y x.ctrl).map fun r => { x with cores := x.cores.set k r.1, ctrl := r.2 }

/-- The buffer of tile `d` for packets of tile `t` is full. -/
def DNode.full (s : DNode) (t d : Nat) : Bool :=
  match s.tiles[d]? with
  | none => true
  | some y => !(y.buf.getD t []).isEmpty

/-- The send thread of tile `t` hands its packet over. -/
def DNode.put (s : DNode) (t : Nat) (x : DTile) (d w : Nat) : Option DNode :=
  match s.tiles[d]? with
  | none => none
  | some y =>
    match y.buf.getD t [] with
    | [] =>
      if d = t then none
      else some { s with
        tiles := (s.tiles.set d { y with buf := y.buf.set t [w] }).set t { x with sender := .deposited d w } }
    | _ => none

/-- One action at the current time, except for that of the monitor of the network. -/
def DNode.act (q : ClockPar) (s : DNode) : FAct → Option DNode
  | .t (.pipe _ _ (.start 2)) => none
  | .t (.pipe _ _ (.finish 2)) => none
  | .t (.pipe t k a) => s.onAll t fun x => x.onCore k fun y c => (y.pipe.move q s.now a).map fun p => ({ y with pipe := p }, c)
  | .t (.exec t k) => s.onAll t fun x => x.onCore k fun y c => y.exec q s.now c
  | .t (.mid t k) => s.onAll t fun x => x.onCore k fun y c => y.mid q s.now c
  | .t (.fin t k) => s.onAll t fun x => x.onCore k fun y c => (y.fin s.now c).map fun y => (y, c)
  | .t (.ret t k) => s.onAll t fun x => x.onCore k fun y c => y.ret.map fun y => (y, c)
  | .t (.other (.ctrl t a)) => s.onAll t fun x => (x.ctrl.act q s.now a).map fun c => { x with ctrl := c }
  | .t (.other (.tile t)) => s.onAll t fun x => x.proc q s.now t
  | .t (.other (.take t)) => s.on t DTile.take
  | .t (.other (.thread t)) =>
    match s.tiles[t]? with
    | none => none
    | some x =>
      match x.sender with
      | .putting d w => if x.stopper = .stopped then none else s.put t x d w
      | _ => s.on t fun x => x.thread q s.now
  | .recheck t => s.on t fun x => x.recheck s.now
  | _ => none

/-- The tiles at time `T`, if nothing happens before. -/
def restAll (T : Nat) (full : Nat → Nat → Bool) : Nat → List DTile → Option (List DTile)
  | _, [] => some []
  | t, x :: xs =>
    match x.rests T (full t) with
    | none => none
    | some y =>
      match restAll T full (t + 1) xs with
      | none => none
      | some ys => some (y :: ys)

/-- Time passes until `T`. -/
def DNode.wait (s : DNode) (T : Nat) : Option DNode := (restAll T s.full 0 s.tiles).map fun l => { now := T, tiles := l }

/-- The steps of a schedule. -/
inductive DStep
  | act (a : FAct)
  | wait (d : Nat)

def DNode.step (q : ClockPar) (s : DNode) : DStep → Option DNode
  | .act a => s.act q a
  | .wait d => s.wait (s.now + d)

/-- A schedule. -/
def DNode.run (q : ClockPar) : DNode → List DStep → Option DNode
  | s, [] => some s
  | s, a :: as => (s.step q a).bind fun s => DNode.run q s as

/-! ## Schedules as numbers -/

/-- What a digit of a schedule means. -/
def digits : List (Nat → DStep) :=
  let c (f : Nat → Nat → FAct) : Nat → DStep := fun p => .act (f (p % 8) (p / 8))
  [.wait, fun t => .act (.recheck t),
    c fun t k => .t (.pipe t k (.take 0)), c fun t k => .t (.pipe t k (.start 0)), c fun t k => .t (.pipe t k (.finish 0)),
    c fun t k => .t (.pipe t k (.putIn 0)), c fun t k => .t (.pipe t k (.next 0)), c fun t k => .t (.pipe t k (.take 1)),
    c fun t k => .t (.pipe t k (.start 1)), c fun t k => .t (.pipe t k (.finish 1)), c fun t k => .t (.pipe t k (.putIn 1)),
    c fun t k => .t (.pipe t k (.next 1)), c fun t k => .t (.pipe t k (.take 2)), c fun t k => .t (.pipe t k (.next 2)),
    c fun t k => .t (.pipe t k .feedIn), c fun t k => .t (.exec t k), c fun t k => .t (.fin t k), c fun t k => .t (.mid t k),
    fun t => .act (.t (.other (.thread t))), fun t => .act (.t (.other (.tile t))), fun t => .act (.t (.other (.take t))),
    fun t => .act (.t (.other (.ctrl t .pick))), fun t => .act (.t (.other (.ctrl t .dispatch))),
    fun t => .act (.t (.other (.ctrl t .grant))), fun t => .act (.t (.other (.ctrl t .complete))),
    c fun t k => .t (.pipe t k .monitor), c fun t k => .t (.pipe t k .signal), c fun t k => .t (.ret t k)]

/-- The step with a number. -/
def toStep (c : Nat) : DStep :=
  match digits[c % 32]? with
  | some f => f (c / 32)
  | none => .wait 0

/-- `n` steps, given by the digits of `code` to the base 2 ^ 16. -/
def DNode.follow (q : ClockPar) : Nat → Nat → DNode → Option DNode
  | 0, _, s => some s
  | n + 1, code, s =>
    match s.step q (toStep (code % 65536)) with
    | none => none
    | some s' => DNode.follow q n (code / 65536) s'

/-- The node at the start; `none` if the check of a core program fails. -/
def clockStart (q : ClockPar) (p : CoreParams) (valid : Nat → Nat) (prog : Nat → Nat → List CoreOp)
    (ops : Nat → List TileOp) : Option DNode :=
  ((List.range q.tiles).mapM fun t => do
    let cs ← (List.range q.cores).mapM fun k =>
      (p.trace [] (prog t k)).map fun e => ({ pipe := { feed := prog t k }, evs := e } : DCore)
    pure ({ ctrl := { valid := valid t }, cores := cs, ops := ops t, buf := List.replicate q.tiles [],
            active := if (ops t).isEmpty then some 0 else none } : DTile)).map fun l => { tiles := l }

/-- Schedules one after the other: numbers of steps and digits. -/
def DNode.followAll (q : ClockPar) : List (Nat × Nat) → DNode → Option DNode
  | [], s => some s
  | c :: cs, s => (s.follow q c.1 c.2).bind (DNode.followAll q cs)

/-- The sizes and latencies of a configuration (those of `Config.sysCfg` and `Config.stageLat`). -/
def clockPar (c : Config) : ClockPar where
  tiles := c.numTilesPerNode
  cores := c.numCoresPerTile
  size := c.tileConfig.edramSize
  edram := c.tileConfig.edramLat
  mem := c.coreConfig.dataMemLat
  fetch := c.coreConfig.instrnMemLat
  decode := c.coreConfig.dataMemLat
  noc := c.nocConfig.nocIntraLat
  exec op := match c.executionLatency op with
    | .ok n => n.toNat
    | .error _ => 0

/-- With this schedule the tile processes return at these times; `T` is the time at the end of the schedule. -/
def endsAt (q : ClockPar) (p : CoreParams) (valid : Nat → Nat) (prog : Nat → Nat → List CoreOp) (ops : Nat → List TileOp)
    (schedule : List (Nat × Nat)) (T : Nat) (times : List Nat) : Prop :=
  ∃ s, (clockStart q p valid prog ops).bind (DNode.followAll q schedule) = some s ∧ s.now = T ∧
    s.tiles.map (·.active) = times.map some

end Ramwich.Spec
