import Verif.Spec.Core
import Verif.Spec.SysErrors

/-! # A check of the programs of a node without their data

First the program of every core is read once, from its beginning to its `hlt`: registers must lie in the windows of
the address map, and the DRAM addresses of loads and stores must come from registers that a `set` has filled. What is
left of a core program are the DRAM words that it reads and writes. Then the processes are moved one operation at a
time, in an order that is given: a read needs words that are there, a write words that are not there yet, a Recv needs
its rows at the head of what the source has sent. No word of data and no time occurs. -/
namespace Ramwich.Spec

/-! ## One core -/

/-- What a core does to its DRAM: it reads or writes `len` words from `addr` on, or it ends. -/
inductive MemEv
  | read (addr len : Nat)
  | write (addr len : Nat)
  | stop
  deriving DecidableEq, Repr

/-- Registers of the cache with known contents. -/
abbrev Known := List (Int × Int)

/-- The contents of `len` registers from `start` on are not known any more. -/
def Known.forget (K : Known) (start len : Int) : Known :=
  K.filter fun e => decide (e.1 < start ∨ start + len ≤ e.1)

/-- `len` registers from `start` on can be read. -/
def CoreParams.canRead (p : CoreParams) (start len : Int) : Bool :=
  decide (0 < len) && match p.place start len.toNat with
    | some (.cache _) => true
    | some (.output ..) => true
    | _ => false

/-- `len` registers from `start` on can be written. -/
def CoreParams.canWrite (p : CoreParams) (start len : Int) : Bool :=
  decide (0 < len) && match p.place start len.toNat with
    | some (.cache _) => true
    | some (.input ..) => true
    | _ => false

/-- What is known after `set`. -/
def CoreParams.learn (p : CoreParams) (K : Known) (dest imm vec : Int) : Known :=
  if inside dest vec.toNat (2 * (p.num * p.unit.size)) p.cacheSize then
    ((List.range vec.toNat).map fun i : Nat => (dest + i, imm)) ++ K.forget dest vec
  else K

/-- The operands of a VFU operation are there, and the operation is not a division, which raises for some data. -/
def CoreParams.vfuReads (p : CoreParams) (op : VfuOp) (r1 : Int) (r2 : Option Int) (vec : Int) : Bool :=
  p.canRead r1 vec && (match r2 with
    | some r2 => p.canRead r2 vec
    | none => vfuIsUnary op) && decide (op ≠ .div)

/-- The DRAM accesses of a program with what is known about the registers; `none` if the check fails. -/
def CoreParams.trace (p : CoreParams) : Known → List CoreOp → Option (List MemEv)
  | _, [] => none
  | _, .hlt :: _ => some [.stop]
  | K, .set dest imm vec :: ops =>
      if p.canWrite dest vec = true ∧ fits32 imm then p.trace (p.learn K dest imm vec) ops else none
  | K, .copy dest read vec :: ops =>
      if p.canRead read vec = true ∧ p.canWrite dest vec = true then p.trace (K.forget dest vec) ops else none
  | K, .vfu op dest r1 r2 vec :: ops =>
      if p.vfuReads op r1 r2 vec = true ∧ p.canWrite dest vec = true then p.trace (K.forget dest vec) ops else none
  | K, .mvm xbar :: ops => if ∀ i ∈ xbar, 0 ≤ i ∧ i < p.num then p.trace K ops else none
  | K, .load dest read width vec :: ops =>
      match K.lookup read with
      | none => none
      | some a =>
        if 0 ≤ a ∧ 0 < width ∧ 0 < vec ∧ p.canWrite dest (width * vec) = true then
          (p.trace (K.forget dest (width * vec)) ops).map fun evs => .read a.toNat (width * vec).toNat :: evs
        else none
  | K, .store dest read width vec :: ops =>
      match K.lookup dest with
      | none => none
      | some a =>
        if 0 ≤ a ∧ 0 < width ∧ 0 < vec ∧ p.canRead read (width * vec) = true then
          (p.trace K ops).map fun evs => .write a.toNat (width * vec).toNat :: evs
        else none

/-! ## All processes -/

/-- The words `[addr, addr+len)` as a set of bits. -/
def span (addr len : Nat) : Nat := (2 ^ len - 1) <<< addr

/-- A tile without data: the valid words of its DRAM as a set of bits, what its cores and its own program still have to
do, the rows it has sent and nobody has received (target and number of words), and whether it has not stopped. -/
structure DryTile where
  valid : Nat
  cores : List (List MemEv)
  ops : List TileOp
  out : List (Nat × Nat) := []
  up : Bool := true
  deriving DecidableEq, Repr

/-- Which process moves. -/
inductive DryMove
  | core (t k : Nat)
  | tile (t : Nat)
  deriving DecidableEq, Repr

/-- The words are there. -/
def DryTile.has (x : DryTile) (addr len : Nat) : Prop := x.valid &&& span addr len = span addr len

/-- None of the words is there, and the DRAM of `size` words contains them. -/
def DryTile.free (size : Nat) (x : DryTile) (addr len : Nat) : Prop :=
  addr + len ≤ size ∧ x.valid &&& span addr len = 0

instance (x : DryTile) (a n : Nat) : Decidable (x.has a n) := by unfold DryTile.has; infer_instance
instance (s : Nat) (x : DryTile) (a n : Nat) : Decidable (x.free s a n) := by unfold DryTile.free; infer_instance

/-- A core of tile `x` does its next step. -/
def DryTile.coreMove (size : Nat) (x : DryTile) (k : Nat) : Option DryTile :=
  match x.cores[k]? with
  | some (.read a n :: evs) => if x.has a n then some { x with cores := x.cores.set k evs } else none
  | some (.write a n :: evs) =>
      if x.free size a n then some { x with valid := x.valid ||| span a n, cores := x.cores.set k evs } else none
  | some (.stop :: evs) => some { x with cores := x.cores.set k evs }
  | _ => none

/-- One move. -/
def dryStep (size : Nat) (d : List DryTile) : DryMove → Option (List DryTile)
  | .core t k =>
      match d[t]? with
      | none => none
      | some x => (x.coreMove size k).map fun x => d.set t x
  | .tile t =>
      match d[t]? with
      | none => none
      | some x =>
        match x.ops with
        | .send addr target width vec :: rest =>
            if 0 ≤ addr ∧ 0 ≤ target ∧ target < d.length ∧ target ≠ t ∧ 0 < width ∧ 0 < vec ∧
                x.has addr.toNat (width * vec).toNat then
              some (d.set t { x with
                ops := rest, out := x.out ++ List.replicate vec.toNat (target.toNat, width.toNat) })
            else none
        | .receive addr source width vec :: rest =>
            match d[source.toNat]? with
            | none => none
            | some y =>
              if 0 ≤ addr ∧ 0 ≤ source ∧ source ≠ t ∧ 0 < width ∧ 0 < vec ∧
                  y.out.take vec.toNat = List.replicate vec.toNat (t, width.toNat) ∧
                  x.free size addr.toNat (width * vec).toNat then
                some ((d.set source.toNat { y with out := y.out.drop vec.toNat }).set t { x with
                  ops := rest, valid := x.valid ||| span addr.toNat (width * vec).toNat })
              else none
        | [.halt] =>
            if x.out = [] ∧ ∀ c ∈ x.cores, c = [] then some (d.set t { x with ops := [], up := false }) else none
        | _ => none

/-- A sequence of moves. -/
def dryRun (size : Nat) : List DryTile → List DryMove → Option (List DryTile)
  | d, [] => some d
  | d, m :: ms => (dryStep size d m).bind fun d => dryRun size d ms

/-- The tiles before the first move; `none` if the check of a core program fails. -/
def dryStart (p : CoreParams) (tiles cores : Nat) (valid : Nat → Nat) (prog : Nat → Nat → List CoreOp)
    (ops : Nat → List TileOp) : Option (List DryTile) :=
  (List.range tiles).mapM fun t => do
    let cs ← (List.range cores).mapM fun k => p.trace [] (prog t k)
    pure { valid := valid t, cores := cs, ops := ops t }

/-- Nothing is left to do. -/
def dryDone (d : List DryTile) : Prop := ∀ x ∈ d, x.ops = [] ∧ x.out = [] ∧ ∀ c ∈ x.cores, c = []

instance (d : List DryTile) : Decidable (dryDone d) := by unfold dryDone; infer_instance

/-- The check: with the moves in the given order every program comes to its end. -/
def accepted (p : CoreParams) (size tiles cores : Nat) (valid : Nat → Nat) (prog : Nat → Nat → List CoreOp)
    (ops : Nat → List TileOp) (moves : List DryMove) : Prop :=
  match (dryStart p tiles cores valid prog ops).bind fun d => dryRun size d moves with
  | some d => dryDone d
  | none => False

instance (p : CoreParams) (size tiles cores : Nat) (valid : Nat → Nat) (prog : Nat → Nat → List CoreOp)
    (ops : Nat → List TileOp) (moves : List DryMove) : Decidable (accepted p size tiles cores valid prog ops moves) := by
  unfold accepted; split <;> infer_instance

end Ramwich.Spec
