import Verif.Spec.Vfu

/-! # Abstract core

A core as its programs see it: `num` matrix-vector units of `size` rows, a cache of `cacheSize`
words, and one address space

* `[m*size, (m+1)*size)`            — inputs of unit `m` (write only),
* `num*size + [m*size, (m+1)*size)` — outputs of unit `m` (read only, scaled by `2^-frac`),
* `2*num*size + [0, cacheSize)`     — cache.

Every value is an ordinary integer. -/
namespace Ramwich.Spec

/-- Fixed parameters of a core. -/
structure CoreParams where
  unit : UnitParams
  num : Nat
  cacheSize : Nat
  actFrac : Nat
  actWidth : Nat
  sig : Int → Int
  tanh : Int → Int

/-- State of the abstract core. -/
structure CoreState where
  units : Nat → UnitState := fun _ => {}
  cache : Nat → Int := fun _ => 0

/-- Where a block of addresses lies. -/
inductive Place
  | input (m start : Nat)
  | output (m start : Nat)
  | cache (start : Nat)
  deriving DecidableEq

/-- `[start, start+len)` lies inside `[base, base+size)`. -/
def inside (start : Int) (len : Nat) (base size : Nat) : Prop :=
  (base : Int) ≤ start ∧ start + len ≤ (base + size : Nat)

instance (s : Int) (l b n : Nat) : Decidable (inside s l b n) := by unfold inside; infer_instance

/-- The place of a block that lies inside one window of the address map. -/
def CoreParams.place (p : CoreParams) (start : Int) (len : Nat) : Option Place :=
  if inside start len (2 * (p.num * p.unit.size)) p.cacheSize then
    some (.cache (start - 2 * (p.num * p.unit.size)).toNat)
  else match (List.range p.num).find? fun m =>
      decide (inside start len (m * p.unit.size) p.unit.size) with
    | some m => some (.input m (start - m * p.unit.size).toNat)
    | none =>
      match (List.range p.num).find? fun m =>
          decide (inside start len ((p.num + m) * p.unit.size) p.unit.size) with
      | some m => some (.output m (start - (p.num + m) * p.unit.size).toNat)
      | none => none

/-- Replace the block starting at `start` by `values`. -/
def setBlock (f : Nat → Int) (start : Nat) (values : List Int) (a : Nat) : Int :=
  if start ≤ a ∧ a < start + values.length then wrap32 (values.getD (a - start) 0) else f a

/-- Writing a non-empty block. -/
def CoreParams.write (p : CoreParams) (s : CoreState) (start : Int) (values : List Int) :
    Except PyErr CoreState :=
  match p.place start values.length with
  | some (.cache a) => .ok { s with cache := setBlock s.cache a values }
  | some (.input m a) => .ok { s with
      units := fun i => if i = m then { s.units i with inputs := setBlock (s.units i).inputs a values }
        else s.units i }
  | _ => .error .indexError

/-- Reading a non-empty block. -/
def CoreParams.read (p : CoreParams) (s : CoreState) (start : Int) (len : Nat) :
    Except PyErr (List Int) :=
  match p.place start len with
  | some (.cache a) => .ok ((List.range len).map fun i => s.cache (a + i))
  | some (.output m a) =>
      .ok ((List.range len).map fun i => (s.units m).outputs (a + i) / 2 ^ p.unit.frac)
  | _ => .error .indexError

/-- Conductance errors of one `mvm` instruction: activation number, then as in `UnitOp.mvm`. -/
structure MvmErrors where
  pos : Nat → Nat → Nat → Nat → Nat → ℚ := fun _ _ _ _ _ => 0
  neg : Nat → Nat → Nat → Nat → Nat → ℚ := fun _ _ _ _ _ => 0

/-- Activate units one after the other. -/
def CoreParams.mvms (p : CoreParams) (e : MvmErrors) : CoreState → List Int → Except PyErr CoreState
  | s, [] => .ok s
  | s, i :: is =>
      if 0 ≤ i ∧ i < p.num then
        p.mvms { pos := fun n => e.pos (n + 1), neg := fun n => e.neg (n + 1) }
          { s with units := fun m => if m = i.toNat then (p.unit.step (s.units m) (.mvm (e.pos 0) (e.neg 0))).2
              else s.units m } is
      else .error .indexError

/-- One instruction that does not use the DRAM, with vectors of length at least one. -/
def CoreParams.exec (p : CoreParams) (e : MvmErrors) (s : CoreState) : CoreOp → Except PyErr CoreState
  | .set dest imm vec => p.write s dest (List.replicate vec.toNat imm)
  | .copy dest read vec => do
      let v ← p.read s read vec.toNat
      p.write s dest v
  | .vfu op dest r1 r2 vec => do
      let a ← p.read s r1 vec.toNat
      let b ← match r2 with
        | none => .ok none
        | some r2 => (p.read s r2 vec.toNat).map some
      let v ← vfuVector p.sig p.tanh p.actFrac p.actWidth op a b
      p.write s dest v
  | .mvm xbar => p.mvms e s xbar
  | .hlt => .ok s
  | .load .. => .ok s
  | .store .. => .ok s

/-- The instruction is inside the scope of `exec`: vector lengths are positive, immediates fit in 64
bits. -/
def CoreOp.wellFormed : CoreOp → Prop
  | .set _ imm vec => 0 < vec ∧ -2 ^ 63 ≤ imm ∧ imm < 2 ^ 64
  | .copy _ _ vec => 0 < vec
  | .vfu _ _ _ _ vec => 0 < vec
  | .mvm _ => True
  | .hlt => True
  | .load .. => False
  | .store .. => False

instance (op : CoreOp) : Decidable (CoreOp.wellFormed op) := by
  cases op <;> unfold CoreOp.wellFormed <;> infer_instance

/-- A program of such instructions. -/
def CoreParams.execAll (p : CoreParams) : CoreState → List (CoreOp × MvmErrors) → Except PyErr CoreState
  | s, [] => .ok s
  | s, (op, e) :: ops => do
      let s ← p.exec e s op
      p.execAll s ops

/-- Give weight matrices to units. -/
def CoreState.loadAll (s : CoreState) : List (Nat × List (List ℚ)) → CoreState
  | [] => s
  | (m, w) :: ws => CoreState.loadAll { s with units := fun i =>
      if i = m then { s.units i with weights := fun r j => (w.getD r []).getD j 0 } else s.units i } ws

/-- Parameters of the abstract core for a configuration. -/
def coreParamsOf (c : Config) (sig tanh : Int → Int) : CoreParams where
  unit := paramsOf c.mvmuConfig c.dataConfig
  num := c.numMvmusPerCore
  cacheSize := c.coreConfig.dataMemSize
  actFrac := c.dataConfig.activationFracBits
  actWidth := c.dataConfig.activationWidth
  sig := sig
  tanh := tanh

end Ramwich.Spec
