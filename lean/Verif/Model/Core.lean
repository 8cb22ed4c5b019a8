import Verif.Model.Mvmu
import Verif.Model.Vfu

/-! # `src/ramwich/core.py` and the functional visitor of `src/ramwich/visitor.py` -/
namespace Ramwich

/-- `Core` (core.py:18-48): the components that hold state. The parent tile, its DRAM controller and
the simulation clock belong to the system models. -/
structure Core where
  config : Config
  mvmus : List Mvmu
  cache : Memory
  vfu : VfuStats := {}
  deriving DecidableEq, Repr

/-- `Core.__init__` (core.py:23-48). -/
def Core.new (c : Config) : Core :=
  { config := c
    mvmus := (List.range c.numMvmusPerCore).map fun _ => Mvmu.new c
    cache := Memory.new c.coreConfig.dataMemSize }

/-- core.py:34 -/
def Core.outregStart (c : Core) : Nat := c.config.mvmuConfig.xbarSize * c.config.numMvmusPerCore
/-- core.py:35 -/
def Core.cacheStart (c : Core) : Nat := c.outregStart * 2
/-- core.py:36 -/
def Core.totalRegisters (c : Core) : Nat := c.cacheStart + c.config.coreConfig.dataMemSize

/-- `Core.get_mvmu` (core.py:53-60). -/
def Core.getMvmu (c : Core) (i : Int) : Except PyErr Mvmu :=
  if i < 0 ∨ i ≥ c.mvmus.length then .error .indexError
  else match c.mvmus[i.toNat]? with
    | some m => .ok m
    | none => .error .indexError

/-- `Core._overlaps_output_registers` (core.py:62-69). -/
def Core.overlapsOutput (c : Core) (start stop : Int) : Bool :=
  (decide (start ≥ c.outregStart) && decide (start < c.cacheStart))
    || (decide (stop > c.outregStart) && decide (stop ≤ c.cacheStart))
    || (decide (start ≤ c.outregStart) && decide (stop ≥ c.cacheStart))

/-- `Core._get_mvmu_id_from_address` (core.py:71-79). Python's `//` and `%` by a positive number. -/
def Core.mvmuIdFromAddress (c : Core) (start stop : Int) : Except PyErr Int :=
  let xs : Int := c.config.mvmuConfig.xbarSize
  if xs = 0 then .error .zeroDivisionError
  else
    let id := start / xs
    let idEnd := (stop - 1) / xs
    if id ≠ idEnd then .error .indexError
    else if c.config.numMvmusPerCore = 0 then .error .zeroDivisionError
    else .ok (id % c.config.numMvmusPerCore)

/-- `Core.write_to_register` (core.py:81-104). -/
def Core.writeToRegister (c : Core) (start : Int) (data : List I32) : Res Core Unit :=
  let stop := start + data.length
  if start < 0 ∨ stop > c.totalRegisters then (.error .indexError, c)
  else if c.overlapsOutput start stop then (.error .indexError, c)
  else if start ≥ c.cacheStart then
    let r := c.cache.write (start - c.cacheStart) data
    (r.1, { c with cache := r.2 })
  else
    match c.mvmuIdFromAddress start stop with
    | .error e => (.error e, c)
    | .ok id =>
      match c.mvmus[id.toNat]? with
      | none => (.error .indexError, c)
      | some m =>
        match m.writeToInreg (start % (c.config.mvmuConfig.xbarSize : Int)) data with
        | .error e => (.error e, c)
        | .ok m' => (.ok (), { c with mvmus := c.mvmus.set id.toNat m' })

/-- `Core.read_from_register` (core.py:106-125). -/
def Core.readFromRegister (c : Core) (start length : Int) : Res Core (List I32) :=
  let stop := start + length
  if start < 0 ∨ stop > c.totalRegisters then (.error .indexError, c)
  else if start < c.outregStart then (.error .indexError, c)
  else if start ≥ c.cacheStart then
    let r := c.cache.read (start - c.cacheStart) length
    (r.1, { c with cache := r.2 })
  else
    match c.mvmuIdFromAddress start stop with
    | .error e => (.error e, c)
    | .ok id =>
      match c.mvmus[id.toNat]? with
      | none => (.error .indexError, c)
      | some m =>
        match m.readFromOutreg (start % (c.config.mvmuConfig.xbarSize : Int)) length with
        | .error e => (.error e, c)
        | .ok (v, m') => (.ok v, { c with mvmus := c.mvmus.set id.toNat m' })

/-- `Core.reset` (core.py:159-164): MVMUs are reset one after the other, an exception stops. -/
def Core.reset (c : Core) : Res Core Unit :=
  let c := { c with cache := c.cache.reset, vfu := {} }
  let rec go : List Mvmu → Except PyErr Unit × List Mvmu
    | [] => (.ok (), [])
    | m :: ms =>
      match m.reset with
      | .error e => (.error e, m :: ms)
      | .ok m' => let r := go ms; (r.1, m' :: r.2)
  let r := go c.mvmus
  (r.1, { c with mvmus := r.2 })

/-- Continue with the result of a call, keeping the state when it raised
(Python statements in sequence, as in visitor.py:225-240). -/
def Res.andThen {σ α β : Type} (r : Res σ α) (f : σ → α → Res σ β) : Res σ β :=
  match r.1 with
  | .error e => (.error e, r.2)
  | .ok a => f r.2 a

/-- `np.full(op.vec, op.imm)` handed to an `int32` array (visitor.py:217-219): a negative length is
rejected, the immediate is an `int64`/`uint64` truncated to 32 bits. Immediates outside
`[-2^63, 2^64)` make numpy build an object array whose assignment raises OverflowError; the model
raises it here, before the address is tested. -/
def npFull32 (vec imm : Int) : Except PyErr (List I32) :=
  if vec < 0 then .error .valueError
  else if imm < -2 ^ 63 ∨ imm ≥ 2 ^ 64 then .error .overflowError
  else .ok (List.replicate vec.toNat (BitVec.ofInt 32 imm))

/-- `visit_set` (visitor.py:215-219), functional part. -/
def Core.visitSet (c : Core) (dest imm vec : Int) : Res Core Unit :=
  match npFull32 vec imm with
  | .error e => (.error e, c)
  | .ok data => c.writeToRegister dest data

/-- `visit_copy` (visitor.py:225-227), functional part. -/
def Core.visitCopy (c : Core) (dest read vec : Int) : Res Core Unit :=
  Res.andThen (c.readFromRegister read vec) fun c v => c.writeToRegister dest v

/-- The VFU call on a core (`self.core.vfu.calculate`, visitor.py:233-240). -/
def Core.vfuCall (c : Core) (fl : FloatActs) (opcode : VfuOp) (a : List I32) (b : Option (List I32)) :
    Res Core (List I32) :=
  let r := c.vfu.calculate fl c.config.dataConfig opcode (.arr a) (b.map .arr)
  (r.1, { c with vfu := r.2 })

/-- `visit_vfu` (visitor.py:233-240), functional part. -/
def Core.visitVfu (c : Core) (fl : FloatActs) (opcode : VfuOp) (dest read1 : Int) (read2 : Option Int)
    (vec : Int) : Res Core Unit :=
  Res.andThen (c.readFromRegister read1 vec) fun c a =>
    match read2 with
    | some r2 =>
        Res.andThen (c.readFromRegister r2 vec) fun c b =>
          Res.andThen (c.vfuCall fl opcode a (some b)) fun c v => c.writeToRegister dest v
    | none => Res.andThen (c.vfuCall fl opcode a none) fun c v => c.writeToRegister dest v

/-- One `execute_mvm` of `visit_mvm` (visitor.py:248). The state of a unit whose `execute_mvm` raises
is not modelled (it is left as it was). -/
def Core.mvmOne (c : Core) (i : Int) (noise : Nat → Noise) : Res Core Unit :=
  match c.getMvmu i with
  | .error e => (.error e, c)
  | .ok m =>
    match m.executeMvm noise with
    | .error e => (.error e, c)
    | .ok m' => (.ok (), { c with mvmus := c.mvmus.set i.toNat m' })

/-- `visit_mvm` (visitor.py:246-248), functional part; `noise n` is the read noise of the `n`-th
activation in the list. -/
def Core.visitMvm (c : Core) (noise : Nat → Nat → Noise) : List Int → Res Core Unit
  | [] => (.ok (), c)
  | i :: is =>
      Res.andThen (c.mvmOne i (noise 0)) fun c _ => Core.visitMvm c (fun n => noise (n + 1)) is

/-- `CoreExecutionVisitor` on the operations that do not touch the DRAM (visitor.py:215-257). `load`
and `store` need the controller: see `loadAddress`, `loadFinish` and `storeRequest`. -/
def Core.execute (c : Core) (fl : FloatActs) (noise : Nat → Nat → Noise) : CoreOp → Res Core Unit
  | .set dest imm vec => c.visitSet dest imm vec
  | .copy dest read vec => c.visitCopy dest read vec
  | .vfu opcode dest r1 r2 vec => c.visitVfu fl opcode dest r1 r2 vec
  | .mvm xbar => c.visitMvm noise xbar
  | .hlt => (.ok (), c)
  | .load .. => (.ok (), c)
  | .store .. => (.ok (), c)

/-- First half of `visit_load` (visitor.py:149-151): the DRAM address. -/
def Core.loadAddress (c : Core) (read : Int) : Res Core Int :=
  Res.andThen (c.readFromRegister read 1) fun c v =>
    match v with
    | a :: _ => (.ok a.toInt, c)
    | [] => (.error .indexError, c)

/-- Second half of `visit_load` (visitor.py:172). -/
def Core.loadFinish (c : Core) (dest : Int) (data : List I32) : Res Core Unit :=
  c.writeToRegister dest data

/-- First half of `visit_store` (visitor.py:187-193): the DRAM address and the data. `np.reshape` to
`(vec, width)` raises for negative dimensions (numpy would accept one `-1`; the model does not). -/
def Core.storeRequest (c : Core) (dest read width vec : Int) : Res Core (Int × List I32) :=
  Res.andThen (c.loadAddress dest) fun c a =>
    Res.andThen (c.readFromRegister read (width * vec)) fun c v =>
      if width < 0 ∨ vec < 0 then (.error .valueError, c) else (.ok (a, v), c)

/-- Latencies of `CoreExecutionTimingVisitor` (visitor.py:109-135). Python's `//` by zero raises; a
missing ADC latency makes the product raise TypeError. `load` and `store` are not supported there
(visitor.py:101-107, NotImplementedError, never called). -/
def Config.executionLatency (c : Config) : CoreOp → Except PyErr Int
  | .set .. => .ok c.coreConfig.dataMemLat
  | .copy .. => .ok c.coreConfig.dataMemLat
  | .vfu _ _ _ _ vec =>
      if c.coreConfig.numAluPerVfu = 0 then .error .zeroDivisionError
      else .ok (c.coreConfig.aluLat * (vec + c.coreConfig.numAluPerVfu - 1) / c.coreConfig.numAluPerVfu)
  | .mvm _ =>
      if c.mvmuConfig.dacResolution = 0 then .error .zeroDivisionError
      else match c.mvmuConfig.adcLat with
        | none => .error .typeError
        | some lat => .ok ((lat : Int) *
            (((c.dataConfig.activationWidth + c.mvmuConfig.dacResolution - 1 : Nat) : Int)
              / c.mvmuConfig.dacResolution + 2))
  | .hlt => .ok 1
  | .load .. => .error .runtimeError
  | .store .. => .error .runtimeError

end Ramwich
