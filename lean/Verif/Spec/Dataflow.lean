import Verif.Spec.Core
import Verif.Spec.System
import Verif.Model.CoreApi
import Verif.Spec.ClockedTime

/-! # Programs as equations

What the programs of a node say about the contents of the DRAMs, without processes, requests, packets and time. -/
namespace Ramwich.Spec

/-- `n` words from `a` on. -/
def wordsAt (mem : Nat → Int) (a n : Nat) : List Int := (List.range n).map fun j => mem (a + j)

/-! ## Cores -/

/-- A core executes its program up to `hlt`, where every load finds the words of `mem`. The result is the state of the
core at the end and the stores: address and values. `e n` are the conductance errors of operation `n`. -/
def CoreParams.flow (p : CoreParams) (mem : Nat → Int) (e : Nat → MvmErrors) :
    Nat → CoreState → List CoreOp → Except PyErr (CoreState × List (Nat × List Int))
  | _, s, [] => .ok (s, [])
  | _, s, .hlt :: _ => .ok (s, [])
  | n, s, .load dest read width vec :: ops => do
      let a ← p.read s read 1
      let s ← p.write s dest (wordsAt mem (a.headD 0).toNat (width * vec).toNat)
      p.flow mem e (n + 1) s ops
  | n, s, .store dest read width vec :: ops => do
      let a ← p.read s dest 1
      let v ← p.read s read (width * vec).toNat
      let r ← p.flow mem e (n + 1) s ops
      .ok (r.1, ((a.headD 0).toNat, v) :: r.2)
  | n, s, op :: ops => do
      let s ← p.exec (e n) s op
      p.flow mem e (n + 1) s ops

/-- The operation works on at least one word; immediates fit in 64 bits. -/
def CoreOp.positive : CoreOp → Prop
  | .load _ _ width vec => 0 < width ∧ 0 < vec
  | .store _ _ width vec => 0 < width ∧ 0 < vec
  | op => CoreOp.wellFormed op

instance (op : CoreOp) : Decidable (CoreOp.positive op) := by
  cases op <;> unfold CoreOp.positive <;> infer_instance

/-- The conductance errors of an `mvm` operation with this noise. -/
def errorsOf (noise : Nat → Nat → Noise) : MvmErrors where
  pos n i := (noise n i).pos
  neg n i := (noise n i).neg

/-- The first `n` outputs of a unit with the weights `w` and the inputs `x` (and zeros), as they are read: scaled by
`2^-frac`, rounding down. -/
def CoreParams.product (p : CoreParams) (w : Nat → Nat → ℚ) (e : MvmErrors) (x : List Int) (n : Nat) : List Int :=
  (List.range n).map fun r => wrap32 ((p.unit.analog (e.pos 0) (e.neg 0)).mvmValue p.unit.storage p.unit.frac p.unit.size
    p.unit.res p.unit.width p.unit.adcBits w (fun j => x.getD j 0) r) / 2 ^ p.unit.frac

/-- Saturating sum of blocks. -/
def CoreParams.plus (p : CoreParams) (x y : List Int) : List Int :=
  List.zipWith (fun a b => clampTo p.actWidth (a + b)) x y

/-- Saturating positive part of a block. -/
def CoreParams.rectified (p : CoreParams) (x : List Int) : List Int := x.map fun a => clampTo p.actWidth (max 0 a)

/-! ## Tiles -/

/-- `vec` rows of `width` words from `addr` on. -/
def rowsAt (mem : Nat → Int) (addr width vec : Int) : List (List Int) :=
  (List.range vec.toNat).map fun j => wordsAt mem (addr.toNat + j * width.toNat) width.toNat

/-- The rows that a program sends to tile `d`. -/
def sentRows (mem : Nat → Int) (d : Nat) (ops : List TileOp) : List (List Int) :=
  ops.flatMap fun
    | .send a t w v => if t = (d : Int) then rowsAt mem a w v else []
    | _ => []

/-- The rows at the places where a program puts what it receives from tile `i`. -/
def recvRows (mem : Nat → Int) (i : Nat) (ops : List TileOp) : List (List Int) :=
  ops.flatMap fun
    | .receive a s w v => if s = (i : Int) then rowsAt mem a w v else []
    | _ => []

/-- The widths of the rows of transfers. -/
def rowWidths (shapes : List (Int × Int)) : List Int := shapes.flatMap fun x => List.replicate x.2.toNat x.1

/-! ## All equations -/

/-- The contents `mem` of the DRAMs solve the equations of the programs, and the registers are at last `final`:
* every core with the words of `mem` in its loads stores what is in `mem`;
* what a tile receives from another is what that one sends, row by row;
* words that are there at the beginning are `given`. -/
structure solution (p : CoreParams) (tiles cores : Nat) (prog : Nat → Nat → List CoreOp) (ops : Nat → List TileOp)
    (start : Nat → Nat → CoreState) (errors : Nat → Nat → Nat → MvmErrors) (there : Nat → Nat → Prop)
    (given mem : Nat → Nat → Int) (final : Nat → Nat → CoreState) : Prop where
  core : ∀ t < tiles, ∀ k < cores, ∃ stores,
    p.flow (mem t) (errors t k) 0 (start t k) (prog t k) = .ok (final t k, stores) ∧
    ∀ s ∈ stores, s.2 = wordsAt (mem t) s.1 s.2.length
  transfer : ∀ src < tiles, ∀ dst < tiles, recvRows (mem dst) src (ops dst) = sentRows (mem src) dst (ops src)
  input : ∀ t < tiles, ∀ a, there t a → mem t a = given t a

/-- The hypotheses of C87 on a node with configuration `c'` (from `c` by the defaults of config.py): the weights of its
units have been loaded, its core operations have positive lengths, and the rows that one tile sends to another are as
many and as wide as those that the other receives from it. -/
structure composed (cfg : SysCfg) (c c' : Config) (weights : Nat → Nat → List (Nat × List (List ℚ))) (i : SysInit) :
    Prop where
  simulable : Simulable c
  build : c.build = .ok c'
  unit : 0 < c'.mvmuConfig.xbarSize * c'.numMvmusPerCore
  lists : i.ok
  cores : ∀ t < cfg.net.tiles, ∀ k < cfg.cores,
    ∃ fl, i.core t k = (Core.new c').after fl ((weights t k).map fun w => .load w.1 w.2)
  matrices : ∀ t < cfg.net.tiles, ∀ k < cfg.cores, ∀ w ∈ weights t k, w.1 < c'.numMvmusPerCore ∧
    w.2.length = c'.mvmuConfig.xbarSize ∧ ∀ row ∈ w.2, row.length = c'.mvmuConfig.xbarSize
  positive : ∀ t < cfg.net.tiles, ∀ k < cfg.cores, ∀ op ∈ upToHlt (i.prog t k), CoreOp.positive op
  matched : ∀ src < cfg.net.tiles, ∀ dst < cfg.net.tiles,
    rowWidths (sendShapes dst (i.ops src)) = rowWidths (recvShapes src (i.ops dst))

/-- Words of a DRAM as integers. -/
def wordsOf (m : Memory) (a : Nat) : Int := (m.cells.getD a 0).toInt

/-- The parameters of a core with these activation functions. -/
def coreParamsWith (c : Config) (fl : FloatActs) : CoreParams :=
  coreParamsOf c (fun v => (fl.sig c.dataConfig.activationFracBits (BitVec.ofInt 32 v)).toInt)
    (fun v => (fl.tanh c.dataConfig.activationFracBits (BitVec.ofInt 32 v)).toInt)

/-- The equations of a node. -/
def equations (cfg : SysCfg) (c : Config) (weights : Nat → Nat → List (Nat × List (List ℚ))) (i : SysInit)
    (mem : Nat → Nat → Int) (final : Nat → Nat → CoreState) : Prop :=
  solution (coreParamsWith c cfg.fl) cfg.net.tiles cfg.cores i.prog i.ops
    (fun t k => CoreState.loadAll {} (weights t k)) (fun t k n => errorsOf (cfg.noise t k n))
    (fun t a => a < (i.mem t).size ∧ (i.valid t).getD a false = true) (fun t => wordsOf (i.mem t)) mem final

end Ramwich.Spec
