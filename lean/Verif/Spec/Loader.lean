import Verif.Model.Loader
import Verif.Spec.Text
import Mathlib.Data.Rat.Floor

/-! # What the loaders should do -/
namespace Ramwich.Spec

/-! ## Units of a simulator -/

/-- The position that a Python index denotes in a list of length `len`: negative ones count from the end. -/
def position (len : Nat) (i : Int) : Option Nat :=
  if 0 ≤ i ∧ i < len then some i.toNat
  else if i < 0 ∧ 0 ≤ len + i then some (len + i).toNat
  else none

def nodeAt (s : Sim) (a : Nat) : Option NodeObj := s.nodes[a]?
def tileAt (s : Sim) (a b : Nat) : Option TileObj := (nodeAt s a).bind fun n => n.tiles[b]?
def coreAt (s : Sim) (a b c : Nat) : Option CoreObj := (tileAt s a b).bind fun t => t.cores[c]?
def mvmuAt (s : Sim) (a b c d : Nat) : Option Mvmu := (coreAt s a b c).bind fun o => o.core.mvmus[d]?

/-- A unit that operations are given to. -/
inductive Unit'
  | tile (a b : Nat)
  | core (a b c : Nat)
  deriving DecidableEq, Repr

/-- The unit that an operation is addressed to. -/
def unitOf (s : Sim) : Placed → Option Unit'
  | .tile n t _ => do
    let a ← position s.nodes.length n
    let node ← nodeAt s a
    let b ← position node.tiles.length t
    return .tile a b
  | .core n t k _ => do
    let a ← position s.nodes.length n
    let node ← nodeAt s a
    let b ← position node.tiles.length t
    let tile ← tileAt s a b
    let c ← position tile.cores.length k
    return .core a b c

/-- The tile operations among `ps` that are addressed to tile `b` of node `a`, in order. -/
def opsOfTile (s : Sim) (a b : Nat) (ps : List Placed) : List TileOp :=
  ps.filterMap fun
    | .tile n t op => if unitOf s (.tile n t op) = some (.tile a b) then some op else none
    | .core .. => none

/-- The core operations among `ps` that are addressed to core `c` of tile `b` of node `a`, in order. -/
def opsOfCore (s : Sim) (a b c : Nat) (ps : List Placed) : List CoreOp :=
  ps.filterMap fun
    | .core n t k op => if unitOf s (.core n t k op) = some (.core a b c) then some op else none
    | .tile .. => none

/-- The operations before the first one that is addressed to no unit. -/
def placeable (s : Sim) (ps : List Placed) : List Placed := ps.takeWhile fun p => (unitOf s p).isSome

/-- A simulator without operations. -/
def withoutOps (s : Sim) : Sim :=
  { s with nodes := s.nodes.map fun n => { n with tiles := n.tiles.map fun t =>
      { t with operations := [], cores := t.cores.map fun o => { o with operations := [] } } } }

/-! ## Entries of an operation file -/

/-- The `type` of an operation. -/
def typeOf : Placed → String
  | .core _ _ _ (.load ..) => "load"
  | .core _ _ _ (.store ..) => "store"
  | .core _ _ _ (.set ..) => "set"
  | .core _ _ _ (.copy ..) => "copy"
  | .core _ _ _ (.mvm _) => "mvm"
  | .core _ _ _ (.vfu ..) => "vfu"
  | .core _ _ _ .hlt => "hlt"
  | .tile _ _ (.send ..) => "send"
  | .tile _ _ (.receive ..) => "receive"
  | .tile _ _ .halt => "halt"

def opcodeText : VfuOp → String
  | .and => "and" | .or => "or" | .not => "not" | .add => "add" | .sub => "sub" | .mul => "mul"
  | .div => "div" | .min => "min" | .max => "max" | .sig => "sig" | .tanh => "tanh" | .relu => "relu"

/-- The fields with which a program writes an operation to the file. -/
def fieldsOf (isAddress : Bool) : Placed → List (String × Json)
  | .core n t k op =>
    [("type", .str (typeOf (.core n t k op))), ("node", .int n), ("tile", .int t), ("core", .int k)] ++
    match op with
    | .load dest read width vec => [("dest", .int dest), ("read", .int read), ("width", .int width), ("vec", .int vec)]
    | .store dest read width vec => [("dest", .int dest), ("read", .int read), ("width", .int width), ("vec", .int vec)]
    | .set dest imm vec => [("dest", .int dest), ("imm", .int imm), ("vec", .int vec), ("is_address", .bool isAddress)]
    | .copy dest read vec => [("dest", .int dest), ("read", .int read), ("vec", .int vec)]
    | .mvm xbar => [("xbar", .arr (xbar.map .int))]
    | .vfu opcode dest read1 read2 vec =>
      [("opcode", .str (opcodeText opcode)), ("dest", .int dest), ("read_1", .int read1),
       ("read_2", match read2 with | some r => .int r | none => .null), ("imm", .null), ("vec", .int vec)]
    | .hlt => []
  | .tile n t op =>
    [("type", .str (typeOf (.tile n t op))), ("node", .int n), ("tile", .int t)] ++
    match op with
    | .send addr target width vec =>
      [("mem_addr", .int addr), ("target_tile", .int target), ("width", .int width), ("vec", .int vec)]
    | .receive addr source width vec =>
      [("mem_addr", .int addr), ("source_tile", .int source), ("width", .int width), ("vec", .int vec)]
    | .halt => []

/-- The values of fields that may be left out. -/
def defaultOf : String → Option Json
  | "node" => some (.int 0)
  | "read_2" => some .null
  | "imm" => some .null
  | _ => none

/-- The object says that the field `key` is `v`. -/
def tells (kvs : List (String × Json)) (key : String) (v : Json) : Prop :=
  getField kvs key = some v ∨ (getField kvs key = none ∧ defaultOf key = some v)

/-- The fields that an entry of the given type must have (`node` has a default). -/
def required : String → List String
  | "load" => ["tile", "core", "dest", "read", "width", "vec"]
  | "store" => ["tile", "core", "dest", "read", "width", "vec"]
  | "set" => ["tile", "core", "dest", "imm", "vec", "is_address"]
  | "copy" => ["tile", "core", "dest", "read", "vec"]
  | "mvm" => ["tile", "core", "xbar"]
  | "vfu" => ["tile", "core", "opcode", "dest", "read_1", "vec"]
  | "hlt" => ["tile", "core"]
  | "send" => ["tile", "mem_addr", "target_tile", "width", "vec"]
  | "receive" => ["tile", "mem_addr", "source_tile", "width", "vec"]
  | "halt" => ["tile"]
  | _ => []

/-! ## Weights -/

/-- A simulator without its MVMUs. -/
def withoutMvmus (s : Sim) : Sim :=
  { s with nodes := s.nodes.map fun n => { n with tiles := n.tiles.map fun t =>
      { t with cores := t.cores.map fun o => { o with core := { o.core with mvmus := [] } } } } }

/-- An MVMU after `load_weights(w)`: as before if that fails. -/
def loadOr (m : Mvmu) : NpzArray → Mvmu
  | .other => m
  | .matrix rows =>
    match m.loadWeights rows with
    | .ok m' => m'
    | .error _ => m

open Classical in
/-- The arrays for MVMU `d` of core `c` of tile `b` of node `a`, in the order of the file. -/
noncomputable def arraysFor (uni : Char → Option Nat) (a b c d : Nat) (ws : List (String × NpzArray)) : List NpzArray :=
  (ws.filter fun e => decide (∃ l, isWeightKey uni e.1 a b c d l)).map Prod.snd

/-! ## Activations -/

/-- `v` is `q` rounded towards zero. -/
def truncated (q : ℚ) (v : Int) : Prop := (0 ≤ q → v = ⌊q⌋) ∧ (q < 0 → v = ⌈q⌉)

/-- A simulator without DRAM contents and validity bits. -/
def withoutDram (s : Sim) : Sim :=
  { s with nodes := s.nodes.map fun n => { n with tiles := n.tiles.map fun t =>
      { t with ctrl := { t.ctrl with mem := { t.ctrl.mem with cells := [] }, valid := [] } } } }

/-! ## All loaders -/

/-- Calls of the loaders, in any order. -/
inductive LoadCall
  | operations (f : JsonFile)
  | weights (f : NpzFile)
  | activation (a : Option Activation)

/-- What is not modelled of the libraries that the loaders use. -/
structure Libs where
  lax : Lax
  pick : List (String × Json) → Nat
  uni : Char → Option Nat
  oob : ℚ → I32

/-- The simulator after a call, whatever its outcome. -/
def loaded1 (l : Libs) (s : Sim) : LoadCall → Sim
  | .operations f => (s.loadOperations l.lax l.pick f).2
  | .weights f => (s.loadWeights l.uni f).2
  | .activation a => (s.prepare l.oob a).2

def loaded (l : Libs) (s : Sim) (calls : List LoadCall) : Sim := calls.foldl (loaded1 l) s

end Ramwich.Spec
