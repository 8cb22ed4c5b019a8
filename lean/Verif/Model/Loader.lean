import Verif.Model.Simulator
import Verif.Model.CoreApi
import Verif.Model.Text

/-! # The loaders of `ramwich.py` (lines 58-190)

Reading of files is given by its outcome; log messages are not modelled. -/
namespace Ramwich

/-- `xs[i]` for a Python index, changed by `f`: IndexError out of range, an exception of `f` leaves
everything as it is (as at ramwich.py:55-56, node.py:27-29, tile.py:43-45). -/
def pyUpdate {α : Type} (xs : List α) (i : Int) (f : α → Except PyErr α) : Except PyErr (List α) :=
  let j := if i < 0 then i + xs.length else i
  if j < 0 then .error .indexError
  else match xs[j.toNat]? with
    | none => .error .indexError
    | some x =>
      match f x with
      | .error e => .error e
      | .ok y => .ok (xs.set j.toNat y)

/-- `simulator.get_node(node).get_tile(tile)`, changed by `f` (ramwich.py:55-56, node.py:27-29). -/
def Sim.updTile (s : Sim) (node tile : Int) (f : TileObj → Except PyErr TileObj) : Except PyErr Sim :=
  match pyUpdate s.nodes node fun n =>
      match pyUpdate n.tiles tile f with
      | .error e => .error e
      | .ok ts => .ok { n with tiles := ts } with
  | .error e => .error e
  | .ok ns => .ok { s with nodes := ns }

/-- `tile.get_core(core)` (tile.py:43-45), changed by `f`. -/
def TileObj.updCore (t : TileObj) (core : Int) (f : CoreObj → Except PyErr CoreObj) : Except PyErr TileObj :=
  match pyUpdate t.cores core f with
  | .error e => .error e
  | .ok cs => .ok { t with cores := cs }

/-! ## Operations -/

/-- Values of `json.load`. Objects are given by their keys and values, without repeated keys (Python keeps
the last value). `special`: NaN and the infinities (ramwich.py:66). -/
inductive Json
  | null
  | bool (b : Bool)
  | int (i : Int)
  | float (q : ℚ)
  | special
  | str (s : String)
  | arr (xs : List Json)
  | obj (kvs : List (String × Json))

/-- Conversions of pydantic in lax mode that are not modelled: text and floats to `int`, other values than
booleans to `bool` (the models of ops.py). -/
structure Lax where
  strInt : String → Option Int
  floatInt : ℚ → Option Int
  toBool : Json → Option Bool

/-- `d[key]` (as at ramwich.py:58-92) -/
def getField (kvs : List (String × Json)) (key : String) : Option Json :=
  (kvs.find? fun p => p.1 = key).map Prod.snd

/-- A value for a field of type `int` (the `int` fields of ops.py). -/
def Lax.int (lax : Lax) : Json → Option Int
  | .int i => some i
  | .bool b => some (if b then 1 else 0)
  | .float q => lax.floatInt q
  | .str s => lax.strInt s
  | _ => none

/-- A value for a field of type `bool` (the `bool` fields of ops.py). -/
def Lax.bool (lax : Lax) : Json → Option Bool
  | .bool b => some b
  | j => lax.toBool j

/-- A required field of type `int` (the `int` fields of ops.py). -/
def Lax.field (lax : Lax) (kvs : List (String × Json)) (key : String) : Option Int :=
  (getField kvs key).bind lax.int

/-- `node: int = 0` (ops.py:10). -/
def Lax.node (lax : Lax) (kvs : List (String × Json)) : Option Int :=
  match getField kvs "node" with
  | none => some 0
  | some j => lax.int j

/-- `Optional[int] = None` (ops.py:85-86). -/
def Lax.optional (lax : Lax) (kvs : List (String × Json)) (key : String) : Option (Option Int) :=
  match getField kvs key with
  | none => some none
  | some .null => some none
  | some j => (lax.int j).map some

/-- `list[int]` (ops.py:71). -/
def Lax.ints (lax : Lax) : Json → Option (List Int)
  | .arr xs => xs.mapM lax.int
  | _ => none

/-- `VFUOpType` (ops.py:77). -/
def VfuOp.ofString (s : String) : Option VfuOp :=
  (["and", "or", "not", "add", "sub", "mul", "div", "min", "max", "sig", "tanh", "relu"].zip
    [.and, .or, .not, .add, .sub, .mul, .div, .min, .max, .sig, .tanh, .relu]).lookup s

/-- A validated operation with its address (ramwich.py:58-92). -/
inductive Placed
  | core (node tile core : Int) (op : CoreOp)
  | tile (node tile : Int) (op : TileOp)
  deriving DecidableEq, Repr

/-- A core operation with its address (ops.py:17-19). -/
def Lax.coreOp (lax : Lax) (kvs : List (String × Json)) (op : Option CoreOp) : Option Placed := do
  let node ← lax.node kvs
  let tile ← lax.field kvs "tile"
  let core ← lax.field kvs "core"
  let op ← op
  return .core node tile core op

/-- A tile operation with its address (ops.py:22-23). -/
def Lax.tileOp (lax : Lax) (kvs : List (String × Json)) (op : Option TileOp) : Option Placed := do
  let node ← lax.node kvs
  let tile ← lax.field kvs "tile"
  let op ← op
  return .tile node tile op

/-- Validation by the class whose `type` is the given text (ops.py:26-126). Fields that the class does not
have are ignored. -/
def Lax.validate (lax : Lax) (kvs : List (String × Json)) : String → Option Placed
  | "load" => lax.coreOp kvs do
      return .load (← lax.field kvs "dest") (← lax.field kvs "read") (← lax.field kvs "width") (← lax.field kvs "vec")
  | "store" => lax.coreOp kvs do
      return .store (← lax.field kvs "dest") (← lax.field kvs "read") (← lax.field kvs "width") (← lax.field kvs "vec")
  | "set" => lax.coreOp kvs do
      let op := CoreOp.set (← lax.field kvs "dest") (← lax.field kvs "imm") (← lax.field kvs "vec")
      let _ ← (getField kvs "is_address").bind lax.bool
      return op
  | "copy" => lax.coreOp kvs do
      return .copy (← lax.field kvs "dest") (← lax.field kvs "read") (← lax.field kvs "vec")
  | "mvm" => lax.coreOp kvs do return .mvm (← (getField kvs "xbar").bind lax.ints)
  | "vfu" => lax.coreOp kvs do
      let opcode ← (getField kvs "opcode").bind fun
        | .str s => VfuOp.ofString s
        | _ => none
      let op := CoreOp.vfu opcode (← lax.field kvs "dest") (← lax.field kvs "read_1")
        (← lax.optional kvs "read_2") (← lax.field kvs "vec")
      let _ ← lax.optional kvs "imm"
      return op
  | "hlt" => lax.coreOp kvs (some .hlt)
  | "send" => lax.tileOp kvs do
      return .send (← lax.field kvs "mem_addr") (← lax.field kvs "target_tile") (← lax.field kvs "width")
        (← lax.field kvs "vec")
  | "receive" => lax.tileOp kvs do
      return .receive (← lax.field kvs "mem_addr") (← lax.field kvs "source_tile") (← lax.field kvs "width")
        (← lax.field kvs "vec")
  | "halt" => lax.tileOp kvs (some .halt)
  | _ => none

/-- The members of `OpType` (ops.py:132-134). -/
def opTypes : List String := ["load", "store", "set", "copy", "mvm", "vfu", "hlt", "send", "receive", "halt"]

/-- `Operation.model_validate({"op": op_data})` (ramwich.py:75, ops.py:137-140): the union is tried member by
member, and the `type` of a member admits one text only. An entry without `type` is valid for every class
whose other fields it has; which of them pydantic takes depends on its version, here a number `pick`. -/
def Lax.operation (lax : Lax) (pick : List (String × Json) → Nat) : Json → Option Placed
  | .obj kvs =>
    match getField kvs "type" with
    | some (.str s) => lax.validate kvs s
    | some _ => none
    | none => let valid := opTypes.filterMap (lax.validate kvs); valid[pick kvs % valid.length]?
  | _ => none

/-- Lines 78-89 of ramwich.py: the operation is appended to those of the unit. -/
def Sim.place (s : Sim) : Placed → Except PyErr Sim
  | .tile node tile op => s.updTile node tile fun t => .ok { t with operations := t.operations ++ [op] }
  | .core node tile core op => s.updTile node tile fun t =>
      t.updCore core fun c => .ok { c with operations := c.operations ++ [op] }

/-- The loop of lines 72-92 of ramwich.py. A ValidationError is a ValueError. -/
def Sim.placeAll (lax : Lax) (pick : List (String × Json) → Nat) : Sim → List Json → Res Sim Unit
  | s, [] => (.ok (), s)
  | s, j :: js =>
    match lax.operation pick j with
    | none => Sim.placeAll lax pick s js
    | some p =>
      match s.place p with
      | .ok s' => Sim.placeAll lax pick s' js
      | .error .valueError => Sim.placeAll lax pick s js
      | .error e => (.error e, s)

/-- What is found at the path of a JSON file (ramwich.py:58-67). -/
inductive JsonFile
  | missing
  | otherName
  | invalid
  | value (j : Json)

/-- `for x in data` (ramwich.py:72) on a value of `json.load`. -/
def Json.elements : Json → Except PyErr (List Json)
  | .arr xs => .ok xs
  | .obj kvs => .ok (kvs.map fun p => .str p.1)
  | .str s => .ok (s.toList.map fun c => .str (String.singleton c))
  | _ => .error .typeError

/-- `RAMwich.load_operations` (ramwich.py:58-92). `json.JSONDecodeError` is a ValueError, raised outside the
`try`. -/
def Sim.loadOperations (lax : Lax) (pick : List (String × Json) → Nat) (s : Sim) : JsonFile → Res Sim Unit
  | .missing => (.ok (), s)
  | .otherName => (.ok (), s)
  | .invalid => (.error .valueError, s)
  | .value j =>
    match j.elements with
    | .error e => (.error e, s)
    | .ok js => s.placeAll lax pick js

/-! ## Weights -/

/-- An array of an `npz` file: a matrix of finite numbers, or anything else, for which `load_weights` (or
reading the array) raises an exception (ramwich.py:102-126). -/
inductive NpzArray
  | matrix (rows : List (List ℚ))
  | other

/-- `mvmu.load_weights(weight_data[key])` in core `core` (ramwich.py:124-126). -/
def CoreObj.loadWeights (o : CoreObj) (mvmu : Nat) (w : NpzArray) : Except PyErr CoreObj :=
  match w with
  | .other => .error .valueError
  | .matrix rows =>
    match o.core.loadWeights mvmu rows with
    | (.error e, _) => .error e
    | (.ok _, c) => .ok { o with core := c }

/-- The four `int(match.group(i))` (ramwich.py:115-118). -/
def keyIds (g : List Nat × List Nat × List Nat × List Nat) : Except PyErr (Nat × Nat × Nat × Nat) := do
  let a ← pyIntOfDigits g.1
  let b ← pyIntOfDigits g.2.1
  let c ← pyIntOfDigits g.2.2.1
  let d ← pyIntOfDigits g.2.2.2
  return (a, b, c, d)

/-- The body of the `try` (ramwich.py:120-130): an exception is logged and nothing changes. -/
def Sim.loadUnit (s : Sim) (a b c d : Nat) (w : NpzArray) : Sim :=
  match s.updTile a b fun t => t.updCore c fun o => o.loadWeights d w with
  | .ok s' => s'
  | .error _ => s

/-- The loop of lines 107-130 of ramwich.py. -/
def Sim.loadAll (uni : Char → Option Nat) : Sim → List (String × NpzArray) → Res Sim Unit
  | s, [] => (.ok (), s)
  | s, (key, w) :: ws =>
    match matchKey uni key with
    | none => Sim.loadAll uni s ws
    | some g =>
      match keyIds g with
      | .error e => (.error e, s)
      | .ok (a, b, c, d) => Sim.loadAll uni (s.loadUnit a b c d w) ws

/-- What is found at the path of an `npz` file (ramwich.py:96-104, 151). -/
inductive NpzFile
  | missing
  | otherName
  | arrays (ws : List (String × NpzArray))

/-- `RAMwich.load_weights` (ramwich.py:94-133). -/
def Sim.loadWeights (uni : Char → Option Nat) (s : Sim) : NpzFile → Res Sim Unit
  | .missing => (.ok (), s)
  | .otherName => (.ok (), s)
  | .arrays ws => s.loadAll uni ws

/-! ## Activations -/

/-- `.astype(np.int32)` of a float: truncation; what numpy gives out of range is unknown (ramwich.py:173). -/
def castI32 (oob : ℚ → I32) (q : ℚ) : I32 :=
  if -2 ^ 31 ≤ truncToInt q ∧ truncToInt q < 2 ^ 31 then BitVec.ofInt 32 (truncToInt q) else oob q

/-- `xs[:len(ys)] = ys` on a numpy array (ramwich.py:178-179). -/
def assignPrefix {α : Type} (xs ys : List α) : Except PyErr (List α) :=
  if ys.length ≤ xs.length then .ok (ys ++ xs.drop ys.length) else .error .valueError

/-- The argument of `load_activation`: arrays are one-dimensional here, except in files
(ramwich.py:135-151). -/
inductive Activation
  | missingFile
  | otherName
  | file (ndim : Nat) (xs : List ℚ)
  | array (xs : List ℚ)
  | otherType

/-- Lines 178-179 of ramwich.py; the cells are written directly, no access is counted. -/
def TileObj.loadActivation (t : TileObj) (xs : List I32) : Except PyErr TileObj :=
  match assignPrefix t.ctrl.mem.cells xs with
  | .error e => .error e
  | .ok cells =>
    match assignPrefix t.ctrl.valid (List.replicate xs.length true) with
    | .error e => .error e
    | .ok valid => .ok { t with ctrl := { t.ctrl with mem := { t.ctrl.mem with cells := cells }, valid := valid } }

/-- Lines 166-179 of ramwich.py. -/
def Sim.loadArray (oob : ℚ → I32) (s : Sim) (xs : List ℚ) : Res Sim Unit :=
  if s.config.tileConfig.edramSize < xs.length then (.ok (), s)
  else
    match s.updTile 0 0 fun t =>
        t.loadActivation (xs.map fun x => castI32 oob (x * 2 ^ s.config.dataConfig.activationFracBits)) with
    | .error e => (.error e, s)
    | .ok s' => (.ok (), s')

/-- `RAMwich.load_activation` (ramwich.py:135-179). -/
def Sim.loadActivation (oob : ℚ → I32) (s : Sim) : Activation → Res Sim Unit
  | .missingFile => (.ok (), s)
  | .otherName => (.ok (), s)
  | .otherType => (.ok (), s)
  | .file ndim xs => if ndim ≠ 1 then (.ok (), s) else s.loadArray oob xs
  | .array xs => s.loadArray oob xs

/-- The beginning of `RAMwich.run` (ramwich.py:181-190). -/
def Sim.prepare (oob : ℚ → I32) (s : Sim) : Option Activation → Res Sim Unit
  | some a => s.loadActivation oob a
  | none => s.loadActivation oob (.array (List.replicate s.config.tileConfig.edramSize 0))

end Ramwich
