import Mathlib.Data.Rat.Floor

/-!
# Python / numpy vocabulary used by the model

Nothing here is specific to RAMwich: exception values, the integer types of numpy, Python slices.
-/
namespace Ramwich

/-- The Python exception classes that the modelled code can raise
(raised in config.py, ramwich.py, core.py, mvmu.py and blocks/). -/
inductive PyErr
  | indexError
  | valueError
  | runtimeError
  | zeroDivisionError
  | assertionError
  | keyError
  | attributeError
  | typeError
  | overflowError
  deriving DecidableEq, Repr

/-- `np.int32`: 32-bit two's complement with wrap-around
(registers and cells: inreg.py:21, outreg.py:20, memory.py:87). -/
abbrev I32 := BitVec 32

/-- `np.int64`: 64-bit two's complement with wrap-around (sna.py:77). -/
abbrev I64 := BitVec 64

/-- Result of a Python call on an object: the returned value or the raised exception, together with
the state of the object afterwards (Python keeps mutations made before a `raise`)
(methods of mvmu.py, core.py and blocks/). -/
abbrev Res (σ α : Type) := Except PyErr α × σ

/-- Python's `round` on floats and `np.round`: nearest integer, ties to even
(data_convert.py:11, adc.py:96-97). -/
def roundHalfEven (q : ℚ) : Int :=
  let f := ⌊q⌋
  if q - f < 1 / 2 then f
  else if 1 / 2 < q - f then f + 1
  else if f % 2 = 0 then f
  else f + 1

/-- `float.astype(np.int32)` / `int(x)` on a float in range: truncation toward zero
(vfu.py:176, 185, ramwich.py:173). -/
def truncToInt (q : ℚ) : Int := if 0 ≤ q then ⌊q⌋ else ⌈q⌉

/-- `np.sign` of a float (mvmu.py:82). -/
def npSign (q : ℚ) : Int := if 0 < q then 1 else if q < 0 then -1 else 0

/-- `np.clip(x, lo, hi)` = `minimum(hi, maximum(x, lo))` (dac.py:63, adc.py:109, vfu.py:137). -/
def npClip {α : Type} [Min α] [Max α] (x lo hi : α) : α := min hi (max x lo)

/-- `np.arange(start, stop, step)` for non-negative arguments and positive step (mvmu.py:194, 216). -/
def npArange (start stop step : Nat) : List Nat :=
  (List.range ((stop - start + step - 1) / step)).map fun i => start + step * i

/-- A Python slice bound `i` of a sequence of length `n` as an offset: negative indices count from
the end, everything is clamped into `[0, n]` (slices as in memory.py:92-136 and inreg.py:26-63). -/
def pySliceBound (n : Nat) (i : Int) : Nat :=
  if i < 0 then (i + n).toNat else min i.toNat n

/-- Python's `xs[start:stop]` (slices as in memory.py:92-136 and inreg.py:26-63). -/
def pySlice {α : Type} (xs : List α) (start stop : Int) : List α :=
  let lo := pySliceBound xs.length start
  let hi := pySliceBound xs.length stop
  (xs.drop lo).take (hi - lo)

/-- Python's `xs[start:stop] = ys` on a numpy array when the slice has `ys.length` elements
(the only case in which the modelled code reaches such an assignment)
(slices as in memory.py:92-136 and inreg.py:26-63). -/
def pySliceSet {α : Type} (xs : List α) (start : Nat) (ys : List α) : List α :=
  xs.take start ++ ys ++ xs.drop (start + ys.length)

/-- Python list indexing `xs[i]`, negative indices count from the end
(as at ramwich.py:55-56, node.py:27-29, tile.py:43-45). -/
def pyIndex {α : Type} (xs : List α) (i : Int) : Except PyErr α :=
  let j := if i < 0 then i + xs.length else i
  if j < 0 then .error .indexError
  else match xs[j.toNat]? with
    | some x => .ok x
    | none => .error .indexError

/-- `np.vectorize(f)(matrix)`: apply elementwise, the first exception propagates (mvmu.py:88, 100, 106). -/
def vectorize {α β : Type} (f : α → Except PyErr β) (m : List (List α)) : Except PyErr (List (List β)) :=
  m.mapM fun row => row.mapM f

/-- Elementwise product/sum of two equally shaped vectors followed by a sum: `einsum('j,j->', ...)`
(rram_xbar.py:91-95, sram_cim_unit.py:91-92). -/
def dot {α : Type} [Mul α] [Add α] [Zero α] (xs ys : List α) : α :=
  (List.zipWith (· * ·) xs ys).sum

/-- `np.einsum("ikj,j->ik", mats, v)` (rram_xbar.py:91-95, sram_cim_unit.py:91-92). -/
def einsum {α : Type} [Mul α] [Add α] [Zero α] (mats : List (List (List α))) (v : List α) :
    List (List α) :=
  mats.map fun mat => mat.map fun row => dot row v

/-- The array has numpy shape `(a, b)` (mvmu.py:78, adc.py:89). -/
def shape2 {α : Type} (m : List (List α)) (a b : Nat) : Bool :=
  m.length == a && m.all (fun row => row.length == b)

/-- The array has numpy shape `(a, b, c)` (rram_xbar.py:56, sram_cim_unit.py:62). -/
def shape3 {α : Type} (m : List (List (List α))) (a b c : Nat) : Bool :=
  m.length == a && m.all (fun mat => shape2 mat b c)

/-- `np.zeros((a, b, c))` (mvmu.py:91-92, rram_xbar.py:46-47). -/
def zeros3 {α : Type} [Zero α] (a b c : Nat) : List (List (List α)) :=
  List.replicate a (List.replicate b (List.replicate c 0))

end Ramwich
