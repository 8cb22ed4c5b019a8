import Verif.Model.Py
import Verif.Model.Config
import Mathlib.Algebra.BigOperators.Group.Finset.Basic
import Mathlib.Algebra.BigOperators.Ring.Finset

/-! # Specification of the matrix-vector unit

Ordinary arithmetic on integers and rationals; nothing here mentions crossbar arrays, converters or
registers. Matrices are functions of row and column. -/
namespace Ramwich.Spec

/-- Number of weight bits a storage element holds: "1".."4" or "s". -/
def cellBits : BitConfig → Nat
  | .slc => 1
  | .mlc => 2
  | .tlc => 3
  | .qlc => 4
  | .sram => 1

/-- Position of the least significant bit held by crossbar `k` of a storage configuration. -/
def slicePos (st : List BitConfig) (k : Nat) : Nat := ((st.take k).map cellBits).sum

/-- Bits held by crossbar `k`. -/
def bitsOf (st : List BitConfig) (k : Nat) : Nat := cellBits (st.getD k .sram)

/-- Crossbar `k` is analog (RRAM). -/
def isRram (st : List BitConfig) (k : Nat) : Bool := decide (st.getD k .sram ≠ .sram)

/-- Position of crossbar `k` among the analog ones. -/
def rramRank (st : List BitConfig) (k : Nat) : Nat := ((List.range k).filter (isRram st)).length

/-- Sign of a real weight. -/
def sgn (w : ℚ) : Int := if 0 < w then 1 else if w < 0 then -1 else 0

/-- Magnitude of a weight as an integer number of `2^-frac` steps (nearest, ties to even). -/
def magnitude (frac : Nat) (w : ℚ) : Nat := (roundHalfEven (|w| * 2 ^ frac)).toNat

/-- The fixed-point integer of a weight. -/
def fixedWeight (frac : Nat) (w : ℚ) : Int := sgn w * magnitude frac w

/-- The fixed-point integer that `width` bits of magnitude can hold of a weight. -/
def heldWeight (frac width : Nat) (w : ℚ) : Int :=
  sgn w * ((magnitude frac w % 2 ^ width : Nat) : Int)

/-- The part of a weight magnitude that crossbar `k` has to hold. -/
def level (st : List BitConfig) (frac : Nat) (w : ℚ) (k : Nat) : Nat :=
  magnitude frac w / 2 ^ slicePos st k % 2 ^ bitsOf st k

/-- Slice number `i` of an input, `res` bits per slice (two's complement for negative inputs). -/
def inputSlice (res i : Nat) (x : Int) : Int := x / 2 ^ (res * i) % 2 ^ res

/-- Number of input slices. -/
def numSlices (aw res : Nat) : Nat := (aw + res - 1) / res

/-- Saturation of a converter with `n` bits of magnitude. -/
def saturate (n : Nat) (v : Int) : Int := min (2 ^ n - 1) (max v (-(2 ^ n - 1)))

/-- Integer dot product of row `r` of the weight part held by crossbar `k` with input slice `i`. -/
def partialSum (st : List BitConfig) (frac size res : Nat) (W : Nat → Nat → ℚ) (x : Nat → Int)
    (k i r : Nat) : Int :=
  ∑ j ∈ Finset.range size,
    sgn (W r j) * level st frac (W r j) k * inputSlice res i (x j)

/-- What the unit computes for output `r`: every partial sum is converted (saturated for analog
crossbars), weighted with the bit position of its crossbar and with `2^i` for slice `i`. -/
def mvmValue (st : List BitConfig) (frac size res aw adcBits : Nat) (W : Nat → Nat → ℚ)
    (x : Nat → Int) (r : Nat) : Int :=
  ∑ i ∈ Finset.range (numSlices aw res), 2 ^ i *
    ∑ k ∈ Finset.range st.length, 2 ^ slicePos st k *
      (let p := partialSum st frac size res W x k i r
       if isRram st k then saturate adcBits p else p)

/-- The mathematical matrix-vector product on fixed-point integers. -/
def matVec (frac size : Nat) (W : Nat → Nat → ℚ) (x : Nat → Int) (r : Nat) : Int :=
  ∑ j ∈ Finset.range size, fixedWeight frac (W r j) * x j

/-! ## Analog non-idealities -/

/-- Electrical parameters of the analog crossbars. -/
structure Analog where
  gmin : ℚ
  gmax : ℚ
  /-- additive conductance error of the positive and negative cell at (slice, analog crossbar
  number, row, column) -/
  errPos : Nat → Nat → Nat → Nat → ℚ
  errNeg : Nat → Nat → Nat → Nat → ℚ

/-- Conductance difference that represents one unit in a `b`-bit cell. -/
def Analog.unit (a : Analog) (b : Nat) : ℚ := (a.gmax - a.gmin) / (2 ^ b - 1)

/-- Charge collected on the positive line of row `r` of crossbar `k` during slice `i`, in units of
one converter step: every positive weight contributes its level plus the offset `gmin`, every cell
contributes its error. -/
def Analog.posSum (a : Analog) (st : List BitConfig) (frac size res : Nat) (W : Nat → Nat → ℚ)
    (x : Nat → Int) (k i r : Nat) : ℚ :=
  ∑ j ∈ Finset.range size,
    ((if 0 < W r j then a.gmin / a.unit (bitsOf st k) + level st frac (W r j) k else 0)
      + a.errPos i (rramRank st k) r j / a.unit (bitsOf st k)) * inputSlice res i (x j)

/-- Same for the negative line. -/
def Analog.negSum (a : Analog) (st : List BitConfig) (frac size res : Nat) (W : Nat → Nat → ℚ)
    (x : Nat → Int) (k i r : Nat) : ℚ :=
  ∑ j ∈ Finset.range size,
    ((if W r j < 0 then a.gmin / a.unit (bitsOf st k) + level st frac (W r j) k else 0)
      + a.errNeg i (rramRank st k) r j / a.unit (bitsOf st k)) * inputSlice res i (x j)

/-- The converted value of crossbar `k`, slice `i`, row `r`: both lines are rounded separately. -/
def Analog.column (a : Analog) (st : List BitConfig) (frac size res adcBits : Nat)
    (W : Nat → Nat → ℚ) (x : Nat → Int) (k i r : Nat) : Int :=
  saturate adcBits (roundHalfEven (a.posSum st frac size res W x k i r) -
    roundHalfEven (a.negSum st frac size res W x k i r))

/-- The result of the unit for output `r` with analog non-idealities. -/
def Analog.mvmValue (a : Analog) (st : List BitConfig) (frac size res aw adcBits : Nat)
    (W : Nat → Nat → ℚ) (x : Nat → Int) (r : Nat) : Int :=
  ∑ i ∈ Finset.range (numSlices aw res), 2 ^ i *
    ∑ k ∈ Finset.range st.length, 2 ^ slicePos st k *
      (if isRram st k then a.column st frac size res adcBits W x k i r
       else partialSum st frac size res W x k i r)

/-- Total disturbance of one line, in converter steps. -/
def disturbance (err : Nat → Nat → Nat → Nat → ℚ) (unit : ℚ) (rank size res : Nat)
    (x : Nat → Int) (i r : Nat) : ℚ :=
  ∑ j ∈ Finset.range size, err i rank r j / unit * inputSlice res i (x j)

end Ramwich.Spec
