import Verif.Model.Py

/-! # `src/ramwich/utils/data_convert.py` -/
namespace Ramwich

/-- `int_to_conductance` (data_convert.py:1-4). Floats are exact rationals. `2**bits - 1 = 0` for
`bits = 0` makes Python raise ZeroDivisionError. -/
def intToConductance (intData bits : Nat) (gmin gmax : ℚ) : Except PyErr ℚ :=
  if ¬ intData < 2 ^ bits then .error .assertionError
  else if bits = 0 then .error .zeroDivisionError
  else
    let step := (gmax - gmin) / (2 ^ bits - 1)
    .ok (gmin + intData * step)

/-- `float_to_fixed` (data_convert.py:7-12). The assertion on a negative `fractional_bits` cannot
fire because formats are parsed from digits (config.py:39-53), hence `Nat`. -/
def floatToFixed (floatVal : ℚ) (fractionalBits : Nat) : Int :=
  roundHalfEven (floatVal * 2 ^ fractionalBits)

/-- `fixed_to_float` (data_convert.py:15-19). -/
def fixedToFloat (fixedVal : Int) (fractionalBits : Nat) : ℚ :=
  fixedVal / 2 ^ fractionalBits

/-- `extract_bits` (data_convert.py:22-29). The value is a non-negative integer at every call site
(mvmu.py:84-102 passes rounded absolute values), hence `Nat`. -/
def extractBits (val startIndex endIndex : Nat) : Except PyErr Nat :=
  if ¬ startIndex < endIndex then .error .assertionError
  else
    let mask := (1 <<< (endIndex - startIndex)) - 1
    .ok ((val >>> startIndex) &&& mask)

end Ramwich
