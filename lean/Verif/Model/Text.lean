import Verif.Model.Config

/-! # Text that the simulator parses: fixed-point formats (config.py) and weight keys (ramwich.py)

`re.match` on the two patterns is modelled by a left-to-right scan. Both patterns consist of literals
and groups `(\d+)`, and what follows a group is not a digit, so the longest run of digits is the only
candidate for a group (no backtracking can succeed). -/
namespace Ramwich

/-- A character that `\d` matches, with its value for `int`. Python's `\d` matches every Unicode decimal
digit; the digits outside ASCII are an unknown table `uni` (config.py:38, ramwich.py:105). -/
def digitVal (uni : Char → Option Nat) (c : Char) : Option Nat :=
  if c.isDigit then some (c.toNat - 48)
  else if c.toNat < 128 then none
  else uni c

/-- A group `(\d+)` (config.py:38, ramwich.py:105), greedy: the digit values and the rest. The empty
run is excluded by the callers. -/
def scanDigits (uni : Char → Option Nat) : List Char → List Nat × List Char
  | [] => ([], [])
  | c :: cs =>
    match digitVal uni c with
    | none => ([], c :: cs)
    | some v => let r := scanDigits uni cs; (v :: r.1, r.2)

/-- A literal of a pattern (config.py:38, ramwich.py:105). -/
def scanLit : List Char → List Char → Option (List Char)
  | [], cs => some cs
  | _ :: _, [] => none
  | l :: ls, c :: cs => if l = c then scanLit ls cs else none

/-- A literal followed by `(\d+)` (config.py:38, ramwich.py:105). -/
def scanField (uni : Char → Option Nat) (lit : List Char) (cs : List Char) :
    Option (List Nat × List Char) :=
  match scanLit lit cs with
  | none => none
  | some r =>
    match scanDigits uni r with
    | ([], _) => none
    | (d :: ds, rest) => some (d :: ds, rest)

/-- The length of a digit string that `int` accepts (CPython's default limit)
(for config.py:43-52, ramwich.py:115-118). -/
def maxIntDigits : Nat := 4300

/-- `int(match.group(i))` (config.py:43-44, 51-52, ramwich.py:115-118). -/
def pyIntOfDigits (ds : List Nat) : Except PyErr Nat :=
  if maxIntDigits < ds.length then .error .valueError
  else .ok (ds.foldl (fun a d => 10 * a + d) 0)

/-- `re.match(r"Q(\d+)\.(\d+)", s)` and the conversion of the groups (config.py:38-55): anything may
follow the match. -/
def parseFormat (uni : Char → Option Nat) (s : String) : Except PyErr (Nat × Nat) :=
  match scanField uni ['Q'] s.toList with
  | none => .error .valueError
  | some (a, r) =>
    match scanField uni ['.'] r with
    | none => .error .valueError
    | some (b, _) => do
      let i ← pyIntOfDigits a
      let f ← pyIntOfDigits b
      .ok (i, f)

/-- `$` at the end of a pattern: the end of the text, or a final newline (ramwich.py:105). -/
def atEnd (cs : List Char) : Bool := decide (cs = [] ∨ cs = ['\n'])

/-- `re.match(r"^node(\d+)_tile(\d+)_core(\d+)_mvmu(\d+)$", key)` (ramwich.py:105-109): the groups. -/
def matchKey (uni : Char → Option Nat) (s : String) :
    Option (List Nat × List Nat × List Nat × List Nat) :=
  match scanField uni ['n', 'o', 'd', 'e'] s.toList with
  | none => none
  | some (a, r) =>
    match scanField uni ['_', 't', 'i', 'l', 'e'] r with
    | none => none
    | some (b, r) =>
      match scanField uni ['_', 'c', 'o', 'r', 'e'] r with
      | none => none
      | some (c, r) =>
        match scanField uni ['_', 'm', 'v', 'm', 'u'] r with
        | none => none
        | some (d, r) => if atEnd r then some (a, b, c, d) else none

/-- `BitConfig(value)` (config.py:9-14). -/
def BitConfig.ofString (s : String) : Except PyErr BitConfig :=
  if s = "1" then .ok .slc
  else if s = "2" then .ok .mlc
  else if s = "3" then .ok .tlc
  else if s = "4" then .ok .qlc
  else if s = "s" then .ok .sram
  else .error .valueError

/-- `DataConfig` as written by the user (config.py:17-33). -/
structure DataText where
  storageConfig : List String := ["2", "2", "2", "2"]
  weightFormat : String := "Q1.7"
  activationFormat : String := "Q4.4"
  deriving DecidableEq, Repr

/-- `DataConfig(...)`: field validation, then `calculate_derived_values` (config.py:17-57). -/
def DataText.parse (uni : Char → Option Nat) (t : DataText) : Except PyErr DataConfig := do
  let st ← t.storageConfig.mapM BitConfig.ofString
  let w ← parseFormat uni t.weightFormat
  let a ← parseFormat uni t.activationFormat
  .ok { storageConfig := st, weightIntBits := w.1, weightFracBits := w.2,
        activationIntBits := a.1, activationFracBits := a.2 }

end Ramwich
