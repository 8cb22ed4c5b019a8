import Verif.Model.Text

/-! # What the two text formats are

Stated by concatenation of pieces of text, without a scanner. -/
namespace Ramwich.Spec

/-- `ds` is a non-empty string of digits denoting `n`. -/
def isNumeral (uni : Char → Option Nat) (ds : List Char) (n : Nat) : Prop :=
  ds ≠ [] ∧ ∃ vs : List Nat, ds.map (digitVal uni) = vs.map some ∧ n = vs.foldl (fun a d => 10 * a + d) 0

/-- The text does not go on with a digit. -/
def noDigitNext (uni : Char → Option Nat) (rest : List Char) : Prop :=
  ∀ c ∈ rest.head?, digitVal uni c = none

/-- `s` starts with `Q<i>.<f>`, where `<f>` is as long as possible. -/
def startsWithFormat (uni : Char → Option Nat) (s : String) (i f : Nat) (li lf : Nat) : Prop :=
  ∃ ds es rest, s.toList = 'Q' :: (ds ++ '.' :: (es ++ rest)) ∧
    isNumeral uni ds i ∧ isNumeral uni es f ∧ noDigitNext uni rest ∧ ds.length = li ∧ es.length = lf

/-- `s` is `node<a>_tile<b>_core<c>_mvmu<d>`, possibly followed by a newline; `l` is the length of the
longest of the four numerals. -/
def isWeightKey (uni : Char → Option Nat) (s : String) (a b c d : Nat) (l : Nat) : Prop :=
  ∃ da db dc dd tail, s.toList = "node".toList ++ da ++ "_tile".toList ++ db ++ "_core".toList ++ dc
      ++ "_mvmu".toList ++ dd ++ tail ∧ (tail = [] ∨ tail = ['\n']) ∧
    isNumeral uni da a ∧ isNumeral uni db b ∧ isNumeral uni dc c ∧ isNumeral uni dd d ∧
    l = max (max da.length db.length) (max dc.length dd.length)

end Ramwich.Spec
