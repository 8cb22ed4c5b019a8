import Verif.Model.Workers

/-! # tests/test_mlp_on_mnist_single.py -/
namespace Ramwich

/-- What `main` prints of the words `cells[:10]` (tests/test_mlp_on_mnist_single.py:21-24): the outputs and the label. The
quotients are exact in float64, since the words have 32 bits; line 26 prints the constant 7 and compares nothing. -/
def singlePrints (words : List Int) : Except PyErr (List ℚ × Nat) :=
  match classOf words with
  | .error e => .error e
  | .ok m => .ok (words.map fun (v : Int) => (v : ℚ) / 256, m)

end Ramwich
