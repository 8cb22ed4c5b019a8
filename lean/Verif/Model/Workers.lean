import Verif.Model.Py

/-! # tests/test_mlp_on_mnist_multi.py: how the samples are shared out -/
namespace Ramwich

/-- The loop that gives worker `i` the next `per` samples, and one more if `i < rem`
(tests/test_mlp_on_mnist_multi.py:87-93). `left` workers are still without samples. -/
def shareFrom (samples : List Nat) (per rem : Nat) (i start : Nat) : Nat → List (List Nat)
  | 0 => []
  | left + 1 =>
    let size := per + if i < rem then 1 else 0
    (samples.drop start).take size :: shareFrom samples per rem (i + 1) (start + size) left

/-- `sample_indices[start_idx:end_idx]` for all workers (tests/test_mlp_on_mnist_multi.py:83-93). -/
def shareSamples (batches workers : Nat) : Except PyErr (List (List Nat)) :=
  if workers = 0 then .error .zeroDivisionError
  else .ok (shareFrom (List.range batches) (batches / workers) (batches % workers) 0 0 workers)

/-- `np.argmax`: the first position of the largest value; `best` at position `at'` is the largest so far
(tests/test_mlp_on_mnist_multi.py:47). -/
def argmaxFrom (best : ℚ) (at' i : Nat) : List ℚ → Nat
  | [] => at'
  | x :: xs => if best < x then argmaxFrom x i (i + 1) xs else argmaxFrom best at' (i + 1) xs

/-- `np.argmax` (tests/test_mlp_on_mnist_multi.py:47); it raises for an empty array. -/
def argmaxOf : List ℚ → Except PyErr Nat
  | [] => .error .valueError
  | x :: xs => .ok (argmaxFrom x 0 1 xs)

/-- `output.astype(np.float64) / (1 << 8)` and its `argmax` (tests/test_mlp_on_mnist_multi.py:46-47). The quotients are
exact in float64, since the words have 32 bits. -/
def classOf (words : List Int) : Except PyErr Nat := argmaxOf (words.map fun (v : Int) => (v : ℚ) / 256)

/-- `correct_count / len(all_results)` (tests/test_mlp_on_mnist_multi.py:114-115), without the rounding of the quotient. -/
def finalAccuracy (results : List Bool) : Except PyErr ℚ :=
  if results.length = 0 then .error .zeroDivisionError else .ok ((results.count true : ℚ) / results.length)

end Ramwich
