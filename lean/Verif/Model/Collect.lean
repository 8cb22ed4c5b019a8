import Verif.Model.Workers

/-! # tests/test_mlp_on_mnist_multi.py: what workers log, and how their results are collected -/
namespace Ramwich

/-- The progress that `process_batch` logs (tests/test_mlp_on_mnist_multi.py:37-56): `i` samples are done with the results
`done`, the results of the others are the last argument. A line is the number of samples done and the share of right ones
(without the rounding of the quotient). -/
def progressFrom (total i : Nat) (done : List Bool) : List Bool → List (Nat × ℚ)
  | [] => []
  | r :: rs =>
    let done := done ++ [r]
    let line : List (Nat × ℚ) := [(i + 1, (done.count true : ℚ) / (i + 1 : Nat))]
    (if (i + 1) % 10 = 0 ∨ i = 0 ∨ (i : Int) = (total : Int) - 1 then line else []) ++ progressFrom total (i + 1) done rs

/-- All lines of a worker (tests/test_mlp_on_mnist_multi.py:36-56). -/
def progressLines (results : List Bool) : List (Nat × ℚ) := progressFrom results.length 0 [] results

/-- What `main` logs about a worker (tests/test_mlp_on_mnist_multi.py:108, 110). -/
inductive Note
  | completed (worker : Nat) (accuracy : ℚ)
  | failed (worker : Nat) (e : PyErr)
  deriving DecidableEq

/-- One round of the loop of `main` (tests/test_mlp_on_mnist_multi.py:103-110): the results that are added and the line that
is logged. `future.result()` raises what the worker has raised; the quotient of line 108 raises without results. -/
def collectOne : Nat × Except PyErr (List Bool) → List Bool × Note
  | (w, .error e) => ([], .failed w e)
  | (w, .ok rs) =>
    match finalAccuracy rs with
    | .ok a => (rs, .completed w a)
    | .error e => (rs, .failed w e)

/-- The loop of `main` over the futures in the order in which they end (tests/test_mlp_on_mnist_multi.py:96-110):
`all_results` and the lines. -/
def collect : List (Nat × Except PyErr (List Bool)) → List Bool × List Note
  | [] => ([], [])
  | f :: fs =>
    let one := collectOne f
    let rest := collect fs
    (one.1 ++ rest.1, one.2 :: rest.2)

end Ramwich
