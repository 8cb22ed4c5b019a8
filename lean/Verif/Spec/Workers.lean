import Verif.Model.Workers
import Verif.Spec.Simulation
import Verif.Spec.Perceptron

/-! # tests/test_mlp_on_mnist_multi.py as a whole -/
namespace Ramwich.Spec

/-- `m` is the first position of the largest of the words. -/
def isClass (words : List Int) (m : Nat) : Prop :=
  m < words.length ∧ ∀ j < words.length, words.getD j 0 ≤ words.getD m 0 ∧ (j < m → words.getD j 0 < words.getD m 0)

/-- `cells[:10]` of the DRAM of tile 1 of node 0 (tests/test_mlp_on_mnist_multi.py:45). -/
def outputWords (s : Sim) (out : List Int) : Prop := ∃ x, tileAt s 0 1 = some x ∧ out = wordsAt (wordsOf x.ctrl.mem) 0 10

/-- `process_batch` (tests/test_mlp_on_mnist_multi.py:14-58): a worker with the simulator `s0` has processed the samples `ids`
one after the other and its `results` are `rs`. `noise i` is the noise of the run for sample `i`; the order of events in
the runs is arbitrary. -/
inductive worker (l : Libs) (fl : FloatActs) (s0 : Sim) (image : Nat → List ℚ) (label : Nat → Nat) (noise : Nat → Noises) :
    List Nat → List Bool → List Completed → Sim → Prop
  | idle : worker l fl s0 image label noise [] [] [] s0
  | first {i w s' out m} (h : returns l s0 (.array (image i)) fl (noise i) w s') (ho : outputWords s' out)
      (hm : classOf out = .ok m) :
      worker l fl s0 image label noise [i] [decide (m = label i)] [(.array (image i), noise i, w)] s'
  | next {ids rs hist i s₁ s₂ w s' out m} (h : worker l fl s0 image label noise ids rs hist s₁) (hne : hist ≠ [])
      (hr : s₁.reset = (.ok (), s₂)) (h' : returns l s₂ (.array (image i)) fl (noise i) w s') (ho : outputWords s' out)
      (hm : classOf out = .ok m) :
      worker l fl s0 image label noise (ids ++ [i]) (rs ++ [decide (m = label i)])
        (hist ++ [(.array (image i), noise i, w)]) s'

/-- `main` (tests/test_mlp_on_mnist_multi.py:61-115): the samples `0, …, n - 1` are shared out, every worker processes its
samples with a simulator of its own, and the results are collected in the order in which the workers end, which is
arbitrary; `all` is `all_results`. -/
structure evaluated (l : Libs) (fl : FloatActs) (s0 : Sim) (image : Nat → List ℚ) (label : Nat → Nat) (noise : Nat → Noises)
    (n workers : Nat) (all : List Bool) : Prop where
  shares : ∃ batches results order, shareSamples n workers = .ok batches ∧
    List.Forall₂ (fun ids rs => ∃ hist s, worker l fl s0 image label noise ids rs hist s) batches results ∧
    List.Perm order results ∧ all = order.flatten

end Ramwich.Spec
