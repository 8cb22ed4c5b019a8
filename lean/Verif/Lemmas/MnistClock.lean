import Verif.Spec.MnistClock

/-! # The schedule of `Spec/MnistClock.lean`, part by part -/
namespace Ramwich

open Spec

-- one part after the other: every part needs some gigabytes
set_option Elab.async false

theorem mnist_par : clockPar mnistBuilt = mnistPar := by
  unfold clockPar mnistPar
  congr 1
  all_goals first | decide +kernel | skip
  funext op
  cases op
  case vfu o d r1 r2 v =>
    have h1 : mnistBuilt.coreConfig.numAluPerVfu = 12 := by decide +kernel
    have h2 : mnistBuilt.coreConfig.aluLat = 1 := by decide +kernel
    simp only [Config.executionLatency, h1, h2]
    rw [if_neg (by decide)]
    show ((1 * (v + 12 - 1)) / 12).toNat = _
    rw [one_mul, show v + 12 - 1 = v + 11 by omega]
  all_goals rfl

set_option maxRecDepth 100000 in
theorem mnist_part1 : mnistAt0.bind (fun s => s.follow mnistPar mnistPart1.1 mnistPart1.2) = some mnistAt1 := by
  decide +kernel

set_option maxRecDepth 100000 in
theorem mnist_part2 : mnistAt1.follow mnistPar mnistPart2.1 mnistPart2.2 = some mnistAt2 := by decide +kernel

set_option maxRecDepth 100000 in
theorem mnist_part3 : mnistAt2.follow mnistPar mnistPart3.1 mnistPart3.2 = some mnistAt3 := by decide +kernel

set_option maxRecDepth 100000 in
theorem mnist_part4 : mnistAt3.follow mnistPar mnistPart4.1 mnistPart4.2 = some mnistAt4 := by decide +kernel

set_option maxRecDepth 100000 in
theorem mnist_part5 : mnistAt4.follow mnistPar mnistPart5.1 mnistPart5.2 = some mnistAt5 := by decide +kernel

set_option maxRecDepth 100000 in
theorem mnist_part6 : mnistAt5.follow mnistPar mnistPart6.1 mnistPart6.2 = some mnistAt6 := by decide +kernel

set_option maxRecDepth 100000 in
theorem mnist_part7 : mnistAt6.follow mnistPar mnistPart7.1 mnistPart7.2 = some mnistAt7 := by decide +kernel

set_option maxRecDepth 100000 in
theorem mnist_part8 : mnistAt7.follow mnistPar mnistPart8.1 mnistPart8.2 = some mnistAt8 := by decide +kernel

set_option maxRecDepth 100000 in
theorem mnist_part9 : mnistAt8.follow mnistPar mnistPart9.1 mnistPart9.2 = some mnistAt9 := by decide +kernel

set_option maxRecDepth 100000 in
theorem mnist_part10 : mnistAt9.follow mnistPar mnistPart10.1 mnistPart10.2 = some mnistAt10 := by decide +kernel

end Ramwich
