import Verif.Spec.Mnist
import Verif.Spec.FileNode

/-! # tests/test_load.py

The test loads the operations and the weights of the example and asserts what the first operation of tile 0 is and what
one cell of one crossbar holds. -/
namespace Ramwich.Spec

/-- The conductance that stands for the part of `w` that belongs to crossbar `k`. -/
def cellConductance (c : Config) (k : Nat) (w : ℚ) : ℚ :=
  c.mvmuConfig.conductanceMin + level c.dataConfig.storageConfig c.dataConfig.weightFracBits w k *
    ((c.mvmuConfig.conductanceMax - c.mvmuConfig.conductanceMin) / (2 ^ bitsOf c.dataConfig.storageConfig k - 1))

/-- Entry of a three-dimensional array. -/
def cellAt {α : Type} [Zero α] (a : List (List (List α))) (k r j : Nat) : α := ((a.getD k []).getD r []).getD j 0

/-- Every cell of the unit `m` holds what belongs to the weights `W`: an analog cell the conductance of its part of the
weight, in the crossbar for the sign of the weight, and zero in the other one; a digital cell its bit, in the same way. -/
structure cellsHold (c : Config) (m : Mvmu) (W : Nat → Nat → ℚ) : Prop where
  analogPos : ∀ k < c.dataConfig.storageConfig.length, isRram c.dataConfig.storageConfig k = true →
    ∀ r < c.mvmuConfig.xbarSize, ∀ j < c.mvmuConfig.xbarSize,
      cellAt m.rram.posXbar (rramRank c.dataConfig.storageConfig k) r j
        = if 0 < W r j then cellConductance c k (W r j) else 0
  analogNeg : ∀ k < c.dataConfig.storageConfig.length, isRram c.dataConfig.storageConfig k = true →
    ∀ r < c.mvmuConfig.xbarSize, ∀ j < c.mvmuConfig.xbarSize,
      cellAt m.rram.negXbar (rramRank c.dataConfig.storageConfig k) r j
        = if W r j < 0 then cellConductance c k (W r j) else 0
  digitalPos : ∀ k < c.dataConfig.storageConfig.length, isRram c.dataConfig.storageConfig k = false →
    ∀ r < c.mvmuConfig.xbarSize, ∀ j < c.mvmuConfig.xbarSize,
      cellAt m.sram.posXbar (k - rramRank c.dataConfig.storageConfig k) r j
        = if 0 < W r j ∧ level c.dataConfig.storageConfig c.dataConfig.weightFracBits (W r j) k = 1 then 1 else 0
  digitalNeg : ∀ k < c.dataConfig.storageConfig.length, isRram c.dataConfig.storageConfig k = false →
    ∀ r < c.mvmuConfig.xbarSize, ∀ j < c.mvmuConfig.xbarSize,
      cellAt m.sram.negXbar (k - rramRank c.dataConfig.storageConfig k) r j
        = if W r j < 0 ∧ level c.dataConfig.storageConfig c.dataConfig.weightFracBits (W r j) k = 1 then 1 else 0

end Ramwich.Spec
