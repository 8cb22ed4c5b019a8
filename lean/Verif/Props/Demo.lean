import Verif.Lemmas.MvmRun

/-! # Concrete configurations used to show that hypotheses can be met -/
namespace Ramwich

open Spec

/-- A 4x4 unit: weights Q2.3 spread over an MLC, an SRAM and an MLC crossbar, activations Q2.2. -/
def demo : Config where
  dataConfig := { storageConfig := [.mlc, .sram, .mlc], weightIntBits := 2, weightFracBits := 3,
                  activationIntBits := 2, activationFracBits := 2 }
  mvmuConfig := { xbarSize := 4, numColumnsPerAdc := 2, numAdcPerXbar := 0, dacResolution := 1,
                  vdd := 1, adcResolution := 4, conductanceMin := 0, conductanceMax := 3 }

/-- The derived configuration. -/
def demoBuilt : Config := match demo.build with | .ok c => c | .error _ => demo

theorem demo_build : demo.build = .ok demoBuilt := by
  decide +kernel

theorem demo_simulable : Simulable demo := by
  refine ⟨rfl, rfl, by decide, by decide, fun _ => by decide, fun _ => by decide, ?_, ?_, ?_⟩ <;>
    norm_num [demo]

/-- Same unit with another split of the weight bits. -/
def demoHybrid : Config :=
  { demo with dataConfig := { demo.dataConfig with storageConfig := [.sram, .tlc, .slc] } }

def demoHybridBuilt : Config := match demoHybrid.build with | .ok c => c | .error _ => demoHybrid

theorem demoHybrid_build : demoHybrid.build = .ok demoHybridBuilt := by
  decide +kernel

theorem demoHybrid_simulable : Simulable demoHybrid := by
  refine ⟨rfl, rfl, by decide, by decide, fun _ => by decide, fun _ => by decide, ?_, ?_, ?_⟩ <;>
    norm_num [demoHybrid, demo]

/-- A signed weight matrix. -/
def demoWeights : List (List ℚ) :=
  [[1, -1 / 2, 0, 3 / 8], [1 / 4, 1, -1, 0], [0, 0, 0, 0], [3, -3, 5 / 8, 1]]

def demoInput : List Int := [3, 15, 0, 7]

theorem demoWeights_shape : demoWeights.length = demo.mvmuConfig.xbarSize ∧
    ∀ row ∈ demoWeights, row.length = demo.mvmuConfig.xbarSize := by
  decide

theorem demoInput_range : ∀ v ∈ demoInput, -2 ^ 31 ≤ v ∧ v < 2 ^ 31 := by decide

/-- No errors in the conductances. -/
def quiet : Nat → Nat → Nat → Nat → ℚ := fun _ _ _ _ => 0

-- what the model computes, by evaluation
example : (((Mvmu.new demoBuilt).exec [.load demoWeights, .write 0 demoInput, .mvm quiet quiet]).outreg.registers.map
    BitVec.toInt) = [-15, 126, 0, -232] := by decide +kernel

end Ramwich
