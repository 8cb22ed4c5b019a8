import Verif.Spec.Perceptron

/-! # tests/test_tile_features.py -/
namespace Ramwich.Spec

/-- The configuration of the test, before the validators (tests/test_tile_features.py:17-22, defaults of config.py:17-34,
60-85, 170-178, 220-236, 333-335, 441-525, 573-574; `data_width` is no field of `Config`). -/
def tileTestConfig : Config where
  numNodes := 1
  numTilesPerNode := 3
  numCoresPerTile := 2
  numMvmusPerCore := 1
  dataConfig := { storageConfig := [.mlc, .mlc, .mlc, .mlc], weightIntBits := 1, weightFracBits := 7
                  activationIntBits := 4, activationFracBits := 4 }
  nocConfig := { nocIntraLat := 31, nocInterLat := 36 }
  tileConfig := { edramSizeInKB := 8192, edramLat := 50 }
  coreConfig := { dataMemSize := 4096, dataMemLat := 1, instrnMemLat := 1, aluLat := 1, numAluPerVfu := 12 }
  mvmuConfig := { xbarSize := 128, numColumnsPerAdc := 16, numAdcPerXbar := 0, dacResolution := 1, vdd := 1
                  adcResolution := 8, adcType := .normal, conductanceMin := 0, conductanceMax := 1, hasNoise := false }

/-- The configuration after the validators of config.py. -/
def tileTestBuilt : Config := match tileTestConfig.build with | .ok c => c | .error _ => tileTestConfig

/-- The operations of the tiles (tests/test_tile_features.py:96-110). -/
def tileFeatureOps : Nat → List TileOp
  | 0 => [.send 0 2 16 8, .halt]
  | 1 => [.receive 0 2 16 8, .halt]
  | 2 => [.receive 0 0 16 8, .send 256 1 16 8, .halt]
  | _ => []

/-- The operations of the cores (tests/test_tile_features.py:72-92). The cores of tiles 0 and 1 have none. -/
def tileFeatureProg : Nat → Nat → List CoreOp
  | 2, 0 => [.set 256 0 1, .load 256 256 16 8, .copy 0 256 128, .mvm [0], .vfu .relu 256 128 none 128, .set 384 128 1,
      .store 384 256 16 8, .hlt]
  | 2, 1 => [.set 256 128 1, .load 256 256 16 8, .copy 0 256 128, .mvm [0], .vfu .relu 256 128 none 128, .set 384 256 1,
      .store 384 256 16 8, .hlt]
  | _, _ => []

/-- The same with a `hlt` for the other cores. -/
def tileFixedProg (t k : Nat) : List CoreOp := if t = 2 then tileFeatureProg t k else [.hlt]

/-- The programs with the other `hlt`s as the operations of a file. -/
def tileTestFile : List Placed :=
  (List.range 3).flatMap fun t =>
    (tileFeatureOps t).map (.tile 0 t) ++ (List.range 2).flatMap fun k => (tileFixedProg t k).map (.core 0 t k)

/-- `expected_output` of the test (tests/test_tile_features.py:62). -/
def tileTestExpected (mat0 mat1 : Nat → Nat → Int) (activation : Nat → Int) : List Int :=
  (List.range 128).map fun r => max 0 ((List.range 128).map fun j =>
    mat1 r j * max 0 ((List.range 128).map fun m => mat0 j m * activation m).sum).sum

end Ramwich.Spec
