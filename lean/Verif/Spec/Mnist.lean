import Verif.Spec.EndToEnd

/-! # The example of the repository

The files `examples/mlp_l4_mnist/config.yaml` and `examples/mlp_l4_mnist/ops.json`: a perceptron with four layers for the
images of MNIST. The operations are written down unit by unit, as they are in the file: first those of tile 0, then those
of its cores 0 to 7, then those of tile 1, and so on. -/
namespace Ramwich.Spec

/-- `examples/mlp_l4_mnist/config.yaml`, with the latencies that config.py finds in its tables. -/
def mnistConfig : Config where
  numNodes := 1
  numTilesPerNode := 5
  numCoresPerTile := 8
  numMvmusPerCore := 6
  dataConfig := { storageConfig := [.mlc, .mlc, .mlc, .mlc], weightIntBits := 0, weightFracBits := 8
                  activationIntBits := 8, activationFracBits := 8 }
  nocConfig := { nocIntraLat := 31, nocInterLat := 36 }
  tileConfig := { edramSizeInKB := 8192, edramLat := 50 }
  coreConfig := { dataMemSize := 4096, dataMemLat := 1, instrnMemLat := 1, aluLat := 1, numAluPerVfu := 12 }
  mvmuConfig := { xbarSize := 128, numColumnsPerAdc := 16, numAdcPerXbar := 0, dacResolution := 1, vdd := 1
                  adcResolution := 8, adcType := .normal, conductanceMin := 0, conductanceMax := 1, hasNoise := true }

/-- The configuration after the validators of config.py. -/
def mnistBuilt : Config := match mnistConfig.build with | .ok c => c | .error _ => mnistConfig

def mnistCore20 : List CoreOp :=
  [.set 1537 2304 1, .load 1537 1537 16 8, .copy 640 1537 128, .mvm [5], .copy 1537 1408 128, .set 1665 2176 1,
   .load 1665 1665 16 8, .copy 512 1665 128, .mvm [4], .copy 1665 1280 128, .set 1793 2048 1, .load 1793 1793 16 8,
   .copy 384 1793 128, .mvm [3], .copy 1793 1152 128, .set 1921 1920 1, .load 1921 1921 16 8, .copy 256 1921 128,
   .mvm [2], .copy 1921 1024 128, .set 2049 1792 1, .load 2049 2049 16 8, .copy 128 2049 128, .mvm [1],
   .copy 2049 896 128, .set 2177 1664 1, .load 2177 2177 16 8, .copy 0 2177 128, .mvm [0],
   .vfu .add 2049 2049 (some 768) 128, .vfu .add 1921 1921 (some 2049) 128, .vfu .add 1793 1793 (some 1921) 128,
   .vfu .add 1665 1665 (some 1793) 128, .vfu .add 1537 1537 (some 1665) 128, .set 1665 0 1, .store 1665 1537 16 8,
   .hlt]

def mnistCore21 : List CoreOp :=
  [.set 1537 2176 1, .load 1537 1537 16 8, .copy 640 1537 128, .mvm [5], .copy 1537 1408 128, .set 1665 2048 1,
   .load 1665 1665 16 8, .copy 512 1665 128, .mvm [4], .copy 1665 1280 128, .set 1793 1920 1, .load 1793 1793 16 8,
   .copy 384 1793 128, .mvm [3], .copy 1793 1152 128, .set 1921 1792 1, .load 1921 1921 16 8, .copy 256 1921 128,
   .mvm [2], .copy 1921 1024 128, .set 2049 1664 1, .load 2049 2049 16 8, .copy 128 2049 128, .mvm [1],
   .vfu .add 1921 1921 (some 896) 128, .vfu .add 1793 1793 (some 1921) 128, .vfu .add 1665 1665 (some 1793) 128,
   .vfu .add 1537 1537 (some 1665) 128, .set 1665 128 1, .store 1665 1537 16 8, .set 1537 2432 1,
   .load 1537 1537 16 1, .copy 0 1537 16, .mvm [0], .copy 1537 768 128, .set 1665 0 1, .load 1665 1665 16 8,
   .vfu .add 1537 1537 (some 1665) 128, .vfu .relu 1537 1537 none 128, .set 1665 896 1, .store 1665 1537 16 8, .hlt]

def mnistCore22 : List CoreOp :=
  [.set 1537 2048 1, .load 1537 1537 16 8, .copy 640 1537 128, .mvm [5], .copy 1537 1408 128, .set 1665 1920 1,
   .load 1665 1665 16 8, .copy 512 1665 128, .mvm [4], .copy 1665 1280 128, .set 1793 1792 1, .load 1793 1793 16 8,
   .copy 384 1793 128, .mvm [3], .copy 1793 1152 128, .set 1921 1664 1, .load 1921 1921 16 8, .copy 256 1921 128,
   .mvm [2], .vfu .add 1793 1793 (some 1024) 128, .vfu .add 1665 1665 (some 1793) 128,
   .vfu .add 1537 1537 (some 1665) 128, .set 1665 256 1, .store 1665 1537 16 8, .set 1537 2432 1,
   .load 1537 1537 16 1, .copy 128 1537 16, .mvm [1], .copy 1537 896 128, .set 1665 2304 1, .load 1665 1665 16 8,
   .copy 0 1665 128, .mvm [0], .copy 1665 768 128, .set 1793 128 1, .load 1793 1793 16 8,
   .vfu .add 1665 1665 (some 1793) 128, .vfu .add 1537 1537 (some 1665) 128, .vfu .relu 1537 1537 none 128,
   .set 1665 1024 1, .store 1665 1537 16 8, .hlt]

def mnistCore23 : List CoreOp :=
  [.set 1537 1920 1, .load 1537 1537 16 8, .copy 640 1537 128, .mvm [5], .copy 1537 1408 128, .set 1665 1792 1,
   .load 1665 1665 16 8, .copy 512 1665 128, .mvm [4], .copy 1665 1280 128, .set 1793 1664 1, .load 1793 1793 16 8,
   .copy 384 1793 128, .mvm [3], .vfu .add 1665 1665 (some 1152) 128, .vfu .add 1537 1537 (some 1665) 128,
   .set 1665 384 1, .store 1665 1537 16 8, .set 1537 2432 1, .load 1537 1537 16 1, .copy 256 1537 16, .mvm [2],
   .copy 1537 1024 128, .set 1665 2304 1, .load 1665 1665 16 8, .copy 128 1665 128, .mvm [1], .copy 1665 896 128,
   .set 1793 2176 1, .load 1793 1793 16 8, .copy 0 1793 128, .mvm [0], .copy 1793 768 128, .set 1921 256 1,
   .load 1921 1921 16 8, .vfu .add 1793 1793 (some 1921) 128, .vfu .add 1665 1665 (some 1793) 128,
   .vfu .add 1537 1537 (some 1665) 128, .vfu .relu 1537 1537 none 128, .set 1665 1152 1, .store 1665 1537 16 8,
   .hlt]

def mnistCore24 : List CoreOp :=
  [.set 1537 1792 1, .load 1537 1537 16 8, .copy 640 1537 128, .mvm [5], .copy 1537 1408 128, .set 1665 1664 1,
   .load 1665 1665 16 8, .copy 512 1665 128, .mvm [4], .vfu .add 1537 1537 (some 1280) 128, .set 1665 512 1,
   .store 1665 1537 16 8, .set 1537 2432 1, .load 1537 1537 16 1, .copy 384 1537 16, .mvm [3], .copy 1537 1152 128,
   .set 1665 2304 1, .load 1665 1665 16 8, .copy 256 1665 128, .mvm [2], .copy 1665 1024 128, .set 1793 2176 1,
   .load 1793 1793 16 8, .copy 128 1793 128, .mvm [1], .copy 1793 896 128, .set 1921 2048 1, .load 1921 1921 16 8,
   .copy 0 1921 128, .mvm [0], .copy 1921 768 128, .set 2049 384 1, .load 2049 2049 16 8,
   .vfu .add 1921 1921 (some 2049) 128, .vfu .add 1793 1793 (some 1921) 128, .vfu .add 1665 1665 (some 1793) 128,
   .vfu .add 1537 1537 (some 1665) 128, .vfu .relu 1537 1537 none 128, .set 1665 1280 1, .store 1665 1537 16 8,
   .hlt]

def mnistCore25 : List CoreOp :=
  [.set 1537 1664 1, .load 1537 1537 16 8, .copy 640 1537 128, .mvm [5], .copy 1537 1408 128, .set 1665 640 1,
   .store 1665 1537 16 8, .set 1537 2432 1, .load 1537 1537 16 1, .copy 512 1537 16, .mvm [4], .copy 1537 1280 128,
   .set 1665 2304 1, .load 1665 1665 16 8, .copy 384 1665 128, .mvm [3], .copy 1665 1152 128, .set 1793 2176 1,
   .load 1793 1793 16 8, .copy 256 1793 128, .mvm [2], .copy 1793 1024 128, .set 1921 2048 1, .load 1921 1921 16 8,
   .copy 128 1921 128, .mvm [1], .copy 1921 896 128, .set 2049 1920 1, .load 2049 2049 16 8, .copy 0 2049 128,
   .mvm [0], .copy 2049 768 128, .set 2177 512 1, .load 2177 2177 16 8, .vfu .add 2049 2049 (some 2177) 128,
   .vfu .add 1921 1921 (some 2049) 128, .vfu .add 1793 1793 (some 1921) 128, .vfu .add 1665 1665 (some 1793) 128,
   .vfu .add 1537 1537 (some 1665) 128, .vfu .relu 1537 1537 none 128, .set 1665 1408 1, .store 1665 1537 16 8,
   .hlt]

def mnistCore26 : List CoreOp :=
  [.set 1537 2432 1, .load 1537 1537 16 1, .copy 640 1537 16, .mvm [5], .copy 1537 1408 128, .set 1665 2304 1,
   .load 1665 1665 16 8, .copy 512 1665 128, .mvm [4], .copy 1665 1280 128, .set 1793 2176 1, .load 1793 1793 16 8,
   .copy 384 1793 128, .mvm [3], .copy 1793 1152 128, .set 1921 2048 1, .load 1921 1921 16 8, .copy 256 1921 128,
   .mvm [2], .copy 1921 1024 128, .set 2049 1920 1, .load 2049 2049 16 8, .copy 128 2049 128, .mvm [1],
   .copy 2049 896 128, .set 2177 1792 1, .load 2177 2177 16 8, .copy 0 2177 128, .mvm [0], .copy 2177 768 128,
   .set 2305 640 1, .load 2305 2305 16 8, .vfu .add 2177 2177 (some 2305) 128, .vfu .add 2049 2049 (some 2177) 128,
   .vfu .add 1921 1921 (some 2049) 128, .vfu .add 1793 1793 (some 1921) 128, .vfu .add 1665 1665 (some 1793) 128,
   .vfu .add 1537 1537 (some 1665) 128, .vfu .relu 1537 1537 none 128, .set 1665 1536 1, .store 1665 1537 16 8,
   .hlt]

def mnistCore27 : List CoreOp :=
  [.set 1537 2304 1, .load 1537 1537 16 8, .copy 640 1537 128, .mvm [5], .copy 1537 1408 128, .set 1665 2176 1,
   .load 1665 1665 16 8, .copy 512 1665 128, .mvm [4], .copy 1665 1280 128, .set 1793 2048 1, .load 1793 1793 16 8,
   .copy 384 1793 128, .mvm [3], .copy 1793 1152 128, .set 1921 1920 1, .load 1921 1921 16 8, .copy 256 1921 128,
   .mvm [2], .copy 1921 1024 128, .set 2049 1792 1, .load 2049 2049 16 8, .copy 128 2049 128, .mvm [1],
   .copy 2049 896 128, .set 2177 1664 1, .load 2177 2177 16 8, .copy 0 2177 128, .mvm [0],
   .vfu .add 2049 2049 (some 768) 128, .vfu .add 1921 1921 (some 2049) 128, .vfu .add 1793 1793 (some 1921) 128,
   .vfu .add 1665 1665 (some 1793) 128, .vfu .add 1537 1537 (some 1665) 128, .set 1665 768 1, .store 1665 1537 16 8,
   .hlt]

def mnistCore30 : List CoreOp :=
  [.set 1537 3928 1, .load 1537 1537 16 8, .copy 640 1537 128, .mvm [5], .copy 1665 1408 128, .set 1793 3800 1,
   .load 1793 1793 16 8, .copy 512 1793 128, .mvm [4], .copy 1921 1280 128, .set 2049 3672 1, .load 2049 2049 16 8,
   .copy 384 2049 128, .mvm [3], .copy 2177 1152 128, .set 2305 3544 1, .load 2305 2305 16 8, .copy 256 2305 128,
   .mvm [2], .copy 2433 1024 128, .set 2561 3416 1, .load 2561 2561 16 8, .copy 128 2561 128, .mvm [1],
   .vfu .add 2433 2433 (some 896) 128, .vfu .add 2177 2177 (some 2433) 128, .vfu .add 1921 1921 (some 2177) 128,
   .vfu .add 1665 1665 (some 1921) 128, .set 1921 784 1, .store 1921 1665 16 8, .set 1665 768 1,
   .load 1665 1665 16 1, .copy 0 1665 16, .mvm [0], .copy 1665 768 128, .set 1921 2520 1, .set 1922 512 1,
   .store 1922 1537 16 8, .set 1537 384 1, .store 1537 1793 16 8, .set 1537 256 1, .store 1537 2049 16 8,
   .set 1537 128 1, .store 1537 2305 16 8, .set 1537 0 1, .store 1537 2561 16 8, .load 1537 1921 16 8,
   .vfu .add 1537 1665 (some 1537) 128, .vfu .relu 1537 1537 none 128, .set 1665 912 1, .store 1665 1537 16 8, .hlt]

def mnistCore31 : List CoreOp :=
  [.set 1537 4184 1, .load 1537 1537 16 1, .copy 128 1537 16, .mvm [1], .copy 1553 896 128, .set 1681 4056 1,
   .load 1681 1681 16 8, .copy 0 1681 128, .mvm [0], .copy 1809 768 128, .set 1937 784 1, .load 1937 1937 16 8,
   .vfu .add 1809 1809 (some 1937) 128, .vfu .add 1553 1553 (some 1809) 128, .vfu .relu 1553 1553 none 128,
   .set 1809 1040 1, .store 1809 1553 16 8, .set 1553 768 1, .store 1553 1537 16 1, .set 1537 640 1,
   .store 1537 1681 16 8, .set 1537 3032 1, .load 1537 1537 16 8, .copy 640 1537 128, .mvm [5], .copy 1537 1408 128,
   .set 1665 2904 1, .load 1665 1665 16 8, .copy 512 1665 128, .mvm [4], .copy 1665 1280 128, .set 1793 2776 1,
   .load 1793 1793 16 8, .copy 384 1793 128, .mvm [3], .copy 1793 1152 128, .set 1921 2648 1, .load 1921 1921 16 8,
   .copy 256 1921 128, .mvm [2], .vfu .add 1793 1793 (some 1024) 128, .vfu .add 1665 1665 (some 1793) 128,
   .vfu .add 1537 1537 (some 1665) 128, .set 1665 1168 1, .store 1665 1537 16 8, .hlt]

def mnistCore32 : List CoreOp :=
  [.set 1537 2776 1, .load 1537 1537 16 8, .copy 640 1537 128, .mvm [5], .copy 1537 1408 128, .set 1665 2648 1,
   .load 1665 1665 16 8, .copy 512 1665 128, .mvm [4], .vfu .add 1537 1537 (some 1280) 128, .set 1665 1296 1,
   .store 1665 1537 16 8, .set 1537 1040 1, .load 1537 1537 16 8, .copy 384 1537 128, .mvm [3], .copy 1537 1152 128,
   .set 1665 912 1, .load 1665 1665 16 8, .copy 256 1665 128, .mvm [2], .copy 1665 1024 128, .set 1793 3288 1,
   .load 1793 1793 16 8, .copy 128 1793 128, .mvm [1], .copy 1793 896 128, .set 1921 3160 1, .load 1921 1921 16 8,
   .copy 0 1921 128, .mvm [0], .copy 1921 768 128, .set 2049 1168 1, .load 2049 2049 16 8,
   .vfu .add 1921 1921 (some 2049) 128, .vfu .add 1793 1793 (some 1921) 128, .vfu .add 1665 1665 (some 1793) 128,
   .vfu .add 1537 1537 (some 1665) 128, .vfu .relu 1537 1537 none 128, .set 1665 1680 1, .store 1665 1537 16 8,
   .hlt]

def mnistCore33 : List CoreOp :=
  [.set 1537 1040 1, .load 1537 1537 16 8, .copy 640 1537 128, .mvm [5], .copy 1537 1408 128, .set 1665 912 1,
   .load 1665 1665 16 8, .copy 512 1665 128, .mvm [4], .copy 1665 1280 128, .set 1793 3288 1, .load 1793 1793 16 8,
   .copy 384 1793 128, .mvm [3], .copy 1793 1152 128, .set 1921 3160 1, .load 1921 1921 16 8, .copy 256 1921 128,
   .mvm [2], .copy 1921 1024 128, .set 2049 3032 1, .load 2049 2049 16 8, .copy 128 2049 128, .mvm [1],
   .copy 2049 896 128, .set 2177 2904 1, .load 2177 2177 16 8, .copy 0 2177 128, .mvm [0], .copy 2177 768 128,
   .set 2305 1296 1, .load 2305 2305 16 8, .vfu .add 2177 2177 (some 2305) 128, .vfu .add 2049 2049 (some 2177) 128,
   .vfu .add 1921 1921 (some 2049) 128, .vfu .add 1793 1793 (some 1921) 128, .vfu .add 1665 1665 (some 1793) 128,
   .vfu .add 1537 1537 (some 1665) 128, .vfu .relu 1537 1537 none 128, .set 1665 1808 1, .store 1665 1537 16 8,
   .hlt]

def mnistCore34 : List CoreOp :=
  [.set 1537 3288 1, .load 1537 1537 16 8, .copy 640 1537 128, .mvm [5], .copy 1537 1408 128, .set 1665 3160 1,
   .load 1665 1665 16 8, .copy 512 1665 128, .mvm [4], .copy 1665 1280 128, .set 1793 3032 1, .load 1793 1793 16 8,
   .copy 384 1793 128, .mvm [3], .copy 1793 1152 128, .set 1921 2904 1, .load 1921 1921 16 8, .copy 256 1921 128,
   .mvm [2], .copy 1921 1024 128, .set 2049 2776 1, .load 2049 2049 16 8, .copy 128 2049 128, .mvm [1],
   .copy 2049 896 128, .set 2177 2648 1, .load 2177 2177 16 8, .copy 0 2177 128, .mvm [0],
   .vfu .add 2049 2049 (some 768) 128, .vfu .add 1921 1921 (some 2049) 128, .vfu .add 1793 1793 (some 1921) 128,
   .vfu .add 1665 1665 (some 1793) 128, .vfu .add 1537 1537 (some 1665) 128, .set 1665 1424 1,
   .store 1665 1537 16 8, .hlt]

def mnistCore35 : List CoreOp :=
  [.set 1537 3032 1, .load 1537 1537 16 8, .copy 640 1537 128, .mvm [5], .copy 1537 1408 128, .set 1665 2904 1,
   .load 1665 1665 16 8, .copy 512 1665 128, .mvm [4], .copy 1665 1280 128, .set 1793 2776 1, .load 1793 1793 16 8,
   .copy 384 1793 128, .mvm [3], .copy 1793 1152 128, .set 1921 2648 1, .load 1921 1921 16 8, .copy 256 1921 128,
   .mvm [2], .vfu .add 1793 1793 (some 1024) 128, .vfu .add 1665 1665 (some 1793) 128,
   .vfu .add 1537 1537 (some 1665) 128, .set 1665 1552 1, .store 1665 1537 16 8, .set 1537 1040 1,
   .load 1537 1537 16 8, .copy 128 1537 128, .mvm [1], .copy 1537 896 128, .set 1665 912 1, .load 1665 1665 16 8,
   .copy 0 1665 128, .mvm [0], .copy 1665 768 128, .set 1793 1424 1, .load 1793 1793 16 8,
   .vfu .add 1665 1665 (some 1793) 128, .vfu .add 1537 1537 (some 1665) 128, .vfu .relu 1537 1537 none 128,
   .set 1665 1936 1, .store 1665 1537 16 8, .hlt]

def mnistCore36 : List CoreOp :=
  [.set 1537 1040 1, .load 1537 1537 16 8, .copy 384 1537 128, .mvm [3], .copy 1537 1152 128, .set 1665 912 1,
   .load 1665 1665 16 8, .copy 256 1665 128, .mvm [2], .copy 1665 1024 128, .set 1793 3288 1, .load 1793 1793 16 8,
   .copy 128 1793 128, .mvm [1], .copy 1793 896 128, .set 1921 3160 1, .load 1921 1921 16 8, .copy 0 1921 128,
   .mvm [0], .copy 1921 768 128, .set 2049 1552 1, .load 2049 2049 16 8, .vfu .add 1921 1921 (some 2049) 128,
   .vfu .add 1793 1793 (some 1921) 128, .vfu .add 1665 1665 (some 1793) 128, .vfu .add 1537 1537 (some 1665) 128,
   .vfu .relu 1537 1537 none 128, .set 1665 2064 1, .store 1665 1537 16 8, .set 1537 1808 1, .load 1537 1537 16 8,
   .copy 640 1537 128, .mvm [5], .copy 1537 1408 128, .set 1665 1680 1, .load 1665 1665 16 8, .copy 512 1665 128,
   .mvm [4], .vfu .add 1537 1537 (some 1280) 128, .set 1665 2192 1, .store 1665 1537 16 8, .hlt]

def mnistCore37 : List CoreOp :=
  [.set 1537 2064 1, .load 1537 1537 16 8, .copy 640 1537 128, .mvm [5], .copy 1665 1408 72, .set 1737 1936 1,
   .load 1737 1737 16 8, .copy 512 1737 128, .mvm [4], .copy 1865 1280 72, .set 1937 1808 1, .load 1937 1937 16 8,
   .copy 384 1937 128, .mvm [3], .copy 1937 1152 72, .set 2009 1680 1, .load 2009 2009 16 8, .copy 256 2009 128,
   .mvm [2], .vfu .add 1937 1937 (some 1024) 72, .vfu .add 1865 1865 (some 1937) 72,
   .vfu .add 1665 1665 (some 1865) 72, .vfu .relu 1665 1665 none 72, .set 1865 2448 1, .store 1865 1665 12 6,
   .copy 128 1537 128, .mvm [1], .copy 1537 896 128, .copy 0 1737 128, .mvm [0], .copy 1665 768 128,
   .set 1793 2192 1, .load 1793 1793 16 8, .vfu .add 1665 1665 (some 1793) 128, .vfu .add 1537 1537 (some 1665) 128,
   .vfu .relu 1537 1537 none 128, .set 1665 2320 1, .store 1665 1537 16 8, .hlt]

def mnistCore40 : List CoreOp :=
  [.set 1537 128 1, .load 1537 1537 12 6, .copy 128 1537 72, .mvm [1], .copy 1537 896 10, .set 1547 0 1,
   .load 1547 1547 16 8, .copy 0 1547 128, .mvm [0], .vfu .add 1537 1537 (some 768) 10, .set 1547 200 1,
   .store 1547 1537 10 1, .hlt]

def mnistTile0 : List TileOp :=
  [.send 768 3 16 1, .send 640 3 16 8, .send 512 3 16 8, .send 384 3 16 8, .send 256 3 16 8, .send 128 3 16 8,
   .send 0 3 16 8, .halt]

def mnistTile1 : List TileOp :=
  [.receive 0 4 10 1, .halt]

def mnistTile2 : List TileOp :=
  [.receive 2304 3 16 8, .receive 2176 3 16 8, .receive 2048 3 16 8, .receive 1920 3 16 8, .receive 1792 3 16 8,
   .receive 1664 3 16 8, .send 768 3 16 8, .receive 2432 3 16 1, .send 1536 3 16 8, .send 1408 3 16 8,
   .send 1280 3 16 8, .send 1152 3 16 8, .send 1024 3 16 8, .send 896 3 16 8, .halt]

def mnistTile3 : List TileOp :=
  [.receive 4184 0 16 1, .receive 4056 0 16 8, .receive 3928 0 16 8, .receive 3800 0 16 8, .receive 3672 0 16 8,
   .receive 3544 0 16 8, .receive 3416 0 16 8, .send 640 2 16 8, .send 512 2 16 8, .send 384 2 16 8,
   .send 256 2 16 8, .send 128 2 16 8, .send 0 2 16 8, .receive 2520 2 16 8, .send 768 2 16 1, .receive 3288 2 16 8,
   .receive 3160 2 16 8, .receive 3032 2 16 8, .receive 2904 2 16 8, .receive 2776 2 16 8, .receive 2648 2 16 8,
   .send 2448 4 12 6, .send 2320 4 16 8, .halt]

def mnistTile4 : List TileOp :=
  [.receive 128 3 12 6, .receive 0 3 16 8, .send 200 1 10 1, .halt]

def mnistProg : Nat → Nat → List CoreOp
  | 2, 0 => mnistCore20
  | 2, 1 => mnistCore21
  | 2, 2 => mnistCore22
  | 2, 3 => mnistCore23
  | 2, 4 => mnistCore24
  | 2, 5 => mnistCore25
  | 2, 6 => mnistCore26
  | 2, 7 => mnistCore27
  | 3, 0 => mnistCore30
  | 3, 1 => mnistCore31
  | 3, 2 => mnistCore32
  | 3, 3 => mnistCore33
  | 3, 4 => mnistCore34
  | 3, 5 => mnistCore35
  | 3, 6 => mnistCore36
  | 3, 7 => mnistCore37
  | 4, 0 => mnistCore40
  | _, _ => [.hlt]

def mnistOps : Nat → List TileOp
  | 0 => mnistTile0
  | 1 => mnistTile1
  | 2 => mnistTile2
  | 3 => mnistTile3
  | 4 => mnistTile4
  | _ => []

/-- The operations of `examples/mlp_l4_mnist/ops.json` in the order of the file. -/
def mnistFile : List Placed :=
  (List.range 5).flatMap fun t =>
    (mnistOps t).map (.tile 0 t) ++ (List.range 8).flatMap fun k => (mnistProg t k).map (.core 0 t k)

/-- An order for the check of C85. -/
def mnistMoves : List DryMove :=
  [.tile 0, .tile 0, .tile 0, .tile 0, .tile 0, .tile 0, .tile 0, .core 0 0, .core 0 1, .core 0 2, .core 0 3,
   .core 0 4, .core 0 5, .core 0 6, .core 0 7, .core 1 0, .core 1 1, .core 1 2, .core 1 3, .core 1 4, .core 1 5,
   .core 1 6, .core 1 7, .tile 3, .tile 3, .tile 3, .tile 3, .tile 3, .tile 3, .tile 3, .core 3 0, .core 3 0,
   .core 3 0, .core 3 0, .core 3 0, .core 3 0, .core 3 1, .core 3 1, .core 3 1, .core 3 1, .core 3 1, .core 3 1,
   .core 3 3, .core 3 6, .core 4 1, .core 4 2, .core 4 3, .core 4 4, .core 4 5, .core 4 6, .core 4 7, .tile 0,
   .tile 3, .core 3 0, .core 3 0, .core 3 0, .core 3 0, .core 3 0, .core 3 0, .tile 2, .core 2 0, .core 2 7,
   .tile 3, .tile 3, .tile 3, .tile 3, .tile 3, .tile 2, .tile 2, .tile 2, .tile 2, .tile 2, .core 2 0, .core 2 0,
   .core 2 0, .core 2 0, .core 2 0, .core 2 0, .core 2 0, .core 2 1, .core 2 1, .core 2 1, .core 2 1, .core 2 1,
   .core 2 1, .core 2 2, .core 2 2, .core 2 2, .core 2 2, .core 2 2, .core 2 3, .core 2 3, .core 2 3, .core 2 3,
   .core 2 4, .core 2 4, .core 2 4, .core 2 5, .core 2 5, .core 2 7, .core 2 7, .core 2 7, .core 2 7, .core 2 7,
   .core 2 7, .core 2 7, .tile 2, .tile 3, .tile 3, .core 3 0, .core 3 0, .core 3 0, .core 3 3, .core 3 6, .tile 2,
   .core 2 1, .core 2 1, .core 2 1, .core 2 1, .core 2 2, .core 2 2, .core 2 2, .core 2 2, .core 2 2, .core 2 3,
   .core 2 3, .core 2 3, .core 2 3, .core 2 3, .core 2 3, .core 2 4, .core 2 4, .core 2 4, .core 2 4, .core 2 4,
   .core 2 4, .core 2 4, .core 2 5, .core 2 5, .core 2 5, .core 2 5, .core 2 5, .core 2 5, .core 2 5, .core 2 5,
   .core 2 6, .core 2 6, .core 2 6, .core 2 6, .core 2 6, .core 2 6, .core 2 6, .core 2 6, .core 2 6, .tile 2,
   .tile 2, .tile 2, .tile 2, .tile 2, .tile 2, .tile 3, .tile 3, .tile 3, .tile 3, .tile 3, .tile 3, .core 3 1,
   .core 3 1, .core 3 1, .core 3 1, .core 3 1, .core 3 1, .core 3 2, .core 3 2, .core 3 2, .core 3 2, .core 3 2,
   .core 3 2, .core 3 2, .core 3 2, .core 3 2, .core 3 2, .core 3 3, .core 3 3, .core 3 3, .core 3 3, .core 3 3,
   .core 3 3, .core 3 3, .core 3 4, .core 3 4, .core 3 4, .core 3 4, .core 3 4, .core 3 4, .core 3 4, .core 3 4,
   .core 3 5, .core 3 5, .core 3 5, .core 3 5, .core 3 5, .core 3 5, .core 3 5, .core 3 5, .core 3 5, .core 3 5,
   .core 3 6, .core 3 6, .core 3 6, .core 3 6, .core 3 6, .core 3 6, .core 3 6, .core 3 6, .core 3 7, .core 3 7,
   .core 3 7, .core 3 7, .core 3 7, .core 3 7, .core 3 7, .core 3 7, .tile 2, .tile 3, .tile 3, .tile 4, .tile 4,
   .core 4 0, .core 4 0, .core 4 0, .core 4 0, .tile 3, .tile 4, .tile 1, .tile 1, .tile 4]

end Ramwich.Spec
