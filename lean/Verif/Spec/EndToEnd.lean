import Verif.Spec.Loader
import Verif.Spec.StaticCheck
import Verif.Spec.Unit
import Verif.Spec.ClockedTime
import Verif.Model.Run

/-! # Programs in files -/
namespace Ramwich.Spec

/-- The entries of a file are the operations `ps`: every entry is an object with the fields of its operation, in any
order, perhaps among others; `node`, `read_2` and `imm` may be left out if they have their default values. -/
def writes (js : List Json) (ps : List Placed) : Prop :=
  List.Forall₂ (fun j p => ∃ kvs isAddress, j = .obj kvs ∧ ∀ kv ∈ fieldsOf isAddress p, tells kvs kv.1 kv.2) js ps

/-- The operation is addressed to a unit of the architecture. -/
def addressed (c : Config) : Placed → Prop
  | .tile n t _ => (0 ≤ n ∧ n < c.numNodes) ∧ 0 ≤ t ∧ t < c.numTilesPerNode
  | .core n t k _ => (0 ≤ n ∧ n < c.numNodes) ∧ (0 ≤ t ∧ t < c.numTilesPerNode) ∧ 0 ≤ k ∧ k < c.numCoresPerTile

instance (c : Config) (p : Placed) : Decidable (addressed c p) := by
  cases p <;> unfold addressed <;> infer_instance

/-- The operations of tile `t` of node `a` in the order of the file. -/
def tileProgram (ps : List Placed) (a t : Nat) : List TileOp :=
  ps.filterMap fun
    | .tile n b op => if n = a ∧ b = t then some op else none
    | .core .. => none

/-- The operations of core `k` of tile `t` of node `a` in the order of the file. -/
def coreProgram (ps : List Placed) (a t k : Nat) : List CoreOp :=
  ps.filterMap fun
    | .core n b c op => if n = a ∧ b = t ∧ c = k then some op else none
    | .tile .. => none

/-- The valid words of the DRAMs of node `a` after an activation of `len` words: the first `len` words of tile 0 of
node 0. -/
def inputWords (len a t : Nat) : Nat := if a = 0 ∧ t = 0 then 2 ^ len - 1 else 0

/-- The number of words of the operation is not negative. -/
def lengthOk : Placed → Prop
  | .core _ _ _ (.load _ _ _ vec) => 0 ≤ vec
  | .core _ _ _ (.vfu _ _ _ _ vec) => 0 ≤ vec
  | _ => True

instance (p : Placed) : Decidable (lengthOk p) := by unfold lengthOk; split <;> infer_instance

/-- A simulator as `run.py` makes it: with the operations of the file `js`, the weights of the file `w` (without one:
`.missing`) and the activation `act`. -/
def simulator (l : Libs) (c : Config) (js : List Json) (w : NpzFile) (act : Activation) : Sim :=
  loaded l (Sim.new c) [.operations (.value (.arr js)), .weights w, .activation (some act)]

/-- The cycles that the operations of node `a` need if everything happens one after the other. (The latencies depend
neither on the activation functions nor on the noise.) -/
def fileCycles (c : Config) (ps : List Placed) (a : Nat) : Nat :=
  let cfg := c.sysCfg ⟨fun _ x => x, fun _ x => x⟩ fun _ _ _ _ _ => ⟨fun _ _ _ => 0, fun _ _ _ => 0⟩
  ((List.range c.numTilesPerNode).map fun t =>
    ((tileProgram ps a t).map (tileOpCycles cfg)).sum +
      ((List.range c.numCoresPerTile).map fun k => ((upToHlt (coreProgram ps a t k)).map fun op =>
        c.coreConfig.instrnMemLat + c.coreConfig.dataMemLat + coreOpCycles cfg op).sum).sum).sum

/-- The hypotheses of C86 for node `a`: the configuration `c'` (from `c` by the defaults of config.py) is one that the
simulator can run; the file has the operations `ps`, which are addressed to units that exist; the activation is a list of
values that fit into the DRAM; and the programs of the node pass the check of C85 with `moves`, for an activation of this
length. Nothing is said about the values of the activation, the weights or the noise. -/
structure runnable (c c' : Config) (a : Nat) (js : List Json) (ps : List Placed) (act : Activation) (xs : List ℚ)
    (moves : List DryMove) : Prop where
  simulable : Simulable c
  build : c.build = .ok c'
  node : a < c'.numNodes
  tiles : 0 < c'.numTilesPerNode
  unit : 0 < c'.mvmuConfig.xbarSize * c'.numMvmusPerCore
  alu : c'.coreConfig.numAluPerVfu ≠ 0
  dac : c'.mvmuConfig.dacResolution ≠ 0
  adc : c'.mvmuConfig.adcLat.isSome
  entries : writes js ps
  targets : ∀ p ∈ ps, addressed c' p
  lengths : ∀ p ∈ ps, lengthOk p
  input : act = .array xs ∨ act = .file 1 xs
  fits : xs.length ≤ c'.tileConfig.edramSize
  check : accepted (coreParamsOf c' id id) c'.tileConfig.edramSize c'.numTilesPerNode c'.numCoresPerTile
    (inputWords xs.length a) (coreProgram ps a) (tileProgram ps a) moves

end Ramwich.Spec
