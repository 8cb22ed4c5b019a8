import Verif.Lemmas.LoadTest
import Verif.Props.Mnist

/-! # C111: tests/test_load.py for every file of weights

`loaded l (Sim.new c) [.operations f, .weights w]` is the simulator after its constructor (ramwich.py:22-60) has loaded
both files. The two assertions of the test (lines 18-22) are `C111_operation` and `C111_assertion`; equality of operations
in the test also compares the fields `node` and `tile`, which in the model are the place where the operation is stored. -/
namespace Ramwich

open Spec

/-- C111: after loading any operations and any file of weights, every cell of every unit holds what belongs to the last
matrix of the right size that the file has for the unit, and zero if there is none. -/
theorem C111_cells (c c' : Config) (hs : Simulable c) (h : c.build = .ok c') (l : Libs) (js : List Json) (w : NpzFile)
    (hw : shortIds l.uni w) (a t k m : Nat) (ha : a < c.numNodes) (ht : t < c.numTilesPerNode)
    (hk : k < c.numCoresPerTile) (hm : m < c.numMvmusPerCore) :
    ∃ u, mvmuAt (loaded l (Sim.new c') [.operations (.value (.arr js)), .weights w]) a t k m = some u ∧
      cellsHold c u (weightsIn l.uni c w a t k m) := by
  obtain ⟨f1, f2, -⟩ := build_fields c c' h
  obtain ⟨g1, g2, g3, g4⟩ : c'.numNodes = c.numNodes ∧ c'.numTilesPerNode = c.numTilesPerNode ∧
      c'.numCoresPerTile = c.numCoresPerTile ∧ c'.numMvmusPerCore = c.numMvmusPerCore := by
    unfold Config.build Config.validateAndCalculate at h
    simp only at h
    repeat' split at h
    all_goals first | (cases h; done) | (cases h; exact ⟨rfl, rfl, rfl, rfl⟩)
  have h2 := mvmuAt_kernels _ _ a t k m (kernels_operations l (Sim.new c') js a t).1
  rw [mvmuAt_new c' a t k m (by omega) (by omega) (by omega) (by omega)] at h2
  have h3 : mvmuAt (loaded l (Sim.new c') [.operations (.value (.arr js)), .weights w]) a t k m
      = some ((arraysFor l.uni a t k m (arraysIn w)).foldl loadOr (Mvmu.new c')) := by
    show mvmuAt ((((Sim.new c').loadOperations l.lax l.pick (.value (.arr js))).2).loadWeights l.uni w).2 a t k m = _
    cases w with
    | arrays ws =>
      obtain ⟨-, -, h3⟩ := C52_load l.uni ((Sim.new c').loadOperations l.lax l.pick (.value (.arr js))).2 ws hw
      rw [h3, h2]
      rfl
    | missing => simpa [Sim.loadWeights, arraysIn, arraysFor] using h2
    | otherName => simpa [Sim.loadWeights, arraysIn, arraysFor] using h2
  refine ⟨_, h3, ?_⟩
  obtain ⟨s1, s2, s3⟩ := stores_loads (arraysFor l.uni a t k m (arraysIn w)) (Mvmu.new c') _
    (refines_new c c' h hs.rramFlag hs.sramFlag).stores
  have e : lastWeights (Mvmu.new c').cfg.xbarSize (arraysFor l.uni a t k m (arraysIn w)) ({} : UnitState).weights
      = weightsIn l.uni c w a t k m := by
    show lastWeights c'.mvmuConfig.xbarSize _ _ = _
    rw [f2]
    rfl
  rw [e] at s1
  exact cellsHold_of c c' hs h _ _ s2 (s3.trans f1) s1

/-- C111: the operations of every tile and core are those of the file for it, whatever the weights are. -/
theorem C111_operations (c : Config) (l : Libs) (js : List Json) (ps : List Placed) (hj : writes js ps)
    (hp : ∀ p ∈ ps, addressed c p) (w : NpzFile) (a t : Nat) (ha : a < c.numNodes) (ht : t < c.numTilesPerNode) :
    ∃ x, tileAt (loaded l (Sim.new c) [.operations (.value (.arr js)), .weights w]) a t = some x ∧
      x.operations = tileProgram ps a t ∧
      x.cores.map (·.operations) = (List.range c.numCoresPerTile).map (coreProgram ps a t) := by
  have h0 := (face_operations l c hj hp a t ha ht).2
  rw [← face_weights l _ w] at h0
  obtain ⟨x, hx, hf⟩ := Option.map_eq_some_iff.1 h0
  have e1 : x.operations = tileProgram ps a t := congrArg Prod.fst hf
  have e2 : x.cores.map (·.operations) = (List.range c.numCoresPerTile).map (coreProgram ps a t) :=
    congrArg (fun y => y.2.1) hf
  exact ⟨x, hx, e1, e2⟩

/-- C111: the first assertion of the test holds for every file of weights. -/
theorem C111_operation (l : Libs) (js : List Json) (hj : writes js mnistFile) (w : NpzFile) :
    ∃ x, tileAt (loaded l (Sim.new mnistBuilt) [.operations (.value (.arr js)), .weights w]) 0 0 = some x ∧
      x.operations[0]? = some (.send 768 3 16 1) := by
  obtain ⟨x, hx, ho, -⟩ := C111_operations mnistBuilt l js mnistFile hj
    (by decide +kernel) w 0 0 (by decide +kernel) (by decide +kernel)
  refine ⟨x, hx, ?_⟩
  rw [ho]
  decide +kernel

/-- C111: the second assertion of the test holds for a file of weights exactly when the weight is negative and its
magnitude, as a multiple of 1/256, has remainder 3 modulo 4. -/
theorem C111_assertion (l : Libs) (js : List Json) (w : NpzFile) (hw : shortIds l.uni w) :
    ∃ u, mvmuAt (loaded l (Sim.new mnistBuilt) [.operations (.value (.arr js)), .weights w]) 0 2 0 0 = some u ∧
      (cellAt u.rram.negXbar 0 0 0 = 1 ↔ weightsIn l.uni mnistConfig w 0 2 0 0 0 0 < 0 ∧
        magnitude 8 (weightsIn l.uni mnistConfig w 0 2 0 0 0 0) % 4 = 3) := by
  obtain ⟨u, hu, hc⟩ := C111_cells mnistConfig mnistBuilt mnist_simulable mnist_build l js w hw 0 2 0 0 (by decide)
    (by decide) (by decide) (by decide)
  refine ⟨u, hu, ?_⟩
  have h := hc.analogNeg 0 (by decide) (by decide) 0 (by decide) 0 (by decide)
  rw [show rramRank mnistConfig.dataConfig.storageConfig 0 = 0 from rfl] at h
  rw [h]
  generalize weightsIn l.uni mnistConfig w 0 2 0 0 0 0 = x
  have e : cellConductance mnistConfig 0 x = (magnitude 8 x % 4 : Nat) / 3 := by
    have e1 : level mnistConfig.dataConfig.storageConfig mnistConfig.dataConfig.weightFracBits x 0 = magnitude 8 x % 4 := by
      show magnitude 8 x / 2 ^ slicePos mnistConfig.dataConfig.storageConfig 0 % 2 ^ 2 = _
      rw [show slicePos mnistConfig.dataConfig.storageConfig 0 = 0 from by decide]
      simp
    unfold cellConductance
    rw [e1, show bitsOf mnistConfig.dataConfig.storageConfig 0 = 2 from rfl]
    norm_num [mnistConfig]
    ring
  rw [e]
  split
  · rename_i h0
    rw [div_eq_one_iff_eq (by norm_num)]
    simp only [h0, true_and]
    norm_cast
  · rename_i h0
    simp [h0]

/-! ## Cases that meet the hypotheses -/

/-- A file with one matrix, for the unit of the test. -/
def testWeights (q : ℚ) : NpzFile :=
  .arrays [("node0_tile2_core0_mvmu0", .matrix (List.replicate 128 (List.replicate 128 q)))]

theorem testWeights_short (uni : Char → Option Nat) (q : ℚ) : shortIds uni (testWeights q) := by
  intro e he a b c d l hk
  refine (isWeightKey_length _ _ _ _ _ _ _ hk).trans ?_
  simp only [testWeights, arraysIn, List.mem_singleton] at he
  rw [he]
  show "node0_tile2_core0_mvmu0".toList.length ≤ 4300
  decide +kernel

theorem testWeights_entry (uni : Char → Option Nat) (q : ℚ) : weightsIn uni mnistConfig (testWeights q) 0 2 0 0 0 0 = q := by
  have hk : ∃ l, isWeightKey uni "node0_tile2_core0_mvmu0" 0 2 0 0 l := by
    obtain ⟨l, hl, -⟩ := C52_round_trip uni 0 2 0 0
    exact ⟨l, hl⟩
  have h : matricesIn uni mnistConfig (testWeights q) 0 2 0 0 = [List.replicate 128 (List.replicate 128 q)] := by
    unfold matricesIn
    rw [show arraysIn (testWeights q) = [("node0_tile2_core0_mvmu0", .matrix (List.replicate 128 (List.replicate 128 q)))]
      from rfl, arraysFor_pos _ _ _ _ _ _ _ _ hk, arraysFor_none _ _ _ _ _ [] (by simp)]
    have : squareOf mnistConfig.mvmuConfig.xbarSize (.matrix (List.replicate 128 (List.replicate 128 q)))
        = some (List.replicate 128 (List.replicate 128 q)) := by
      rw [show mnistConfig.mvmuConfig.xbarSize = 128 from rfl]
      unfold squareOf
      exact if_pos ⟨List.length_replicate, fun row hr => by rw [List.eq_of_mem_replicate hr, List.length_replicate]⟩
    rw [List.filterMap_cons_some this]
    rfl
  unfold weightsIn
  rw [h]
  simp [List.getD_eq_getElem?_getD]

-- the assertion holds for the weight -3/256 and fails for -1/2
example : ∃ u, mvmuAt (loaded someLibs (Sim.new mnistBuilt) [.operations (.value (.arr [])), .weights (testWeights (-3 / 256))])
    0 2 0 0 = some u ∧ cellAt u.rram.negXbar 0 0 0 = 1 := by
  obtain ⟨u, hu, h⟩ := C111_assertion someLibs [] (testWeights (-3 / 256)) (testWeights_short _ _)
  rw [testWeights_entry] at h
  exact ⟨u, hu, h.2 (by decide +kernel)⟩
example : ∃ u, mvmuAt (loaded someLibs (Sim.new mnistBuilt) [.operations (.value (.arr [])), .weights (testWeights (-1 / 2))])
    0 2 0 0 = some u ∧ cellAt u.rram.negXbar 0 0 0 ≠ 1 := by
  obtain ⟨u, hu, h⟩ := C111_assertion someLibs [] (testWeights (-1 / 2)) (testWeights_short _ _)
  rw [testWeights_entry] at h
  exact ⟨u, hu, fun h1 => absurd (h.1 h1) (by decide +kernel)⟩
example := C111_cells mnistConfig mnistBuilt mnist_simulable mnist_build someLibs [] (testWeights (1 / 2))
  (testWeights_short _ _) 0 4 7 5 (by decide) (by decide) (by decide) (by decide)
example := C111_operation someLibs (mnistFile.map fun p => .obj (fieldsOf true p)) (writes_fields true mnistFile) .missing
example := C111_operations mnistBuilt someLibs _ _ (writes_fields false mnistFile) (by decide +kernel) .otherName 0 3
  (by decide +kernel) (by decide +kernel)
-- analog and digital crossbars, and a file with two matrices for the same unit
example := C111_cells resetCfg resetBuilt resetCfg_simulable resetCfg_build someLibs [] (.arrays weightFile)
  weightFile_short 0 0 0 1 (by decide) (by decide) (by decide) (by decide)

end Ramwich
