import Verif.Props.MissingHlt

/-! # C103: tests/test_tile_features.py with a `hlt` for every core -/
namespace Ramwich

open Spec

def tileTestMoves : List DryMove :=
  [.tile 0, .tile 2, .core 2 0, .core 2 0, .core 2 0, .core 2 1, .core 2 1, .core 2 1, .tile 2, .tile 1, .core 0 0, .core 0 1,
    .core 1 0, .core 1 1, .tile 0, .tile 1, .tile 2]

theorem tileTest_build : tileTestConfig.build = .ok tileTestBuilt := by decide +kernel

theorem tileTest_simulable : Simulable tileTestConfig := by
  refine ⟨rfl, rfl, by decide, by decide, fun _ => by decide, fun _ => by decide, ?_, ?_, ?_⟩ <;>
    norm_num [tileTestConfig]

set_option maxRecDepth 10000 in
theorem tileTest_accepted : accepted (coreParamsOf tileTestBuilt id id) tileTestBuilt.tileConfig.edramSize
    tileTestBuilt.numTilesPerNode tileTestBuilt.numCoresPerTile (inputWords 128 0) (coreProgram tileTestFile 0)
    (tileProgram tileTestFile 0) tileTestMoves := by decide +kernel

set_option maxRecDepth 10000 in
theorem tileTest_runnable {js : List Json} (hj : writes js tileTestFile) {act : Activation} {xs : List ℚ}
    (ha : act = .array xs ∨ act = .file 1 xs) (hx : xs.length = 128) :
    ∀ a < tileTestBuilt.numNodes, runnable tileTestConfig tileTestBuilt a js tileTestFile act xs tileTestMoves := by
  intro a h
  have h1 : tileTestBuilt.numNodes = 1 := by decide +kernel
  rw [h1] at h
  obtain rfl : a = 0 := by omega
  exact
    { simulable := tileTest_simulable
      build := tileTest_build
      node := by decide +kernel
      tiles := by decide +kernel
      unit := by decide +kernel
      alu := by decide +kernel
      dac := by decide +kernel
      adc := by decide +kernel
      entries := hj
      targets := by decide +kernel
      lengths := by decide +kernel
      input := ha
      fits := by rw [hx]; decide +kernel
      check := by rw [hx]; exact tileTest_accepted }

theorem tileTest_programs : (∀ t < 3, ∀ k < 2, coreProgram tileTestFile 0 t k = tileFixedProg t k) ∧
    ∀ t < 3, tileProgram tileTestFile 0 t = tileFeatureOps t := by decide +kernel

theorem tileTest_paired : paired tileTestBuilt tileTestFile 0 where
  positive := by decide +kernel
  matched := by decide +kernel

theorem tileTest_halts : ∀ a < tileTestBuilt.numNodes, ∀ t < tileTestBuilt.numTilesPerNode,
    .halt ∈ tileProgram tileTestFile a t := by decide +kernel

theorem tileTest_apart : ∀ a < tileTestBuilt.numNodes, apart (coreParamsOf tileTestBuilt id id) tileTestBuilt.numTilesPerNode
    tileTestBuilt.numCoresPerTile (coreProgram tileTestFile a) (tileProgram tileTestFile a) := by decide +kernel

theorem tileTest_params : (coreParamsOf tileTestBuilt id id).actWidth = 8 ∧ 1 ≤ (coreParamsOf tileTestBuilt id id).unit.frac ∧
    tileTestBuilt.numTilesPerNode = 3 ∧ tileTestBuilt.numCoresPerTile = 2 ∧ tileTestBuilt.numMvmusPerCore = 1 ∧
    tileTestBuilt.dataConfig.activationFracBits = 4 := by decide +kernel

def tileTestFormula : Val := .relu (.mvm 2 1 3 0 (.relu (.mvm 2 0 3 0 (.input 0 128) 128)) 128)

set_option maxRecDepth 10000 in
theorem tileTest_formula : ((learnAll (coreParamsOf tileTestBuilt id id).place tileFixedProg tileFeatureOps
    [((0, 0, 128), .input 0 128)] [.move 0 2 0, .store 2 0 0, .store 2 1 0, .move 2 1 0]).bind
    fun known => known.lookup (1, 0, 128)) = some tileTestFormula := by decide +kernel

/-- The words that the second core stores: two layers of rectified products with the weights of the two cores of tile 2
(tests/test_tile_features.py:71-93). The fourth operation of a core is its `mvm`. -/
def Spec.tileTestOutput (p : CoreParams) (weights : Nat → Nat → Nat → Nat → Nat → ℚ) (errors : Nat → Nat → Nat → MvmErrors)
    (image : List Int) : List Int :=
  p.rectified (p.product (weights 2 1 0) (errors 2 1 3) (p.rectified (p.product (weights 2 0 0) (errors 2 0 3) image 128)) 128)

theorem tileTest_solution {fl : FloatActs} {ws : Nat → Nat → List (Nat × List (List ℚ))}
    {errors : Nat → Nat → Nat → MvmErrors} {there : Nat → Nat → Prop} {given mem : Nat → Nat → Int}
    {final : Nat → Nat → CoreState}
    (h : solution (coreParamsWith tileTestBuilt fl) 3 2 tileFixedProg tileFeatureOps (fun t k => CoreState.loadAll {} (ws t k))
      errors there given mem final) (hmem : ∀ t a, fits32 (mem t a)) (image : List Int) (hl : image.length = 128)
    (hi : ∀ i < 128, there 0 i ∧ given 0 i = image.getD i 0) :
    wordsAt (mem 1) 0 128 = tileTestOutput (coreParamsWith tileTestBuilt fl)
      (fun t k m => ((CoreState.loadAll {} (ws t k)).units m).weights) errors image := by
  let N : NodeEnv := ⟨coreParamsWith tileTestBuilt fl, given 0,
    fun t k m => ((CoreState.loadAll {} (ws t k)).units m).weights, errors⟩
  obtain ⟨p1, p2, -⟩ := tileTest_params
  have hin : wordsAt (given 0) 0 128 = image := by
    apply List.ext_getElem
    · simp [wordsAt, hl]
    · intro j h1 h2
      have hj : j < 128 := by omega
      simp only [wordsAt, List.getElem_map, List.getElem_range, Nat.zero_add]
      rw [(hi j hj).2, List.getD_eq_getElem?_getD, List.getElem?_eq_getElem h2, Option.getD_some]
  have hstart : KnownOk N mem [((0, 0, 128), .input 0 128)] := by
    intro x hx
    rw [List.mem_singleton] at hx
    subst hx
    show wordsAt (mem 0) 0 128 = wordsAt (given 0) 0 128
    unfold wordsAt
    apply List.map_congr_left
    intro j hj
    have hj := List.mem_range.1 hj
    exact h.input 0 (by omega) _ (hi _ (by omega)).1
  have hf := tileTest_formula
  cases hk : learnAll (coreParamsOf tileTestBuilt id id).place tileFixedProg tileFeatureOps
      [((0, 0, 128), .input 0 128)] [.move 0 2 0, .store 2 0 0, .store 2 1 0, .move 2 1 0] with
  | none => rw [hk] at hf; cases hf
  | some known =>
    rw [hk] at hf
    have hok := learnAll_ok (N := N) (show (coreParamsOf tileTestBuilt id id).actWidth ≤ 30 by rw [p1]; decide) p2 rfl h hmem _ _ _
      (by decide) hstart hk
    refine (hok _ (lookup_pair hf)).trans ?_
    show N.p.rectified (N.p.product _ _ (N.p.rectified (N.p.product _ _ (wordsAt (given 0) 0 128) 128)) 128) = _
    rw [hin]
    rfl

section
variable (js : List Json) (hj : writes js tileTestFile) (act : Activation) (xs : List ℚ)
  (ha : act = .array xs ∨ act = .file 1 xs) (hx : xs.length = 128) (l : Libs) (w : NpzFile) (fl : FloatActs)
  (hist : List Completed) (s : Sim) (hbef : before l fl (programmed l tileTestBuilt js w) hist s) (noise : Noises)
include hj ha hx hbef

/-- C103: with a `hlt` for every core the program of the test always returns: with any weights and activation no process raises,
the clock never passes cycle 10000, and from every state that the simulation comes to it goes on to the end. -/
theorem C103_returns : ∃ bound, ∀ es x, running l s act fl noise es x →
    x.raised 1 = false ∧ x.now ≤ 10000 ∧ es.length ≤ bound ∧
    ∃ es' y s', running l s act fl noise (es ++ es') y ∧ returns l s act fl noise y s' := by
  have h0 : 0 < tileTestBuilt.numNodes := by decide +kernel
  have hlen : s.nodes.length = 1 := by
    rw [between_length (files_between h0 (tileTest_runnable hj ha hx) (by decide +kernel) (by decide +kernel) tileTest_halts l w fl
      hist s hbef)]
    decide +kernel
  have := C97_returns h0 (tileTest_runnable hj ha hx) (by decide +kernel) (by decide +kernel) tileTest_halts l w fl hist s hbef
    noise tileTest_apart 10000 (by decide +kernel)
  rw [hlen] at this
  exact this

/-- C103: what it then computes: the words 0-127 of tile 1 are two layers of rectified products. -/
theorem C103_result (hr : ∀ x ∈ xs, inRange 4 x) (hw : shortIds l.uni w) (y : Whole) (s' : Sim)
    (hy : returns l s act fl noise y s') : ∃ x, tileAt s' 0 1 = some x ∧
      wordsAt (wordsOf x.ctrl.mem) 0 128 = tileTestOutput (coreParamsWith tileTestBuilt fl)
        (weightsIn l.uni tileTestBuilt w 0) (fun t k i => errorsOf (noise 0 t k i)) (xs.map (fixedPoint 4)) := by
  have h0 : 0 < tileTestBuilt.numNodes := by decide +kernel
  have hrr : tileTestBuilt.mvmuConfig.haveRramXbar = true := by decide +kernel
  have hss : tileTestBuilt.mvmuConfig.haveSramXbar = false := by decide +kernel
  have hrun := tileTest_runnable hj ha hx
  obtain ⟨-, -, hT, hC, hM, hF⟩ := tileTest_params
  obtain ⟨n', final, hn', hsol, -⟩ := C97_result h0 hrun hrr hss tileTest_halts l w fl hist s hbef noise y s' hy hw
    (by rw [hF]; exact hr) 0 h0 tileTest_paired
  rw [hT, hC, hF] at hsol
  have h2 := solution_congr tileTest_programs.1 tileTest_programs.2 hsol
  have h3 := tileTest_solution h2 (fun t a => words_fit (fun t => (n'.tiles.getD t (TileObj.new tileTestBuilt t)).ctrl.mem) t a)
    (xs.map (fixedPoint 4)) (by rw [List.length_map, hx]) (fun i hi => ⟨⟨rfl, rfl, by omega⟩, by
      have hlt : i < xs.length := by omega
      simp only [List.getD_eq_getElem?_getD, List.getElem?_map, List.getElem?_eq_getElem hlt, Option.map_some,
        Option.getD_some]⟩)
  have hall := files_halt h0 hrun tileTest_halts l w
  have hobj := C97_objects (hrun 0 h0).simulable (hrun 0 h0).build (hrun 0 h0).unit hrr hss hall hist s hbef _ noise y s' hy
  obtain ⟨n, hn, hready, -⟩ := sim_node (l := l) (js := js) (w := w) (act := act) h0
  rw [hobj, List.getElem?_mapIdx, hn, Option.map_some] at hn'
  injection hn' with hn'
  have hlt : 1 < n'.tiles.length := by
    rw [← hn']
    show 1 < (n.tiles.mapIdx _).length
    rw [List.length_mapIdx, (hready someActs).count, hT]
    omega
  refine ⟨n'.tiles[1], ?_, ?_⟩
  · unfold tileAt nodeAt
    rw [hobj, List.getElem?_mapIdx, hn, Option.map_some, hn', Option.bind_some, List.getElem?_eq_getElem hlt]
  · rw [List.getD_eq_getElem?_getD, List.getElem?_eq_getElem hlt, Option.getD_some] at h3
    rw [h3]
    unfold tileTestOutput
    beta_reduce
    rw [C88_weights l tileTestBuilt w 0 2 0 0 (by rw [hM]; decide), C88_weights l tileTestBuilt w 0 2 1 0 (by rw [hM]; decide)]

/-- C103: so no word of the output is greater than 255, and the assertion of the test fails for all weights and activations for
which an element of its `expected_output` is. -/
theorem C103_assertion (hr : ∀ x ∈ xs, inRange 4 x) (hw : shortIds l.uni w) (y : Whole) (s' : Sim)
    (hy : returns l s act fl noise y s') (mat0 mat1 : Nat → Nat → Int) (activation : Nat → Int)
    (hbig : ∃ v ∈ tileTestExpected mat0 mat1 activation, 255 < v) : ∃ x, tileAt s' 0 1 = some x ∧
      (∀ v ∈ wordsAt (wordsOf x.ctrl.mem) 0 128, 0 ≤ v ∧ v ≤ 255) ∧
      wordsAt (wordsOf x.ctrl.mem) 0 128 ≠ tileTestExpected mat0 mat1 activation := by
  obtain ⟨x, h1, h2⟩ := C103_result js hj act xs ha hx l w fl hist s hbef noise hr hw y s' hy
  have hb : ∀ v ∈ wordsAt (wordsOf x.ctrl.mem) 0 128, 0 ≤ v ∧ v ≤ 255 := by
    rw [h2]
    intro v hv
    unfold tileTestOutput CoreParams.rectified at hv
    obtain ⟨a, -, rfl⟩ := List.mem_map.1 hv
    have hw : (coreParamsWith tileTestBuilt fl).actWidth = 8 := tileTest_params.1
    rw [hw]
    unfold clampTo
    omega
  refine ⟨x, h1, hb, fun e => ?_⟩
  obtain ⟨v, hv, h3⟩ := hbig
  rw [← e] at hv
  have := (hb v hv).2
  omega

end

/-- One of the draws of the test (all weights 2, all activations 1) for which the assertion fails. -/
example : ∃ v ∈ tileTestExpected (fun _ _ => 2) (fun _ _ => 2) (fun _ => 1), 255 < v :=
  ⟨65536, by decide +kernel, by decide⟩

/-- A run that returns exists: all activations 1. -/
theorem tileTest_returned : ∃ y s', returns someLibs (programmed someLibs tileTestBuilt (tileTestFile.map fun p => .obj (fieldsOf true p))
    .missing) (.array (List.replicate 128 1)) someActs calm y s' := by
  have ha : Activation.array (List.replicate 128 1) = .array (List.replicate 128 1) ∨
      Activation.array (List.replicate 128 1) = .file 1 (List.replicate 128 1) := .inl rfl
  have h0 := C97_starts (moves := fun _ => tileTestMoves) (by decide +kernel) (tileTest_runnable (writes_fields true tileTestFile) ha
    List.length_replicate) (by decide +kernel) (by decide +kernel) tileTest_halts someLibs .missing someActs [] _ .new calm
  obtain ⟨b, hb⟩ := C103_returns _ (writes_fields true tileTestFile) _ _ ha List.length_replicate someLibs .missing someActs [] _ .new
    calm
  obtain ⟨-, -, -, es', y, s', -, h⟩ := hb _ _ h0
  exact ⟨y, s', h⟩

example : ∃ x : TileObj, ∀ v ∈ wordsAt (wordsOf x.ctrl.mem) 0 128, 0 ≤ v ∧ v ≤ 255 := by
  obtain ⟨y, s', h⟩ := tileTest_returned
  obtain ⟨x, -, hx, -⟩ := C103_assertion _ (writes_fields true tileTestFile) _ _ (.inl rfl) List.length_replicate someLibs .missing
    someActs [] _ .new calm (fun x hx => by rw [List.eq_of_mem_replicate hx]; unfold inRange; norm_num) (fun _ h => nomatch h) y s' h
    (fun _ _ => 2) (fun _ _ => 2) (fun _ => 1) ⟨65536, by decide +kernel, by decide⟩
  exact ⟨x, hx⟩

end Ramwich
