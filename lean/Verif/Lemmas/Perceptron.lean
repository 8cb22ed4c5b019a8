import Verif.Lemmas.SymMnist
import Verif.Props.FileNode
import Verif.Props.Mnist

/-! # The formula of the example and the perceptron -/
namespace Ramwich

open Spec

/-- A solution only depends on the programs of the units that exist. -/
theorem solution_congr {p : CoreParams} {tiles cores : Nat} {prog prog' : Nat → Nat → List CoreOp}
    {ops ops' : Nat → List TileOp} {start : Nat → Nat → CoreState} {errors : Nat → Nat → Nat → MvmErrors}
    {there : Nat → Nat → Prop} {given mem : Nat → Nat → Int} {final : Nat → Nat → CoreState}
    (hp : ∀ t < tiles, ∀ k < cores, prog t k = prog' t k) (ho : ∀ t < tiles, ops t = ops' t)
    (h : solution p tiles cores prog ops start errors there given mem final) :
    solution p tiles cores prog' ops' start errors there given mem final where
  core t ht k hk := by rw [← hp t ht k hk]; exact h.core t ht k hk
  transfer src hs dst hd := by rw [← ho src hs, ← ho dst hd]; exact h.transfer src hs dst hd
  input := h.input

theorem eval_sumUp (N : NodeEnv) (l : List Val) : N.eval (Val.sumUp l) = N.p.sumUp (l.map N.eval) := by
  cases l with
  | nil => rfl
  | cons x xs =>
    show N.eval (xs.foldl (fun acc y => .add y acc) x) = (xs.map N.eval).foldl (fun acc y => N.p.plus y acc) (N.eval x)
    induction xs generalizing x with
    | nil => rfl
    | cons y ys ih => rw [List.foldl_cons, ih]; rfl

theorem eval_layer (N : NodeEnv) {mulV : Nat → Val → Nat → Val} {mul : Nat → List Int → Nat → List Int}
    (hm : ∀ g x n, N.eval (mulV g x n) = mul g (N.eval x) n) (first : Nat) (sizes : List Nat) (xs : List Val) :
    (Val.layer mulV first sizes xs).map N.eval = N.p.layer mul first sizes (xs.map N.eval) := by
  unfold Val.layer CoreParams.layer
  rw [List.map_map]
  apply List.map_congr_left
  intro nj _
  simp only [Function.comp_apply]
  rw [eval_sumUp, List.map_map, List.length_map]
  congr 1
  rw [List.zipIdx_map, List.map_map]
  apply List.map_congr_left
  intro xi _
  simp only [Function.comp_apply, Prod.map_apply, id]
  exact hm _ _ _

theorem eval_perceptron (N : NodeEnv) {mulV : Nat → Val → Nat → Val} {mul : Nat → List Int → Nat → List Int}
    (hm : ∀ g x n, N.eval (mulV g x n) = mul g (N.eval x) n) (image : List Int) (hl : image.length = 784)
    (hi : ∀ i < 784, N.given i = image.getD i 0) :
    ((Val.perceptron mulV).map N.eval).flatten = N.p.perceptron mul image := by
  have h0 : mnistBlocks.map N.eval = (List.range 7).map fun i => (image.drop (128 * i)).take 128 := by
    unfold mnistBlocks
    rw [List.map_map]
    apply List.map_congr_left
    intro i hi7
    have hi7 := List.mem_range.1 hi7
    show wordsAt N.given (128 * i) (min 128 (784 - 128 * i)) = _
    apply List.ext_getElem?
    intro j
    unfold wordsAt
    rw [List.getElem?_map, List.getElem?_take, List.getElem?_drop]
    by_cases hj : j < min 128 (784 - 128 * i)
    · rw [List.getElem?_range hj, if_pos (by omega)]
      have hlt : 128 * i + j < image.length := by omega
      rw [Option.map_some, hi _ (by omega), List.getD_eq_getElem?_getD, List.getElem?_eq_getElem hlt]
      rfl
    · rw [List.getElem?_eq_none (by rw [List.length_range]; omega), Option.map_none]
      split
      · rw [List.getElem?_eq_none (by omega)]
      · rfl
  have hr : ∀ l : List Val, (l.map Val.relu).map N.eval = (l.map N.eval).map N.p.rectified := by
    intro l
    rw [List.map_map, List.map_map]
    rfl
  unfold Val.perceptron CoreParams.perceptron
  dsimp only
  rw [eval_layer N hm, hr, eval_layer N hm, hr, eval_layer N hm, hr, eval_layer N hm, h0]

set_option maxRecDepth 10000 in
theorem mnist_programs : (∀ t < 5, ∀ k < 8, coreProgram mnistFile 0 t k = mnistProg t k) ∧
    ∀ t < 5, tileProgram mnistFile 0 t = mnistOps t := by decide +kernel

set_option maxRecDepth 10000 in
theorem mnist_paired : paired mnistBuilt mnistFile 0 where
  positive := by decide +kernel
  matched := by decide +kernel

theorem mnist_params : (coreParamsOf mnistBuilt id id).actWidth ≤ 30 ∧ 1 ≤ (coreParamsOf mnistBuilt id id).unit.frac ∧
    mnistBuilt.numTilesPerNode = 5 ∧ mnistBuilt.numCoresPerTile = 8 ∧ mnistBuilt.numMvmusPerCore = 6 ∧
    mnistBuilt.dataConfig.activationFracBits = 8 := by decide +kernel

theorem mnist_inNode : ∀ f ∈ mnistFacts, f.inNode 5 8 := by decide +kernel

theorem Val.perceptron_singleton (mulV : Nat → Val → Nat → Val) : ∃ v, Val.perceptron mulV = [v] := ⟨_, rfl⟩

/-- All solutions of the equations of the example have the outputs of the perceptron. -/
theorem mnist_solution {fl : FloatActs} {ws : Nat → Nat → List (Nat × List (List ℚ))}
    {errors : Nat → Nat → Nat → MvmErrors} {there : Nat → Nat → Prop} {given mem : Nat → Nat → Int}
    {final : Nat → Nat → CoreState}
    (h : solution (coreParamsWith mnistBuilt fl) 5 8 mnistProg mnistOps (fun t k => CoreState.loadAll {} (ws t k)) errors
      there given mem final) (hmem : ∀ t a, fits32 (mem t a)) (image : List Int) (hl : image.length = 784)
    (hi : ∀ i < 784, there 0 i ∧ given 0 i = image.getD i 0) :
    wordsAt (mem 1) 0 10 = (coreParamsWith mnistBuilt fl).perceptron (mnistMul (coreParamsWith mnistBuilt fl)
      (fun t k m => ((CoreState.loadAll {} (ws t k)).units m).weights) errors) image := by
  let N : NodeEnv := ⟨coreParamsWith mnistBuilt fl, given 0, fun t k m => ((CoreState.loadAll {} (ws t k)).units m).weights,
    errors⟩
  obtain ⟨p1, p2, -⟩ := mnist_params
  have hstart : KnownOk N mem mnistInput := by
    intro x hx
    obtain ⟨i, hi7, rfl⟩ := List.mem_map.1 hx
    have hi7 := List.mem_range.1 hi7
    show wordsAt (mem 0) (128 * i) (min 128 (784 - 128 * i)) = wordsAt (given 0) (128 * i) (min 128 (784 - 128 * i))
    unfold wordsAt
    apply List.map_congr_left
    intro j hj
    have hj := List.mem_range.1 hj
    exact h.input 0 (by omega) _ (hi _ (by omega)).1
  have hf := mnist_formula
  cases hk : learnAll (coreParamsOf mnistBuilt id id).place mnistProg mnistOps mnistInput mnistFacts with
  | none =>
    rw [hk] at hf
    obtain ⟨v, hv⟩ := Val.perceptron_singleton Val.mnistMul
    rw [hv] at hf
    cases hf
  | some known =>
    rw [hk] at hf
    have hk' : learnAll N.p.place mnistProg mnistOps mnistInput mnistFacts = some known := hk
    have hok := learnAll_ok (N := N) p1 p2 rfl h hmem mnistFacts _ _ mnist_inNode hstart hk'
    obtain ⟨v, hv⟩ := Val.perceptron_singleton Val.mnistMul
    rw [hv] at hf
    have h1 := hok _ (lookup_pair hf)
    have h2 := eval_perceptron N (mulV := Val.mnistMul) (mul := mnistMul N.p N.weights N.errors) (fun _ _ _ => rfl) image hl
      (fun i hi' => (hi i hi').2)
    rw [hv] at h2
    have h3 : [N.eval v].flatten = N.eval v := by simp
    rw [List.map_singleton, h3] at h2
    exact h1.trans h2

/-- The perceptron only uses the weights of units that exist. -/
theorem mnistMul_congr (p : CoreParams) {w w' : Nat → Nat → Nat → Nat → Nat → ℚ} (e : Nat → Nat → Nat → MvmErrors)
    (h : ∀ t k, ∀ m < 6, w t k m = w' t k m) : mnistMul p w e = mnistMul p w' e := by
  funext g x n
  unfold mnistMul
  dsimp only
  rw [h _ _ (g % 6) (by omega)]

end Ramwich
