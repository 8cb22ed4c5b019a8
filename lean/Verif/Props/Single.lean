import Verif.Model.Single
import Verif.Props.Workers

/-! # tests/test_mlp_on_mnist_single.py (C115) -/
namespace Ramwich

open Spec

section
variable {js : List Json} (hj : writes js mnistFile) {l : Libs} {w : NpzFile} (hw : shortIds l.uni w) {fl : FloatActs}
  {xs : List ℚ} (hx : xs.length = 784) {noise : Noises}

include hj hw hx in
/-- **C115.** Whenever `run` with an activation file of 784 numbers returns, for any weights, noise and order of events, the
script prints the outputs of the network and the first position of the largest of them. -/
theorem C115_prints (hr : ∀ x ∈ xs, inRange 8 x) (y : Whole) (s' : Sim)
    (h : returns l (programmed l mnistBuilt js w) (.file 1 xs) fl noise y s') (out : List Int) (ho : outputWords s' out) :
    ∃ m, singlePrints out = .ok ((mnistAnswer l w fl noise xs).map fun (v : Int) => (v : ℚ) / 256, m) ∧
      isClass (mnistAnswer l w fl noise xs) m ∧ m < 10 := by
  obtain ⟨x, h1, h2⟩ := (C97_mnist js hj _ xs (.inr rfl) hx hr l w hw fl [] _ .new noise).2 y s' h
  obtain ⟨x', h3, h4⟩ := ho
  cases h1.symm.trans h3
  have hlen : out.length = 10 := by rw [h4]; simp [wordsAt]
  have h4 : out = mnistAnswer l w fl noise xs := h4.trans h2
  obtain ⟨m, hm⟩ := (C104_class out).2.1 (fun h => by rw [h] at hlen; cases hlen)
  have hc := (((C104_class out).2.2 m).1 hm).2
  refine ⟨m, ?_, h4 ▸ hc, hlen ▸ hc.1⟩
  rw [singlePrints, hm, h4]

include hj hw hx in
/-- **C115, the script can end.** With the shipped latencies there is an order of events in which `run` returns after 86797
cycles and the script prints ten outputs and a label. -/
theorem C115_ends (hr : ∀ x ∈ xs, inRange 8 x) :
    ∃ y s' out outputs m, returns l (programmed l mnistBuilt js w) (.file 1 xs) fl noise y s' ∧ y.now = 86797 ∧
      outputWords s' out ∧ singlePrints out = .ok (outputs, m) ∧ outputs.length = 10 ∧ m < 10 := by
  obtain ⟨y, s', h, ht, -⟩ := C100_mnist js hj _ xs (.inr rfl) hx l w fl [] _ .new noise
  obtain ⟨x, h1, h2⟩ := (C97_mnist js hj _ xs (.inr rfl) hx hr l w hw fl [] _ .new noise).2 y s' h
  have ho : outputWords s' (wordsAt (wordsOf x.ctrl.mem) 0 10) := ⟨x, h1, rfl⟩
  obtain ⟨m, hm, -, hlt⟩ := C115_prints hj hw hx hr y s' h _ ho
  refine ⟨y, s', _, _, m, h, ht, ho, hm, ?_, hlt⟩
  rw [List.length_map]
  exact (congrArg List.length h2).symm.trans (by simp [wordsAt])

include hj hw hx in
/-- **C115, the label.** Where the units are exact and in the network with rational numbers one output exceeds the others by
more than twice the error of C91, its position is the label that is printed, and each output that is printed is within that
error. -/
theorem C115_reference (hp : ∀ x ∈ xs, 0 ≤ x ∧ x < 256)
    (hu : ∀ g < 98, exactUnit (coreParamsWith mnistBuilt fl).unit (mnistWeights (weightsIn l.uni mnistBuilt w 0) g)
      (mnistErrors (fun t k j => errorsOf (noise 0 t k j)) g)) (norm inputs : Nat → ℚ)
    (hb : networkBounds (saturatedTo 16 8) (mnistWeights (weightsIn l.uni mnistBuilt w 0))
      (mnistWeights (weightsIn l.uni mnistBuilt w 0)) xs norm inputs) (best : Nat)
    (hbest : best < 10 ∧ ∀ r < 10, r ≠ best →
      exactOutput (saturatedTo 16 8) (mnistWeights (weightsIn l.uni mnistBuilt w 0)) xs r
        + 2 * outputError norm inputs (1 / 512)
      < exactOutput (saturatedTo 16 8) (mnistWeights (weightsIn l.uni mnistBuilt w 0)) xs best) (y : Whole) (s' : Sim)
    (h : returns l (programmed l mnistBuilt js w) (.file 1 xs) fl noise y s') (out : List Int) (ho : outputWords s' out) :
    ∃ outputs, singlePrints out = .ok (outputs, best) ∧ outputs.length = 10 ∧ ∀ r < 10,
      |outputs.getD r 0 - exactOutput (saturatedTo 16 8) (mnistWeights (weightsIn l.uni mnistBuilt w 0)) xs r|
        ≤ outputError norm inputs (1 / 512) := by
  have hr : ∀ x ∈ xs, inRange 8 x := fun x hxm => by
    obtain ⟨h0, h1⟩ := hp x hxm
    unfold inRange
    constructor <;> linarith
  obtain ⟨m, h1, h2, h3⟩ := C115_prints hj hw hx hr y s' h out ho
  have near := fun r hr10 => perceptron_near (mnist_like fl) hx hp hu (by norm_num : (0 : ℚ) ≤ 1 / 512)
    (fun g _ r _ c _ => (rounded_close 8 _).trans (by norm_num)) hb r hr10
  have hlen : (mnistAnswer l w fl noise xs).length = 10 := by
    obtain ⟨x, -, k2⟩ := (C97_mnist js hj _ xs (.inr rfl) hx hr l w hw fl [] _ .new noise).2 y s' h
    exact (congrArg List.length k2).symm.trans (by simp [wordsAt])
  have hg : ∀ r, ((mnistAnswer l w fl noise xs).map fun (v : Int) => (v : ℚ) / 256).getD r 0 =
      ((mnistAnswer l w fl noise xs).getD r 0 : ℚ) / 256 := by
    intro r
    simp only [List.getD_eq_getElem?_getD, List.getElem?_map]
    cases (mnistAnswer l w fl noise xs)[r]? <;> simp
  obtain ⟨hm, hgap⟩ := hbest
  have hbm : m = best := by
    by_contra hne
    have a := abs_le.1 (near m h3)
    have b := abs_le.1 (near best hm)
    have c := hgap m h3 hne
    have a2 : ((mnistAnswer l w fl noise xs).getD m 0 : ℚ) / 256 - _ ≤ _ := a.2
    have b1 : _ ≤ ((mnistAnswer l w fl noise xs).getD best 0 : ℚ) / 256 - _ := b.1
    have d : ((mnistAnswer l w fl noise xs).getD m 0 : ℚ) < ((mnistAnswer l w fl noise xs).getD best 0 : ℚ) := by linarith
    have d : (mnistAnswer l w fl noise xs).getD m 0 < (mnistAnswer l w fl noise xs).getD best 0 := by exact_mod_cast d
    have := (h2.2 best (by omega)).1
    omega
  subst hbm
  refine ⟨_, h1, by rw [List.length_map, hlen], fun r hr10 => ?_⟩
  rw [hg]
  exact near r hr10

end

/-- An image with a spot (`spotImage`, `spotFile` of C91): the script can end, and whenever it does it prints the label 0. -/
example : ∃ y s' out outputs, returns someLibs (programmed someLibs mnistBuilt (mnistFile.map fun p => .obj (fieldsOf true p)) spotFile)
    (.file 1 spotImage) someActs (fun _ => spotNoise) y s' ∧ outputWords s' out ∧ singlePrints out = .ok (outputs, 0) := by
  obtain ⟨y, s', out, -, -, h, -, ho, -⟩ := C115_ends (fl := someActs) (noise := fun _ => spotNoise)
    (writes_fields true mnistFile) (spot_short someLibs.uni) spot_image.1 fun x hx => by
      obtain ⟨h0, h1⟩ := spot_image.2 x hx
      unfold inRange
      constructor <;> linarith
  obtain ⟨outputs, k, -⟩ := C115_reference (writes_fields true mnistFile) (spot_short someLibs.uni) spot_image.1 spot_image.2
    (fun g _ => by rw [spot_mnist]; exact spot_unit someActs g) (fun _ => 1 / 2) (fun l => 400 / 2 ^ l)
    (by rw [spot_mnist]; exact spot_bounds) 0 ⟨by norm_num, fun r _ hne => by
      rw [spot_mnist, spot_output, spot_output, if_neg hne, if_pos rfl]
      have := spot_error
      linarith⟩ y s' h out ho
  exact ⟨y, s', out, outputs, h, ho, k⟩

end Ramwich
