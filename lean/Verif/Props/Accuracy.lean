import Verif.Lemmas.Accuracy
import Verif.Props.Perceptron

/-! # C91: how far the outputs of the MNIST example are from those of the network in rational numbers -/
namespace Ramwich

open Spec

theorem mnist_like (fl : FloatActs) : MnistLike (coreParamsWith mnistBuilt fl) where
  gmin := by show (coreParamsOf mnistBuilt id id).unit.gmin = 0; decide +kernel
  gmax := by show 0 < (coreParamsOf mnistBuilt id id).unit.gmax; decide +kernel
  res := by show (coreParamsOf mnistBuilt id id).unit.res = 1; decide +kernel
  size := by show (coreParamsOf mnistBuilt id id).unit.size = 128; decide +kernel
  storage := by
    show slicePos (coreParamsOf mnistBuilt id id).unit.storage (coreParamsOf mnistBuilt id id).unit.storage.length = 8
    decide +kernel
  width := by show (coreParamsOf mnistBuilt id id).unit.width = 16; decide +kernel
  frac := by show (coreParamsOf mnistBuilt id id).unit.frac = 8; decide +kernel
  actFrac := by show (coreParamsOf mnistBuilt id id).actFrac = 8; decide +kernel
  actWidth := by show (coreParamsOf mnistBuilt id id).actWidth = 16; decide +kernel

/-- The outputs are near to those of any network with nearly the same weights. -/
theorem mnist_close (js : List Json) (hj : writes js mnistFile) (act : Activation) (xs : List ℚ)
    (ha : act = .array xs ∨ act = .file 1 xs) (hx : xs.length = 784) (hr : ∀ x ∈ xs, 0 ≤ x ∧ x < 256) (l : Libs) (w : NpzFile)
    (hw : shortIds l.uni w) (fl : FloatActs) (noise : Nat → Nat → Nat → Nat → Nat → Noise)
    (hu : ∀ g < 98, exactUnit (coreParamsWith mnistBuilt fl).unit (mnistWeights (weightsIn l.uni mnistBuilt w 0) g)
      (mnistErrors (fun t k i => errorsOf (noise t k i)) g)) (u : Nat → Nat → Nat → ℚ) {ρ : ℚ} (hρ0 : 0 ≤ ρ)
    (hρ : ∀ g < 98, ∀ r < 128, ∀ c < 128,
      |roundedWeight 8 (mnistWeights (weightsIn l.uni mnistBuilt w 0) g r c) - u g r c| ≤ ρ) (norm inputs : Nat → ℚ)
    (hb : networkBounds (saturatedTo 16 8) (mnistWeights (weightsIn l.uni mnistBuilt w 0)) u xs norm inputs) :
    ∃ n, (simulator l mnistBuilt js w act).nodes[0]? = some n ∧
      ∀ cfg as s, sameMachine (mnistBuilt.sysCfg fl noise) cfg → (n.start mnistBuilt).run cfg as = some s →
        finished cfg s → ∀ r < 10,
        |(wordsOf (s.tile 1).ctrl.mem r : ℚ) / 256 - exactOutput (saturatedTo 16 8) u xs r| ≤ outputError norm inputs ρ := by
  obtain ⟨n, hn, -, h⟩ := C89_mnist js hj act xs ha hx (fun x hx => by
    obtain ⟨h0, h1⟩ := hr x hx
    unfold inRange
    constructor <;> linarith) l w hw fl noise
  refine ⟨n, hn, fun cfg as s hm hs hf r hr10 => ?_⟩
  have h1 := congrArg (fun l => l.getD r 0) (h cfg as s hm hs hf)
  have h2 : (wordsAt (wordsOf (s.tile 1).ctrl.mem) 0 10).getD r 0 = wordsOf (s.tile 1).ctrl.mem r := by
    unfold wordsAt
    rw [List.getD_eq_getElem?_getD, List.getElem?_map, List.getElem?_range hr10]
    simp
  rw [h2] at h1
  rw [h1]
  exact perceptron_near (mnist_like fl) hx hr hu hρ0 hρ hb r hr10

/-- C91: a complete run of the example, with any schedule and any latencies, for weights and noise for which the units are
exact, ends with outputs in words 0 to 9 of the DRAM of tile 1 that differ from the outputs of the network with the weights
of the file, in rational numbers, by at most `outputError`. -/
theorem C91_accuracy (js : List Json) (hj : writes js mnistFile) (act : Activation) (xs : List ℚ)
    (ha : act = .array xs ∨ act = .file 1 xs) (hx : xs.length = 784) (hr : ∀ x ∈ xs, 0 ≤ x ∧ x < 256) (l : Libs) (w : NpzFile)
    (hw : shortIds l.uni w) (fl : FloatActs) (noise : Nat → Nat → Nat → Nat → Nat → Noise)
    (hu : ∀ g < 98, exactUnit (coreParamsWith mnistBuilt fl).unit (mnistWeights (weightsIn l.uni mnistBuilt w 0) g)
      (mnistErrors (fun t k i => errorsOf (noise t k i)) g)) (norm inputs : Nat → ℚ)
    (hb : networkBounds (saturatedTo 16 8) (mnistWeights (weightsIn l.uni mnistBuilt w 0))
      (mnistWeights (weightsIn l.uni mnistBuilt w 0)) xs norm inputs) :
    ∃ n, (simulator l mnistBuilt js w act).nodes[0]? = some n ∧
      ∀ cfg as s, sameMachine (mnistBuilt.sysCfg fl noise) cfg → (n.start mnistBuilt).run cfg as = some s →
        finished cfg s → ∀ r < 10,
        |(wordsOf (s.tile 1).ctrl.mem r : ℚ) / 256
          - exactOutput (saturatedTo 16 8) (mnistWeights (weightsIn l.uni mnistBuilt w 0)) xs r|
          ≤ outputError norm inputs (1 / 512) :=
  mnist_close js hj act xs ha hx hr l w hw fl noise hu _ (by norm_num)
    (fun g _ r _ c _ => (rounded_close 8 _).trans (by norm_num)) norm inputs hb

/-- C91: against the network with the weights rounded to multiples of 1/256, only the rounding of the pixels and of the
sums is left. -/
theorem C91_rounded (js : List Json) (hj : writes js mnistFile) (act : Activation) (xs : List ℚ)
    (ha : act = .array xs ∨ act = .file 1 xs) (hx : xs.length = 784) (hr : ∀ x ∈ xs, 0 ≤ x ∧ x < 256) (l : Libs) (w : NpzFile)
    (hw : shortIds l.uni w) (fl : FloatActs) (noise : Nat → Nat → Nat → Nat → Nat → Noise)
    (hu : ∀ g < 98, exactUnit (coreParamsWith mnistBuilt fl).unit (mnistWeights (weightsIn l.uni mnistBuilt w 0) g)
      (mnistErrors (fun t k i => errorsOf (noise t k i)) g)) (norm inputs : Nat → ℚ)
    (hb : networkBounds (saturatedTo 16 8) (mnistWeights (weightsIn l.uni mnistBuilt w 0))
      (fun g r c => roundedWeight 8 (mnistWeights (weightsIn l.uni mnistBuilt w 0) g r c)) xs norm inputs) :
    ∃ n, (simulator l mnistBuilt js w act).nodes[0]? = some n ∧
      ∀ cfg as s, sameMachine (mnistBuilt.sysCfg fl noise) cfg → (n.start mnistBuilt).run cfg as = some s →
        finished cfg s → ∀ r < 10,
        |(wordsOf (s.tile 1).ctrl.mem r : ℚ) / 256 - exactOutput (saturatedTo 16 8)
          (fun g r c => roundedWeight 8 (mnistWeights (weightsIn l.uni mnistBuilt w 0) g r c)) xs r|
          ≤ outputError norm (fun _ => 0) 0 := by
  have e1 : outputError norm (fun _ => 0) 0 = outputError norm inputs 0 := by simp [outputError, layerError]
  rw [e1]
  exact mnist_close js hj act xs ha hx hr l w hw fl noise hu _ le_rfl (fun g _ r _ c _ => by simp) norm inputs hb

/-- C91: if output `m` of the network in rational numbers is larger than the others by more than twice the error, then
output `m` of the simulation is the largest, the class that tests/test_mlp_on_mnist_multi.py:44-47 reads off. -/
theorem C91_class (js : List Json) (hj : writes js mnistFile) (act : Activation) (xs : List ℚ)
    (ha : act = .array xs ∨ act = .file 1 xs) (hx : xs.length = 784) (hr : ∀ x ∈ xs, 0 ≤ x ∧ x < 256) (l : Libs) (w : NpzFile)
    (hw : shortIds l.uni w) (fl : FloatActs) (noise : Nat → Nat → Nat → Nat → Nat → Noise)
    (hu : ∀ g < 98, exactUnit (coreParamsWith mnistBuilt fl).unit (mnistWeights (weightsIn l.uni mnistBuilt w 0) g)
      (mnistErrors (fun t k i => errorsOf (noise t k i)) g)) (norm inputs : Nat → ℚ)
    (hb : networkBounds (saturatedTo 16 8) (mnistWeights (weightsIn l.uni mnistBuilt w 0))
      (mnistWeights (weightsIn l.uni mnistBuilt w 0)) xs norm inputs) (m : Nat) (hm : m < 10)
    (hgap : ∀ r < 10, r ≠ m → exactOutput (saturatedTo 16 8) (mnistWeights (weightsIn l.uni mnistBuilt w 0)) xs r
        + 2 * outputError norm inputs (1 / 512)
      < exactOutput (saturatedTo 16 8) (mnistWeights (weightsIn l.uni mnistBuilt w 0)) xs m) :
    ∃ n, (simulator l mnistBuilt js w act).nodes[0]? = some n ∧
      ∀ cfg as s, sameMachine (mnistBuilt.sysCfg fl noise) cfg → (n.start mnistBuilt).run cfg as = some s →
        finished cfg s → ∀ r < 10, r ≠ m →
        wordsOf (s.tile 1).ctrl.mem r < wordsOf (s.tile 1).ctrl.mem m := by
  obtain ⟨n, hn, h⟩ := C91_accuracy js hj act xs ha hx hr l w hw fl noise hu norm inputs hb
  refine ⟨n, hn, fun cfg as s h1 h2 h3 r hr10 hne => ?_⟩
  have a := abs_le.1 (h cfg as s h1 h2 h3 r hr10)
  have b := abs_le.1 (h cfg as s h1 h2 h3 m hm)
  have c := hgap r hr10 hne
  have d : (wordsOf (s.tile 1).ctrl.mem r : ℚ) < (wordsOf (s.tile 1).ctrl.mem m : ℚ) := by linarith [a.2, b.1]
  exact_mod_cast d

/-! ## A network for which the hypotheses hold

In every layer one weight, 1/2, from the first input to the first output; the first pixel is 200. -/

def spot : List (List ℚ) := (List.range 128).map fun r => (List.range 128).map fun c => if r = 0 ∧ c = 0 then 1 / 2 else 0

def spotKey (t k m : Nat) : String :=
  "node" ++ toString 0 ++ "_tile" ++ toString t ++ "_core" ++ toString k ++ "_mvmu" ++ toString m

def spotFile : NpzFile := .arrays [(spotKey 2 0 0, .matrix spot), (spotKey 3 1 2, .matrix spot),
  (spotKey 3 6 4, .matrix spot), (spotKey 4 0 0, .matrix spot)]

def spotWeights (g r c : Nat) : ℚ := if (g = 0 ∨ g = 56 ∨ g = 88 ∨ g = 96) ∧ r = 0 ∧ c = 0 then 1 / 2 else 0

def spotImage : List ℚ := 200 :: List.replicate 783 0

theorem spot_short (uni : Char → Option Nat) : shortIds uni spotFile := by
  intro e he a b c d l hk
  refine (isWeightKey_length _ _ _ _ _ _ _ hk).trans ?_
  have h : ∀ e ∈ [spotKey 2 0 0, spotKey 3 1 2, spotKey 3 6 4, spotKey 4 0 0], e.toList.length ≤ 4300 := by decide +kernel
  refine h _ ?_
  have : e.1 ∈ (arraysIn spotFile).map Prod.fst := List.mem_map_of_mem he
  exact this

theorem spotKey_iff (uni : Char → Option Nat) (t k m t' k' m' : Nat) (ht : t < 10) (hk : k < 10) (hm : m < 10)
    (hlen : (spotKey t k m).toList.length ≤ 4300) :
    (∃ l, isWeightKey uni (spotKey t k m) 0 t' k' m' l) ↔ t = t' ∧ k = k' ∧ m = m' := by
  obtain ⟨l, hl, hle⟩ := C52_round_trip uni 0 t k m
  have h1 := hle 1 (by norm_num) (by norm_num) (by omega) (by omega) (by omega)
  constructor
  · rintro ⟨l', hl'⟩
    have h2 := (isWeightKey_length _ _ _ _ _ _ _ hl').trans hlen
    have := key_unique uni _ 0 t k m l 0 t' k' m' l' (h1.trans (by decide)) h2 hl hl'
    exact this.2
  · rintro ⟨rfl, rfl, rfl⟩
    exact ⟨l, hl⟩

theorem spot_square : squareOf mnistBuilt.mvmuConfig.xbarSize (.matrix spot) = some spot := by
  have h : mnistBuilt.mvmuConfig.xbarSize = 128 := by decide +kernel
  rw [h]
  have key : spot.length = 128 ∧ ∀ row ∈ spot, row.length = 128 := ?_
  · simp only [squareOf]
    exact if_pos key
  unfold spot
  refine ⟨by simp, fun row hrow => ?_⟩
  obtain ⟨r, -, rfl⟩ := List.mem_map.1 hrow
  simp

theorem spot_getD (r c : Nat) : (spot.getD r []).getD c 0 = if r = 0 ∧ c = 0 then 1 / 2 else 0 := by
  unfold spot
  simp only [List.getD_eq_getElem?_getD, List.getElem?_map]
  by_cases hr : r < 128
  · rw [List.getElem?_range hr]
    simp only [Option.map_some, Option.getD_some, List.getElem?_map]
    by_cases hc : c < 128
    · rw [List.getElem?_range hc]; rfl
    · rw [List.getElem?_eq_none (l := List.range 128) (i := c) (by simpa using hc), if_neg (by omega)]; rfl
  · rw [List.getElem?_eq_none (l := List.range 128) (i := r) (by simpa using hr), if_neg (by omega)]; rfl

theorem spot_weights (uni : Char → Option Nat) (t k m : Nat) : weightsIn uni mnistBuilt spotFile 0 t k m = fun r c =>
    if ((t = 2 ∧ k = 0 ∧ m = 0) ∨ (t = 3 ∧ k = 1 ∧ m = 2) ∨ (t = 3 ∧ k = 6 ∧ m = 4) ∨ (t = 4 ∧ k = 0 ∧ m = 0)) ∧ r = 0 ∧ c = 0
    then 1 / 2 else 0 := by
  have key : ∀ (L : List (Nat × Nat × Nat)), (∀ e ∈ L, e.1 < 10 ∧ e.2.1 < 10 ∧ e.2.2 < 10 ∧
      (spotKey e.1 e.2.1 e.2.2).toList.length ≤ 4300) →
      arraysFor uni 0 t k m (L.map fun e => (spotKey e.1 e.2.1 e.2.2, .matrix spot))
        = (L.filter (fun e => decide (e = (t, k, m)))).map fun _ => .matrix spot := by
    intro L hL
    induction L with
    | nil => simp [arraysFor]
    | cons e L ih =>
      obtain ⟨h1, h2, h3, h4⟩ := hL e (by simp)
      have ih := ih fun e he => hL e (by simp [he])
      have hiff := spotKey_iff uni e.1 e.2.1 e.2.2 t k m h1 h2 h3 h4
      rw [List.map_cons, List.filter_cons]
      by_cases he : e = (t, k, m)
      · rw [arraysFor_pos _ _ _ _ _ _ _ _ (hiff.2 (by rw [he]; exact ⟨rfl, rfl, rfl⟩)), ih]
        simp [he]
      · rw [arraysFor_neg _ _ _ _ _ _ _ _ (fun h => he (by
          obtain ⟨a, b, c⟩ := hiff.1 h
          rw [← a, ← b, ← c])), ih]
        simp [he]
  have h1 := key [(2, 0, 0), (3, 1, 2), (3, 6, 4), (4, 0, 0)] (by decide +kernel)
  have h2 : arraysIn spotFile = [(2, 0, 0), (3, 1, 2), (3, 6, 4), (4, 0, 0)].map
      fun e : Nat × Nat × Nat => (spotKey e.1 e.2.1 e.2.2, NpzArray.matrix spot) := rfl
  unfold weightsIn matricesIn
  rw [h2, h1]
  have h3 : ∀ n, (List.replicate n (NpzArray.matrix spot)).filterMap (squareOf mnistBuilt.mvmuConfig.xbarSize)
      = List.replicate n spot := by
    intro n
    induction n with
    | zero => rfl
    | succ n ih => rw [List.replicate_succ, List.filterMap_cons, spot_square, ih]; rfl
  rw [List.map_const', h3]
  by_cases hc : (t = 2 ∧ k = 0 ∧ m = 0) ∨ (t = 3 ∧ k = 1 ∧ m = 2) ∨ (t = 3 ∧ k = 6 ∧ m = 4) ∨ (t = 4 ∧ k = 0 ∧ m = 0)
  · have : ∃ n, ([(2, 0, 0), (3, 1, 2), (3, 6, 4), (4, 0, 0)].filter (fun e : Nat × Nat × Nat => decide (e = (t, k, m)))).length = n + 1 := by
      rcases hc with ⟨rfl, rfl, rfl⟩ | ⟨rfl, rfl, rfl⟩ | ⟨rfl, rfl, rfl⟩ | ⟨rfl, rfl, rfl⟩ <;> exact ⟨0, by decide⟩
    obtain ⟨n, hn⟩ := this
    rw [hn]
    have : (List.replicate (n + 1) spot).getLast? = some spot := by
      rw [List.getLast?_replicate]; simp
    rw [this]
    funext r c
    simp only [spot_getD, hc, true_and]
  · have : ([(2, 0, 0), (3, 1, 2), (3, 6, 4), (4, 0, 0)].filter (fun e : Nat × Nat × Nat => decide (e = (t, k, m)))) = [] := by
      rw [List.filter_eq_nil_iff]
      intro e he
      simp only [List.mem_cons, List.not_mem_nil, or_false] at he
      rw [decide_eq_true_iff]
      rintro rfl
      simp only [Prod.mk.injEq] at he
      exact hc (by omega)
    rw [this]
    funext r c
    simp [hc]

theorem spot_mnist (uni : Char → Option Nat) : mnistWeights (weightsIn uni mnistBuilt spotFile 0) = spotWeights := by
  funext g r c
  unfold mnistWeights spotWeights
  rw [spot_weights]
  have : ((2 + g / 48 = 2 ∧ g / 6 % 8 = 0 ∧ g % 6 = 0) ∨ (2 + g / 48 = 3 ∧ g / 6 % 8 = 1 ∧ g % 6 = 2) ∨
      (2 + g / 48 = 3 ∧ g / 6 % 8 = 6 ∧ g % 6 = 4) ∨ (2 + g / 48 = 4 ∧ g / 6 % 8 = 0 ∧ g % 6 = 0)) ↔
      (g = 0 ∨ g = 56 ∨ g = 88 ∨ g = 96) := by omega
  simp only [this]

theorem sum_spot (n : Nat) (v : ℚ) : ∑ c ∈ Finset.range (n + 1), (if c = 0 then v else 0) = v := by
  rw [Finset.sum_range_succ']
  simp

theorem sum_spot₂ (b n : Nat) (v : ℚ) (f : Nat → Nat → ℚ) (hf : ∀ i, ∀ c < n + 1, f i c = if i = 0 ∧ c = 0 then v else 0) :
    ∑ i ∈ Finset.range (b + 1), ∑ c ∈ Finset.range (n + 1), f i c = v := by
  have : ∀ i ∈ Finset.range (b + 1), ∑ c ∈ Finset.range (n + 1), f i c = if i = 0 then v else 0 := by
    intro i _
    by_cases h : i = 0
    · rw [if_pos h, ← sum_spot n v]
      exact Finset.sum_congr rfl fun c hc => by rw [hf _ _ (Finset.mem_range.1 hc)]; simp [h]
    · rw [if_neg h]
      exact Finset.sum_eq_zero fun c hc => by rw [hf _ _ (Finset.mem_range.1 hc)]; simp [h]
  rw [Finset.sum_congr rfl this, sum_spot]

theorem satSum_spot (sat : ℚ → ℚ) (v : ℚ) (hv : sat v = v) (n : Nat) : satSum sat (v :: List.replicate n 0) = v := by
  show (List.replicate n 0).foldl (fun acc y => sat (y + acc)) v = v
  induction n with
  | zero => rfl
  | succ n ih => rw [List.replicate_succ, List.foldl_cons, zero_add, hv, ih]

theorem sat_id (v : ℚ) (h0 : 0 ≤ v) (h1 : v < 255) : saturatedTo 16 8 v = v := by
  unfold saturatedTo
  rw [min_eq_left (by norm_num; linarith), max_eq_right (by norm_num; linarith)]

/-- A layer halves the first input. -/
theorem spot_layer {first b n : Nat} {sizes : List Nat} (hs : sizes.getD 0 0 = n + 1)
    (hf : first = 0 ∨ first = 56 ∨ first = 88 ∨ first = 96)
    (hne : ∀ j < sizes.length, ∀ i < b + 1, first + j * (b + 1) + i ≠ first → ¬ (first + j * (b + 1) + i = 0 ∨
      first + j * (b + 1) + i = 56 ∨ first + j * (b + 1) + i = 88 ∨ first + j * (b + 1) + i = 96))
    {x : Nat → Nat → ℚ} {v : ℚ} (h0 : 0 ≤ v) (h1 : v < 255) (hx : ∀ i, ∀ c < 128, x i c = if i = 0 ∧ c = 0 then v else 0) (j r : Nat) :
    exactLayer (saturatedTo 16 8) 128 spotWeights first (b + 1) sizes x j r = if j = 0 ∧ r = 0 then v / 2 else 0 := by
  unfold exactLayer
  by_cases hr : r < sizes.getD j 0
  · rw [if_pos hr]
    have hj : j < sizes.length := by
      by_contra h
      rw [List.getD_eq_getElem?_getD, List.getElem?_eq_none (by omega)] at hr
      simp at hr
    have hprod : ∀ i < b + 1, ∑ c ∈ Finset.range 128, spotWeights (first + j * (b + 1) + i) r c * x i c
        = if i = 0 then (if j = 0 ∧ r = 0 then v / 2 else 0) else 0 := by
      intro i hi
      by_cases hi0 : i = 0
      · subst hi0
        rw [if_pos rfl, ← sum_spot 127 (if j = 0 ∧ r = 0 then v / 2 else 0)]
        refine Finset.sum_congr rfl fun c hc => ?_
        rw [hx _ _ (Finset.mem_range.1 hc)]
        unfold spotWeights
        by_cases hc : c = 0
        · by_cases hj0 : j = 0
          · subst hj0
            simp only [Nat.zero_mul, Nat.add_zero, hf, hc, true_and, and_true, if_true]
            by_cases hr0 : r = 0
            · rw [if_pos hr0, if_pos hr0]; ring
            · rw [if_neg hr0, if_neg hr0]; ring
          · have hne' := hne j hj 0 hi (by
              have : 0 < j * (b + 1) := Nat.mul_pos (Nat.pos_of_ne_zero hj0) (by omega)
              omega)
            rw [if_neg (fun h => hne' h.1)]
            simp [hj0]
        · simp [hc]
      · rw [if_neg hi0]
        exact Finset.sum_eq_zero fun c hc => by rw [hx _ _ (Finset.mem_range.1 hc)]; simp [hi0]
    have hl : ((List.range (b + 1)).map fun i => ∑ c ∈ Finset.range 128, spotWeights (first + j * (b + 1) + i) r c * x i c)
        = (if j = 0 ∧ r = 0 then v / 2 else 0) :: List.replicate b 0 := by
      rw [List.map_congr_left (g := fun i => if i = 0 then (if j = 0 ∧ r = 0 then v / 2 else 0) else 0)
        (fun i hi => hprod i (List.mem_range.1 hi)), List.range_succ_eq_map, List.map_cons, List.map_map]
      congr 1
      rw [List.eq_replicate_iff]
      refine ⟨by simp, fun y hy => ?_⟩
      obtain ⟨i, -, rfl⟩ := List.mem_map.1 hy
      simp
    rw [hl, satSum_spot]
    split
    · exact sat_id _ (by linarith) (by linarith)
    · exact sat_id _ le_rfl (by norm_num)
  · rw [if_neg hr, if_neg]
    rintro ⟨rfl, rfl⟩
    omega

theorem spot_relu {x : Nat → Nat → ℚ} {v : ℚ} (h0 : 0 ≤ v) (h1 : v < 255) (hx : ∀ i, ∀ c < 128, x i c = if i = 0 ∧ c = 0 then v else 0)
    (i c : Nat) (hc : c < 128) : exactRelu (saturatedTo 16 8) x i c = if i = 0 ∧ c = 0 then v else 0 := by
  unfold exactRelu
  rw [hx i c hc]
  split
  · rw [max_eq_right h0, sat_id v h0 h1]
  · rw [max_self, sat_id 0 le_rfl (by norm_num)]

theorem spot_input (i c : Nat) (hc : c < 128) : exactInput spotImage i c = if i = 0 ∧ c = 0 then 200 else 0 := by
  unfold exactInput spotImage
  by_cases h : i = 0 ∧ c = 0
  · rw [if_pos h, h.1, h.2]; rfl
  · rw [if_neg h]
    obtain ⟨k, hk⟩ : ∃ k, 128 * i + c = k + 1 := ⟨128 * i + c - 1, by omega⟩
    rw [hk, List.getD_cons_succ, List.getD_eq_getElem?_getD, List.getElem?_replicate]
    split <;> rfl

theorem spot_hidden₁ (i c : Nat) (hc : c < 128) :
    exactHidden₁ (saturatedTo 16 8) spotWeights spotImage i c = if i = 0 ∧ c = 0 then 100 else 0 :=
  spot_relu (by norm_num) (by norm_num) (fun i c _ => by
    rw [spot_layer (b := 6) (n := 127) (v := 200) rfl (by omega) (by
      intro j hj i hi h
      rw [List.length_replicate] at hj
      omega) (by norm_num) (by norm_num) spot_input]
    norm_num) i c hc

theorem spot_hidden₂ (i c : Nat) (hc : c < 128) :
    exactHidden₂ (saturatedTo 16 8) spotWeights spotImage i c = if i = 0 ∧ c = 0 then 50 else 0 :=
  spot_relu (by norm_num) (by norm_num) (fun i c _ => by
    rw [spot_layer (b := 7) (n := 127) (v := 100) rfl (by omega) (by
      intro j hj i hi h
      rw [List.length_replicate] at hj
      omega) (by norm_num) (by norm_num) spot_hidden₁]
    norm_num) i c hc

theorem spot_hidden₃ (i c : Nat) (hc : c < 128) :
    exactHidden₃ (saturatedTo 16 8) spotWeights spotImage i c = if i = 0 ∧ c = 0 then 25 else 0 :=
  spot_relu (by norm_num) (by norm_num) (fun i c _ => by
    rw [spot_layer (b := 3) (n := 127) (v := 50) rfl (by omega) (by
      intro j hj i hi h
      have : j < 2 := hj
      omega) (by norm_num) (by norm_num) spot_hidden₂]
    norm_num) i c hc

theorem spot_output (r : Nat) :
    exactOutput (saturatedTo 16 8) spotWeights spotImage r = if r = 0 then 25 / 2 else 0 := by
  unfold exactOutput
  rw [spot_layer (b := 1) (n := 9) (v := 25) rfl (by omega) (by
      intro j hj i hi h
      have : j < 1 := hj
      omega) (by norm_num) (by norm_num) spot_hidden₃]
  simp

theorem spot_rounded (g r c : Nat) : roundedWeight 8 (spotWeights g r c) = spotWeights g r c := by
  unfold spotWeights
  split
  · unfold roundedWeight
    rw [show fixedWeight 8 (1 / 2) = 128 by decide +kernel]
    norm_num
  · unfold roundedWeight
    rw [show fixedWeight 8 0 = 0 by decide +kernel]
    norm_num

theorem spot_norm (first b : Nat) (r : Nat) : ∑ i ∈ Finset.range b, ∑ c ∈ Finset.range 128,
    |roundedWeight 8 (spotWeights (first + i) r c)| ≤ ∑ i ∈ Finset.range b, if first + i = 0 ∨ first + i = 56 ∨ first + i = 88 ∨
      first + i = 96 then (1 / 2 : ℚ) else 0 := by
  refine Finset.sum_le_sum fun i _ => ?_
  have : ∀ c ∈ Finset.range 128, |roundedWeight 8 (spotWeights (first + i) r c)| ≤ if c = 0 then
      (if first + i = 0 ∨ first + i = 56 ∨ first + i = 88 ∨ first + i = 96 then (1 / 2 : ℚ) else 0) else 0 := by
    intro c _
    rw [spot_rounded]
    unfold spotWeights
    generalize first + i = g
    by_cases h1 : g = 0 ∨ g = 56 ∨ g = 88 ∨ g = 96
    · rw [if_pos h1]
      by_cases h2 : c = 0
      · rw [if_pos h2]
        split <;> norm_num
      · rw [if_neg fun h => h2 h.2.2, if_neg h2, abs_zero]
    · rw [if_neg fun h => h1 h.1, if_neg h1, abs_zero, ite_self]
  exact (Finset.sum_le_sum this).trans (sum_spot 127 _).le

theorem spot_bounds : networkBounds (saturatedTo 16 8) spotWeights spotWeights spotImage (fun _ => 1 / 2) (fun l => 400 / 2 ^ l) where
  norm₁ := fun j hj r _ => (spot_norm _ _ r).trans (by
    revert j; decide +kernel)
  norm₂ := fun j hj r _ => (spot_norm _ _ r).trans (by
    revert j; decide +kernel)
  norm₃ := fun j hj r _ => (spot_norm _ _ r).trans (by
    revert j; decide +kernel)
  norm₄ := fun r _ => (spot_norm _ _ r).trans (by decide +kernel)
  inputs₁ := by
    rw [sum_spot₂ 6 127 200 _ fun i c hc => by rw [spot_input i c hc]; split <;> norm_num]
    norm_num
  inputs₂ := by
    rw [sum_spot₂ 7 127 100 _ fun i c hc => by rw [spot_hidden₁ i c hc]; split <;> norm_num]
    norm_num
  inputs₃ := by
    rw [sum_spot₂ 3 127 50 _ fun i c hc => by rw [spot_hidden₂ i c hc]; split <;> norm_num]
    norm_num
  inputs₄ := by
    rw [sum_spot₂ 1 127 25 _ fun i c hc => by rw [spot_hidden₃ i c hc]; split <;> norm_num]
    norm_num

/-- Errors of 1/1000 of the largest conductance in every cell. -/
def spotNoise : Nat → Nat → Nat → Nat → Nat → Noise := fun _ _ _ _ _ => ⟨fun _ _ _ => 1 / 1000, fun _ _ _ => -1 / 1000⟩

theorem mnist_unit (fl : FloatActs) : (coreParamsWith mnistBuilt fl).unit = (coreParamsOf mnistBuilt id id).unit := rfl

theorem spot_unit (fl : FloatActs) (g : Nat) : exactUnit (coreParamsWith mnistBuilt fl).unit (spotWeights g)
    (mnistErrors (fun t k i => errorsOf (spotNoise t k i)) g) := by
  have hp := mnist_like fl
  have hbits : ∀ k < (coreParamsOf mnistBuilt id id).unit.storage.length,
      level (coreParamsOf mnistBuilt id id).unit.storage 8 (1 / 2) k ≤ 3 ∧
      (coreParamsOf mnistBuilt id id).unit.gmax / (2 ^ bitsOf (coreParamsOf mnistBuilt id id).unit.storage k - 1) / 2 = 1 / 6 := by
    decide +kernel
  have hadc : 3 < 2 ^ (coreParamsOf mnistBuilt id id).unit.adcBits := by decide +kernel
  constructor
  · intro r _ j _
    rw [hp.storage, hp.frac]
    unfold spotWeights
    split
    · decide +kernel
    · decide +kernel
  · intro r _ k hk _
    rw [hp.size, hp.frac]
    rw [mnist_unit] at hk ⊢
    constructor
    · refine lt_of_le_of_lt (Finset.sum_le_sum (g := fun j => if j = 0 then 3 else 0) fun j _ => ?_) ?_
      · unfold spotWeights
        by_cases hc : (g = 0 ∨ g = 56 ∨ g = 88 ∨ g = 96) ∧ r = 0 ∧ j = 0
        · rw [if_pos hc, if_pos (by norm_num), if_pos hc.2.2]
          exact (hbits k hk).1
        · rw [if_neg hc, if_neg (lt_irrefl _)]
          exact Nat.zero_le _
      · refine lt_of_eq_of_lt ?_ hadc
        decide +kernel
    · refine lt_of_eq_of_lt (Finset.sum_eq_zero fun j _ => ?_) (Nat.two_pow_pos _)
      rw [if_neg]
      unfold spotWeights
      split <;> norm_num
  · intro _ err herr i r _ k hk _
    rw [hp.size]
    rw [mnist_unit] at hk ⊢
    rw [(hbits k hk).2]
    simp only [List.mem_cons, List.not_mem_nil, or_false] at herr
    rcases herr with rfl | rfl
    · show ∑ j ∈ Finset.range 128, |(1 / 1000 : ℚ)| < 1 / 6
      rw [Finset.sum_const, Finset.card_range, nsmul_eq_mul, abs_of_pos (by norm_num)]
      norm_num
    · show ∑ j ∈ Finset.range 128, |(-1 / 1000 : ℚ)| < 1 / 6
      rw [Finset.sum_const, Finset.card_range, nsmul_eq_mul, abs_of_neg (by norm_num)]
      norm_num

theorem spot_error : outputError (fun _ => 1 / 2) (fun l => 400 / 2 ^ l) (1 / 512) < 1 / 2 := by
  unfold outputError layerError
  norm_num

theorem spot_image : spotImage.length = 784 ∧ ∀ x ∈ spotImage, (0 : ℚ) ≤ x ∧ x < 256 := by
  unfold spotImage
  refine ⟨by rw [List.length_cons, List.length_replicate], fun x hx => ?_⟩
  rcases List.mem_cons.1 hx with rfl | hx
  · norm_num
  · rw [List.eq_of_mem_replicate hx]; norm_num

/-- For this network, image and noise the simulation finds class 0. -/
theorem spot_class (js : List Json) (hj : writes js mnistFile) (fl : FloatActs) :
    ∃ n, (simulator someLibs mnistBuilt js spotFile (.array spotImage)).nodes[0]? = some n ∧
    ∀ cfg as s, sameMachine (mnistBuilt.sysCfg fl spotNoise) cfg → (n.start mnistBuilt).run cfg as = some s →
      finished cfg s → ∀ r < 10, r ≠ 0 → wordsOf (s.tile 1).ctrl.mem r < wordsOf (s.tile 1).ctrl.mem 0 := by
  refine C91_class js hj (.array spotImage) spotImage (.inl rfl) spot_image.1 spot_image.2
    someLibs spotFile (spot_short _) fl spotNoise (fun g _ => by rw [spot_mnist]; exact spot_unit fl g) (fun _ => 1 / 2)
    (fun l => 400 / 2 ^ l) (by rw [spot_mnist]; exact spot_bounds) 0 (by norm_num) (fun r _ hne => ?_)
  rw [spot_mnist, spot_output, spot_output, if_neg hne, if_pos rfl]
  have := spot_error
  linarith

example (fl : FloatActs) := spot_class _ (writes_fields true mnistFile) fl
example (fl : FloatActs) := C91_accuracy _ (writes_fields true mnistFile) (.array spotImage) spotImage (.inl rfl)
  spot_image.1 spot_image.2 someLibs spotFile (spot_short _) fl spotNoise (fun g _ => by rw [spot_mnist]; exact spot_unit fl g)
  (fun _ => 1 / 2) (fun l => 400 / 2 ^ l) (by rw [spot_mnist]; exact spot_bounds)
example (fl : FloatActs) := C91_rounded _ (writes_fields false mnistFile) (.file 1 spotImage) spotImage (.inr rfl)
  spot_image.1 spot_image.2 someLibs spotFile (spot_short _) fl spotNoise (fun g _ => by rw [spot_mnist]; exact spot_unit fl g)
  (fun _ => 1 / 2) (fun l => 400 / 2 ^ l) (by simp only [spot_mnist, spot_rounded]; exact spot_bounds)

end Ramwich
