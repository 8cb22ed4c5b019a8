import Verif.Spec.Workers
import Verif.Props.ClockCheck
import Verif.Props.Accuracy

/-! # C104: the accuracy that tests/test_mlp_on_mnist_multi.py prints -/
namespace Ramwich

open Spec

theorem shareFrom_spec (samples : List Nat) (per rem : Nat) : ∀ (left i start : Nat),
    (shareFrom samples per rem i start left).length = left ∧
    (shareFrom samples per rem i start left).flatten =
      (samples.drop start).take (per * left + (min rem (i + left) - min rem i)) ∧
    ∀ j b, (shareFrom samples per rem i start left)[j]? = some b →
      b = (samples.drop (start + per * j + (min rem (i + j) - min rem i))).take (per + if i + j < rem then 1 else 0) := by
  intro left
  induction left with
  | zero => intro i start; simp [shareFrom]
  | succ left ih =>
    intro i start
    obtain ⟨h1, h2, h3⟩ := ih (i + 1) (start + (per + if i < rem then 1 else 0))
    refine ⟨?_, ?_, ?_⟩
    · simp [shareFrom, h1]
    · simp only [shareFrom, List.flatten_cons, h2]
      rw [← List.drop_drop, ← List.take_add]
      congr 1
      rw [Nat.mul_succ]
      split <;> omega
    · intro j b hb
      cases j with
      | zero =>
        simp only [shareFrom, List.getElem?_cons_zero, Option.some.injEq] at hb
        rw [← hb]
        simp
      | succ j =>
        simp only [shareFrom, List.getElem?_cons_succ] at hb
        rw [h3 j b hb]
        congr 1
        · rw [show i + 1 + j = i + (j + 1) by omega]
        · congr 1
          rw [Nat.mul_succ]
          split <;> omega

/-- C104: with at least one worker the samples are shared out completely: every worker has a list, the lists one after the
other are `0, …, n - 1` (so every sample is in exactly one list, exactly once), the first `n % workers` lists have
`n / workers + 1` samples and the others `n / workers`. Without workers it raises. -/
theorem C104_shares (n workers : Nat) :
    (workers = 0 → shareSamples n workers = .error .zeroDivisionError) ∧
    (0 < workers → ∃ batches, shareSamples n workers = .ok batches ∧ batches.length = workers ∧
      batches.flatten = List.range n ∧
      ∀ i (h : i < batches.length), batches[i].length = n / workers + if i < n % workers then 1 else 0) := by
  refine ⟨fun h => by simp [shareSamples, h], fun h => ?_⟩
  have hne : workers ≠ 0 := by omega
  obtain ⟨h1, h2, h3⟩ := shareFrom_spec (List.range n) (n / workers) (n % workers) workers 0 0
  have hlt : n % workers < workers := Nat.mod_lt _ h
  have hdiv : n / workers * workers + n % workers = n := by rw [Nat.mul_comm]; exact Nat.div_add_mod n workers
  refine ⟨_, by rw [shareSamples, if_neg hne], h1, ?_, fun i hi => ?_⟩
  · rw [h2, Nat.zero_add, Nat.min_eq_left hlt.le, Nat.min_zero, Nat.sub_zero, hdiv, List.drop_zero]
    exact List.take_of_length_le (by simp)
  · have h4 := h3 i _ (List.getElem?_eq_getElem hi)
    rw [h4, List.length_take, List.length_drop, List.length_range]
    rw [h1] at hi
    have h5 : n / workers * (i + 1) ≤ n / workers * workers := Nat.mul_le_mul_left _ hi
    rw [Nat.mul_succ] at h5
    simp only [Nat.zero_add, Nat.min_zero, Nat.sub_zero]
    apply Nat.min_eq_left
    split <;> omega

example : shareSamples 10 4 = .ok [[0, 1, 2], [3, 4, 5], [6, 7], [8, 9]] := by decide

/-- C104: a worker is without samples exactly if there are fewer samples than workers. (Its result is then reported as failed,
since line 108 divides by the number of its results.) -/
theorem C104_idle (n workers : Nat) (h : 0 < workers) (batches : List (List Nat)) (hb : shareSamples n workers = .ok batches) :
    [] ∈ batches ↔ n < workers := by
  obtain ⟨b, h1, h2, -, h4⟩ := (C104_shares n workers).2 h
  cases hb.symm.trans h1
  have hm : n % workers < workers := Nat.mod_lt _ h
  constructor
  · intro hmem
    obtain ⟨i, hi, he⟩ := List.mem_iff_getElem.1 hmem
    have h5 := h4 i hi
    rw [he, List.length_nil] at h5
    by_contra hc
    have := Nat.div_pos (not_lt.1 hc) h
    omega
  · intro hlt
    have h5 := h4 n (by omega)
    rw [Nat.div_eq_of_lt hlt, Nat.mod_eq_of_lt hlt, if_neg (lt_irrefl n)] at h5
    rw [← List.eq_nil_of_length_eq_zero h5]
    exact List.getElem_mem _

theorem argmaxFrom_spec : ∀ (xs : List ℚ) (best : ℚ) (a i : Nat) (all : List ℚ), i + xs.length = all.length → all.drop i = xs →
    a < i → all.getD a 0 = best → (∀ j < i, all.getD j 0 ≤ best ∧ (j < a → all.getD j 0 < best)) →
    argmaxFrom best a i xs < all.length ∧ ∀ j < all.length, all.getD j 0 ≤ all.getD (argmaxFrom best a i xs) 0 ∧
      (j < argmaxFrom best a i xs → all.getD j 0 < all.getD (argmaxFrom best a i xs) 0) := by
  intro xs
  induction xs with
  | nil =>
    intro best a i all hl _ ha hb hj
    simp only [List.length_nil, Nat.add_zero] at hl
    simp only [argmaxFrom]
    rw [hb]
    exact ⟨by omega, fun j hjl => hj j (by omega)⟩
  | cons x xs ih =>
    intro best a i all hl hd ha hb hj
    simp only [List.length_cons] at hl
    have hx : all.getD i 0 = x := by
      rw [List.getD_eq_getElem?_getD]
      have := congrArg (·[0]?) hd
      simp only [List.getElem?_drop, Nat.add_zero, List.getElem?_cons_zero] at this
      rw [this, Option.getD_some]
    have hd' : all.drop (i + 1) = xs := by
      rw [← List.drop_drop, hd]; rfl
    simp only [argmaxFrom]
    split
    · rename_i hlt
      refine ih x i (i + 1) all (by omega) hd' (by omega) hx fun j hji => ?_
      rcases Nat.lt_succ_iff_lt_or_eq.1 hji with h | rfl
      · have := lt_of_le_of_lt (hj j h).1 hlt
        exact ⟨this.le, fun _ => this⟩
      · exact ⟨hx.le, fun h => absurd h (by omega)⟩
    · rename_i hlt
      refine ih best a (i + 1) all (by omega) hd' (by omega) hb fun j hji => ?_
      rcases Nat.lt_succ_iff_lt_or_eq.1 hji with h | rfl
      · exact hj j h
      · rw [hx]
        exact ⟨not_lt.1 hlt, fun h => absurd h (by omega)⟩

/-- C104: the class is the first position of the largest word, and it raises only without words. -/
theorem C104_class (words : List Int) :
    (words = [] → classOf words = .error .valueError) ∧
    (words ≠ [] → ∃ m, classOf words = .ok m) ∧ ∀ m, classOf words = .ok m ↔ words ≠ [] ∧ isClass words m := by
  have key : ∀ v vs, words = v :: vs → ∃ m, classOf words = .ok m ∧ isClass words m := by
    rintro v vs rfl
    refine ⟨_, rfl, ?_⟩
    have := argmaxFrom_spec (vs.map fun (v : Int) => (v : ℚ) / 256) ((v : ℚ) / 256) 0 1
      ((v :: vs).map fun (v : Int) => (v : ℚ) / 256) (by simp; omega) rfl (by omega) rfl (fun j hj => by
        obtain rfl : j = 0 := by omega
        exact ⟨le_rfl, fun h => absurd h (by omega)⟩)
    have hg : ∀ j, ((v :: vs).map fun (v : Int) => (v : ℚ) / 256).getD j 0 = (((v :: vs).getD j 0 : Int) : ℚ) / 256 := by
      intro j
      simp only [List.getD_eq_getElem?_getD, List.getElem?_map]
      cases (v :: vs)[j]? <;> simp
    rw [List.length_map] at this
    obtain ⟨h1, h2⟩ := this
    refine ⟨h1, fun j hj => ?_⟩
    obtain ⟨h3, h4⟩ := h2 j hj
    rw [hg, hg] at h3 h4
    constructor
    · have : (((v :: vs).getD j 0 : Int) : ℚ) ≤ _ := (div_le_div_iff_of_pos_right (by norm_num)).1 h3
      exact_mod_cast this
    · intro h
      have : (((v :: vs).getD j 0 : Int) : ℚ) < _ := (div_lt_div_iff_of_pos_right (by norm_num)).1 (h4 h)
      exact_mod_cast this
  have uniq : ∀ a b, isClass words a → isClass words b → a = b := by
    rintro a b ⟨ha, ha'⟩ ⟨hb, hb'⟩
    rcases Nat.lt_trichotomy a b with h | h | h
    · have := (hb' a ha).2 h
      have := (ha' b hb).1
      omega
    · exact h
    · have := (ha' b hb).2 h
      have := (hb' a ha).1
      omega
  refine ⟨fun h => by rw [h]; rfl, fun h => ?_, fun m => ⟨fun h => ?_, fun ⟨h, hm⟩ => ?_⟩⟩
  · obtain ⟨v, vs, rfl⟩ := List.exists_cons_of_ne_nil h
    obtain ⟨m, hm, -⟩ := key v vs rfl
    exact ⟨m, hm⟩
  · cases words with
    | nil => cases h
    | cons v vs =>
      obtain ⟨m', h1, h2⟩ := key v vs rfl
      rw [h1] at h
      injection h with h
      subst h
      exact ⟨List.cons_ne_nil _ _, h2⟩
  · obtain ⟨v, vs, rfl⟩ := List.exists_cons_of_ne_nil h
    obtain ⟨m', h1, h2⟩ := key v vs rfl
    rw [h1, uniq _ _ h2 hm]

example : classOf [3, -7, 9, 9, 0] = .ok 2 := by decide +kernel

instance (words : List Int) (m : Nat) : Decidable (isClass words m) := by unfold isClass; infer_instance

/-- The outputs of the network for an image, as the simulator computes them (C89). -/
noncomputable def Spec.mnistAnswer (l : Libs) (w : NpzFile) (fl : FloatActs) (noise : Noises) (xs : List ℚ) : List Int :=
  (coreParamsWith mnistBuilt fl).perceptron (mnistMul (coreParamsWith mnistBuilt fl) (weightsIn l.uni mnistBuilt w 0)
    fun t k i => errorsOf (noise 0 t k i)) (xs.map (fixedPoint 8))

section
variable {js : List Json} (hj : writes js mnistFile) {l : Libs} {w : NpzFile} (hw : shortIds l.uni w) {fl : FloatActs}
  {image : Nat → List ℚ} {label : Nat → Nat} {noise : Nat → Noises}

theorem worker_batch {s0 : Sim} {ids : List Nat} {rs : List Bool} {hist : List Completed} {s : Sim}
    (h : worker l fl s0 image label noise ids rs hist s) : hist ≠ [] → batch l fl s0 hist s := by
  induction h with
  | idle => intro h; exact absurd rfl h
  | first h _ _ => intro _; exact .first h
  | next _ hne hr h' _ _ ih => intro _; exact .next (ih hne) hr h'

include hj hw in
theorem answer_of {hist : List Completed} {s s' : Sim} (hbef : before l fl (programmed l mnistBuilt js w) hist s) {i : Nat}
    (hx : (image i).length = 784) (hr : ∀ x ∈ image i, inRange 8 x) {y : Whole} {out : List Int} {m : Nat}
    (h : returns l s (.array (image i)) fl (noise i) y s') (ho : outputWords s' out) (hm : classOf out = .ok m) :
    isClass (mnistAnswer l w fl (noise i) (image i)) m := by
  obtain ⟨x, h1, h2⟩ := (C97_mnist js hj _ (image i) (.inl rfl) hx hr l w hw fl hist s hbef (noise i)).2 y s' h
  obtain ⟨x', h3, h4⟩ := ho
  cases h1.symm.trans h3
  rw [h2] at h4
  rw [h4] at hm
  exact (((C104_class _).2.2 m).1 hm).2

theorem class_unique {words : List Int} {a b : Nat} (ha : isClass words a) (hb : isClass words b) : a = b := by
  obtain ⟨ha, ha'⟩ := ha
  obtain ⟨hb, hb'⟩ := hb
  rcases Nat.lt_trichotomy a b with h | h | h
  · have := (hb' a ha).2 h
    have := (ha' b hb).1
    omega
  · exact h
  · have := (ha' b hb).2 h
    have := (hb' a ha).1
    omega

include hj hw in
/-- C104: the results of a worker: one for each of its samples, in order, and each depends on its own sample and the noise of its
own run only. -/
theorem C104_worker {ids : List Nat} {rs : List Bool} {hist : List Completed} {s : Sim}
    (h : worker l fl (programmed l mnistBuilt js w) image label noise ids rs hist s)
    (hx : ∀ i ∈ ids, (image i).length = 784 ∧ ∀ x ∈ image i, inRange 8 x) :
    rs = ids.map fun i => decide (isClass (mnistAnswer l w fl (noise i) (image i)) (label i)) := by
  have same : ∀ {i m : Nat}, isClass (mnistAnswer l w fl (noise i) (image i)) m →
      decide (m = label i) = decide (isClass (mnistAnswer l w fl (noise i) (image i)) (label i)) := by
    intro i m hm
    by_cases h : m = label i
    · rw [← h]; simp [hm]
    · rw [decide_eq_false h, decide_eq_false fun h' => h (class_unique hm h')]
  induction h with
  | idle => rfl
  | first h ho hm =>
    obtain ⟨h1, h2⟩ := hx _ (List.mem_singleton_self _)
    rw [same (answer_of hj hw .new h1 h2 h ho hm)]
    rfl
  | next h hne hr h' ho hm ih =>
    obtain ⟨h1, h2⟩ := hx _ (List.mem_append_right _ (List.mem_singleton_self _))
    rw [same (answer_of hj hw (.reset (worker_batch h hne) hr) h1 h2 h' ho hm), List.map_append,
      ih fun i hi => hx i (List.mem_append_left _ hi)]
    rfl

include hj hw in
/-- C104: the accuracy that is printed, for any number of workers, any order in which they end, and any order of the events in
all simulations: the share of the samples whose label is the class of the outputs of the network. -/
theorem C104_accuracy (n workers : Nat) (hn : 0 < n) (hw0 : 0 < workers)
    (hx : ∀ i < n, (image i).length = 784 ∧ ∀ x ∈ image i, inRange 8 x) (all : List Bool)
    (h : evaluated l fl (programmed l mnistBuilt js w) image label noise n workers all) :
    all.length = n ∧
    finalAccuracy all = .ok
      (((List.range n).countP fun i => isClass (mnistAnswer l w fl (noise i) (image i)) (label i) : Nat) / (n : ℚ)) := by
  obtain ⟨batches, results, order, h1, h2, h3, rfl⟩ := h.shares
  obtain ⟨b, e1, -, e2, -⟩ := (C104_shares n workers).2 hw0
  cases h1.symm.trans e1
  have hmem : ∀ b ∈ batches, ∀ i ∈ b, i < n := by
    intro b hb i hi
    have : i ∈ batches.flatten := List.mem_flatten.2 ⟨b, hb, hi⟩
    rw [e2] at this
    exact List.mem_range.1 this
  have key : results.flatten = batches.flatten.map fun i =>
      decide (isClass (mnistAnswer l w fl (noise i) (image i)) (label i)) := by
    clear h1 h3 e1 e2 h
    induction h2 with
    | nil => rfl
    | cons hd _ ih =>
      obtain ⟨hist, s, hd⟩ := hd
      rw [List.flatten_cons, List.flatten_cons, List.map_append, ih fun b hb => hmem b (List.mem_cons_of_mem _ hb),
        C104_worker hj hw hd fun i hi => hx i (hmem _ (List.mem_cons_self ..) i hi)]
  have hp : order.flatten.Perm ((List.range n).map fun i =>
      decide (isClass (mnistAnswer l w fl (noise i) (image i)) (label i))) := by
    rw [← e2, ← key]
    exact h3.flatten
  have hl : order.flatten.length = n := by rw [hp.length_eq]; simp
  refine ⟨hl, ?_⟩
  unfold finalAccuracy
  rw [if_neg (by omega), hp.count_eq, hl, List.count, List.countP_map]
  congr 4
  funext i
  simp [Function.comp]

include hj hw in
/-- C104: so it does not depend on the number of workers, nor on the order of anything. -/
theorem C104_same (n a b : Nat) (hn : 0 < n) (ha : 0 < a) (hb : 0 < b)
    (hx : ∀ i < n, (image i).length = 784 ∧ ∀ x ∈ image i, inRange 8 x) (r r' : List Bool)
    (h : evaluated l fl (programmed l mnistBuilt js w) image label noise n a r)
    (h' : evaluated l fl (programmed l mnistBuilt js w) image label noise n b r') : finalAccuracy r = finalAccuracy r' := by
  rw [(C104_accuracy hj hw n a hn ha hx r h).2, (C104_accuracy hj hw n b hn hb hx r' h').2]

include hj hw in
theorem worker_exists : ∀ ids : List Nat, (∀ i ∈ ids, (image i).length = 784 ∧ ∀ x ∈ image i, inRange 8 x) →
    ∃ rs hist s, worker l fl (programmed l mnistBuilt js w) image label noise ids rs hist s ∧ (ids ≠ [] → hist ≠ []) := by
  intro ids
  induction ids using List.reverseRecOn with
  | nil => intro _; exact ⟨[], [], _, .idle, fun h => absurd rfl h⟩
  | append_singleton ids i ih =>
    intro hx
    obtain ⟨rs, hist, s, h1, h2⟩ := ih fun i hi => hx i (List.mem_append_left _ hi)
    obtain ⟨hl, hr⟩ := hx i (List.mem_append_right _ (List.mem_singleton_self _))
    have out : ∀ {hist s}, before l fl (programmed l mnistBuilt js w) hist s → ∃ y s' out m,
        returns l s (.array (image i)) fl (noise i) y s' ∧ outputWords s' out ∧ classOf out = .ok m := by
      intro hist s hbef
      obtain ⟨y, s', k1, -⟩ := C100_mnist js hj _ (image i) (.inl rfl) hl l w fl hist s hbef (noise i)
      obtain ⟨x, k2, -⟩ := (C97_mnist js hj _ (image i) (.inl rfl) hl hr l w hw fl hist s hbef (noise i)).2 y s' k1
      obtain ⟨m, hm⟩ := (C104_class (wordsAt (wordsOf x.ctrl.mem) 0 10)).2.1 (fun h => by
        have := congrArg List.length h
        simp [wordsAt] at this)
      exact ⟨y, s', _, m, k1, ⟨x, k2, rfl⟩, hm⟩
    by_cases hids : ids = []
    · subst hids
      obtain ⟨y, s', out, m, k1, k2, k3⟩ := out .new
      exact ⟨_, _, s', .first k1 k2 k3, fun _ => List.cons_ne_nil _ _⟩
    · have hb := worker_batch h1 (h2 hids)
      have hrun : ∀ a < mnistBuilt.numNodes, runnable mnistConfig mnistBuilt a js mnistFile (.array (image i)) (image i) mnistMoves := by
        intro a h
        have h1 : mnistBuilt.numNodes = 1 := by decide +kernel
        obtain rfl : a = 0 := by omega
        exact mnist_runnable hj (.inl rfl) hl
      have h0 : 0 < mnistBuilt.numNodes := by decide +kernel
      obtain ⟨-, s₂, hs⟩ := C97_complete mnist_simulable mnist_build (hrun 0 h0).unit (by decide +kernel) (by decide +kernel)
        (files_halt h0 hrun mnist_halts l w) hist s hb
      obtain ⟨y, s', out, m, k1, k2, k3⟩ := out (.reset hb hs)
      exact ⟨_, _, s', .next h1 (h2 hids) hs k1 k2 k3, fun _ => by simp⟩

include hj hw in
/-- C104: with the shipped latencies every such evaluation can come to its end. -/
theorem C104_possible (n workers : Nat) (hw0 : 0 < workers)
    (hx : ∀ i < n, (image i).length = 784 ∧ ∀ x ∈ image i, inRange 8 x) :
    ∃ all, evaluated l fl (programmed l mnistBuilt js w) image label noise n workers all := by
  obtain ⟨batches, e1, -, e2, -⟩ := (C104_shares n workers).2 hw0
  have hmem : ∀ b ∈ batches, ∀ i ∈ b, i < n := by
    intro b hb i hi
    have : i ∈ batches.flatten := List.mem_flatten.2 ⟨b, hb, hi⟩
    rw [e2] at this
    exact List.mem_range.1 this
  have : ∃ results, List.Forall₂ (fun ids rs => ∃ hist s, worker l fl (programmed l mnistBuilt js w) image label noise ids rs hist s)
      batches results := by
    clear e1 e2
    induction batches with
    | nil => exact ⟨[], .nil⟩
    | cons b bs ih =>
      obtain ⟨rs, h⟩ := ih fun c hc => hmem c (List.mem_cons_of_mem _ hc)
      obtain ⟨r, hist, s, h', -⟩ := worker_exists (label := label) (noise := noise) (fl := fl) hj hw b fun i hi => hx i (hmem b (List.mem_cons_self ..) i hi)
      exact ⟨r :: rs, .cons ⟨hist, s, h'⟩ h⟩
  obtain ⟨results, h⟩ := this
  exact ⟨results.flatten, ⟨⟨batches, results, results, e1, h, List.Perm.refl _, rfl⟩⟩⟩

include hj hw in
/-- C104: where the units are exact and in the network with rational numbers one output exceeds the others by more than twice the
error of C91, the accuracy that is printed is that of the network with rational numbers. -/
theorem C104_reference (n workers : Nat) (hn : 0 < n) (hw0 : 0 < workers)
    (hx : ∀ i < n, (image i).length = 784 ∧ ∀ x ∈ image i, 0 ≤ x ∧ x < 256)
    (hu : ∀ i < n, ∀ g < 98, exactUnit (coreParamsWith mnistBuilt fl).unit (mnistWeights (weightsIn l.uni mnistBuilt w 0) g)
      (mnistErrors (fun t k j => errorsOf (noise i 0 t k j)) g)) (norm inputs : Nat → Nat → ℚ)
    (hb : ∀ i < n, networkBounds (saturatedTo 16 8) (mnistWeights (weightsIn l.uni mnistBuilt w 0))
      (mnistWeights (weightsIn l.uni mnistBuilt w 0)) (image i) (norm i) (inputs i)) (best : Nat → Nat)
    (hbest : ∀ i < n, best i < 10 ∧ ∀ r < 10, r ≠ best i →
      exactOutput (saturatedTo 16 8) (mnistWeights (weightsIn l.uni mnistBuilt w 0)) (image i) r
        + 2 * outputError (norm i) (inputs i) (1 / 512)
      < exactOutput (saturatedTo 16 8) (mnistWeights (weightsIn l.uni mnistBuilt w 0)) (image i) (best i)) (all : List Bool)
    (h : evaluated l fl (programmed l mnistBuilt js w) image label noise n workers all) :
    finalAccuracy all = .ok (((List.range n).countP fun i => best i = label i : Nat) / (n : ℚ)) := by
  have hr : ∀ i < n, (image i).length = 784 ∧ ∀ x ∈ image i, inRange 8 x := fun i hi =>
    ⟨(hx i hi).1, fun x hxm => by
      obtain ⟨h0, h1⟩ := (hx i hi).2 x hxm
      unfold inRange
      constructor <;> linarith⟩
  rw [(C104_accuracy hj hw n workers hn hw0 hr all h).2]
  congr 3
  apply List.countP_congr
  intro i hi
  have hi := List.mem_range.1 hi
  obtain ⟨hm, hgap⟩ := hbest i hi
  have near := fun r hr10 => perceptron_near (mnist_like fl) (hx i hi).1 (hx i hi).2 (hu i hi) (by norm_num : (0 : ℚ) ≤ 1 / 512)
    (fun g _ r _ c _ => (rounded_close 8 _).trans (by norm_num)) (hb i hi) r hr10
  have hlen : (mnistAnswer l w fl (noise i) (image i)).length = 10 := by
    obtain ⟨y, s', k1, -⟩ := C100_mnist js hj _ (image i) (.inl rfl) (hx i hi).1 l w fl [] _ .new (noise i)
    obtain ⟨x, -, k2⟩ := (C97_mnist js hj _ (image i) (.inl rfl) (hx i hi).1 (hr i hi).2 l w hw fl [] _ .new (noise i)).2 y s' k1
    exact (congrArg List.length k2).symm.trans (by simp [wordsAt])
  have hcls : isClass (mnistAnswer l w fl (noise i) (image i)) (best i) := by
    refine ⟨by omega, fun j hj => ?_⟩
    rw [hlen] at hj
    by_cases he : j = best i
    · subst he
      exact ⟨le_rfl, fun h => absurd h (lt_irrefl _)⟩
    · have a := abs_le.1 (near j hj)
      have b := abs_le.1 (near (best i) hm)
      have c := hgap j hj he
      have d : ((mnistAnswer l w fl (noise i) (image i)).getD j 0 : ℚ) < ((mnistAnswer l w fl (noise i) (image i)).getD (best i) 0 : ℚ) := by
        have a2 : ((mnistAnswer l w fl (noise i) (image i)).getD j 0 : ℚ) / 256 - _ ≤ _ := a.2
        have b1 : _ ≤ ((mnistAnswer l w fl (noise i) (image i)).getD (best i) 0 : ℚ) / 256 - _ := b.1
        linarith
      have d : (mnistAnswer l w fl (noise i) (image i)).getD j 0 < (mnistAnswer l w fl (noise i) (image i)).getD (best i) 0 := by
        exact_mod_cast d
      exact ⟨d.le, fun _ => d⟩
  rw [decide_eq_true_iff, decide_eq_true_iff]
  exact ⟨fun h => class_unique hcls h, fun h => h ▸ hcls⟩

end

/-- Five images with a spot (`spotImage`, `spotFile` of C91), three workers; class 0 is found for all of them, and with the labels
0, 1, 2, 3, 4 the accuracy is 1/5. -/
example : ∃ all, evaluated someLibs someActs (programmed someLibs mnistBuilt (mnistFile.map fun p => .obj (fieldsOf true p)) spotFile)
    (fun _ => spotImage) (fun i => i) (fun _ _ => spotNoise) 5 3 all ∧ all.length = 5 ∧ finalAccuracy all = .ok (1 / 5) := by
  have hx : ∀ i : Nat, i < 5 → ((fun _ : Nat => spotImage) i).length = 784 ∧
      ∀ x ∈ (fun _ : Nat => spotImage) i, inRange 8 x := by
    refine fun i _ => ⟨spot_image.1, fun x hx => ?_⟩
    obtain ⟨h0, h1⟩ := spot_image.2 x hx
    unfold inRange
    constructor <;> linarith
  obtain ⟨all, h⟩ := C104_possible (fl := someActs) (label := fun i => i) (noise := fun _ _ => spotNoise)
    (writes_fields true mnistFile) (spot_short someLibs.uni) 5 3 (by decide) hx
  refine ⟨all, h, (C104_accuracy (writes_fields true mnistFile) (spot_short _) 5 3 (by decide) (by decide) hx all h).1, ?_⟩
  rw [C104_reference (writes_fields true mnistFile) (spot_short _) 5 3 (by decide) (by decide) (fun _ _ => spot_image)
    (fun _ _ g _ => by rw [spot_mnist]; exact spot_unit someActs g) (fun _ _ => 1 / 2) (fun _ l => 400 / 2 ^ l)
    (fun _ _ => by rw [spot_mnist]; exact spot_bounds) (fun _ => 0) (fun i _ => ⟨by norm_num, fun r _ hne => by
      rw [spot_mnist, spot_output, spot_output, if_neg hne, if_pos rfl]
      have := spot_error
      linarith⟩) all h]
  have : ((List.range 5).countP fun i => decide (0 = i)) = 1 := by decide
  rw [this]
  norm_num

end Ramwich
