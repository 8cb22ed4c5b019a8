import Verif.Spec.Collect
import Verif.Props.Workers

/-! # Failing workers and progress (C114) -/
namespace Ramwich

open Spec

theorem progressFrom_mem (total : Nat) (k : Nat) (a : ℚ) : ∀ (rs done : List Bool) (i : Nat), done.length = i →
    i + rs.length = total → ((k, a) ∈ progressFrom total i done rs ↔
      i < k ∧ k ≤ total ∧ (k = 1 ∨ 10 ∣ k ∨ k = total) ∧ a = (((done ++ rs).take k).count true : ℚ) / k) := by
  intro rs
  induction rs with
  | nil =>
    intro done i hi ht
    rw [progressFrom]
    constructor
    · intro h; cases h
    · rintro ⟨h1, h2, -⟩
      rw [List.length_nil] at ht
      omega
  | cons r rs ih =>
    intro done i hi ht
    rw [List.length_cons] at ht
    rw [progressFrom, List.mem_append, ih (done ++ [r]) (i + 1) (by simp [hi]) (by omega), List.append_assoc, List.singleton_append]
    have hhere : (done ++ r :: rs).take (i + 1) = done ++ [r] := by
      rw [List.take_append, List.take_of_length_le (by omega), hi, Nat.add_sub_cancel_left]
      rfl
    constructor
    · rintro (h | ⟨h1, h2⟩)
      · split at h
        · rename_i hc
          rw [List.mem_singleton, Prod.mk.injEq] at h
          obtain ⟨rfl, rfl⟩ := h
          refine ⟨by omega, by omega, ?_, by rw [hhere]⟩
          rcases hc with h | h | h
          · exact .inr (.inl (Nat.dvd_of_mod_eq_zero h))
          · exact .inl (by omega)
          · exact .inr (.inr (by omega))
        · cases h
      · exact ⟨by omega, h2⟩
    · rintro ⟨h1, h2, h3, h4⟩
      by_cases hk : k = i + 1
      · subst hk
        left
        rw [if_pos (by
          rcases h3 with h | h | h
          · exact .inr (.inl (by omega))
          · exact .inl (Nat.mod_eq_zero_of_dvd h)
          · exact .inr (.inr (by omega))), List.mem_singleton, h4, hhere]
      · exact .inr ⟨by omega, h2, h3, h4⟩

/-- **C114, progress.** A worker logs a line after its first sample, after each tenth and after its last, with the share of
right ones among the samples so far; and no other line. -/
theorem C114_progress (results : List Bool) (k : Nat) (a : ℚ) :
    (k, a) ∈ progressLines results ↔ 0 < k ∧ k ≤ results.length ∧ (k = 1 ∨ 10 ∣ k ∨ k = results.length) ∧
      a = ((results.take k).count true : ℚ) / k := by
  rw [progressLines, progressFrom_mem results.length k a results [] 0 rfl (by omega), List.nil_append]

theorem collect_results (fs : List (Nat × Except PyErr (List Bool))) :
    (collect fs).1 = fs.flatMap fun f => (collectOne f).1 := by
  induction fs with
  | nil => rfl
  | cons f fs ih => rw [collect, List.flatMap_cons, ← ih]

theorem collect_notes (fs : List (Nat × Except PyErr (List Bool))) : (collect fs).2 = fs.map fun f => (collectOne f).2 := by
  induction fs with
  | nil => rfl
  | cons f fs ih => rw [collect, List.map_cons, ← ih]

theorem collectOne_results (w : Nat) (rs : List Bool) : (collectOne (w, .ok rs)).1 = rs := by
  rw [collectOne]
  split <;> rfl

theorem flatten_eq (batches : List (List Nat)) :
    batches.flatten = (List.range batches.length).flatMap fun w => batches.getD w [] := by
  rw [List.flatMap_def]
  congr 1
  refine List.ext_getElem (by simp) fun i h1 h2 => ?_
  simp [List.getD, List.getElem?_eq_getElem h1]

/-- In which list a sample is, if the lists have no sample twice. -/
theorem batch_unique (batches : List (List Nat)) (hn : batches.flatten.Nodup) (i v w : Nat)
    (hv : i ∈ batches.getD v []) (hw : i ∈ batches.getD w []) : v = w := by
  have lt : ∀ u, i ∈ batches.getD u [] → ∃ h : u < batches.length, i ∈ batches[u] := by
    intro u hu
    by_cases h : u < batches.length
    · refine ⟨h, ?_⟩
      rwa [List.getD, List.getElem?_eq_getElem h] at hu
    · rw [List.getD, List.getElem?_eq_none (by omega)] at hu
      cases hu
  obtain ⟨h1, h2⟩ := lt v hv
  obtain ⟨h3, h4⟩ := lt w hw
  have hp := (List.nodup_flatten.1 hn).2
  rw [List.pairwise_iff_getElem] at hp
  rcases Nat.lt_trichotomy v w with h | h | h
  · exact absurd h4 (hp v w h1 h3 h h2)
  · exact h
  · exact absurd h2 (hp w v h3 h1 h h4)

theorem served_iff (batches : List (List Nat)) (hn : batches.flatten.Nodup) (fails : Nat → Option PyErr) (i w : Nat)
    (hw : w < batches.length) (hi : i ∈ batches.getD w []) : served batches fails i = (fails w).isNone := by
  unfold served
  rw [Bool.eq_iff_iff, List.any_eq_true]
  constructor
  · rintro ⟨v, -, hv⟩
    rw [Bool.and_eq_true, List.contains_iff_mem] at hv
    rw [batch_unique batches hn i w v hi hv.2]
    exact hv.1
  · intro h
    exact ⟨w, List.mem_range.2 hw, by rw [Bool.and_eq_true, List.contains_iff_mem]; exact ⟨h, hi⟩⟩

theorem collected_countP (batches : List (List Nat)) (hn : batches.flatten.Nodup) (right : Nat → Bool)
    (fails : Nat → Option PyErr) (p : Bool → Bool) :
    ((outcomes batches right fails).flatMap fun f => (collectOne f).1).countP p =
      batches.flatten.countP fun i => served batches fails i && p (right i) := by
  rw [flatten_eq, List.countP_flatMap, outcomes, List.map_map, List.countP_flatMap]
  congr 1
  refine List.map_congr_left fun w hw => ?_
  rw [List.mem_range] at hw
  simp only [Function.comp, outcome]
  cases hf : fails w with
  | some e =>
    dsimp only
    rw [show (collectOne (w, .error e)).1 = [] from rfl, List.countP_nil, eq_comm, List.countP_eq_zero]
    intro i hi
    rw [served_iff batches hn fails i w hw hi, hf]
    simp
  | none =>
    dsimp only
    rw [collectOne_results, List.countP_map]
    refine List.countP_congr fun i hi => ?_
    rw [served_iff batches hn fails i w hw hi, hf]
    simp

/-- **C114, the accuracy when workers fail.** Whichever workers raise whatever and in whichever order they end, the accuracy
that is printed is the share of right ones among the samples of the workers that do not fail; if there is no such sample,
`main` raises ZeroDivisionError. -/
theorem C114_accuracy (n workers : Nat) (batches : List (List Nat)) (hb : shareSamples n workers = .ok batches)
    (right : Nat → Bool) (fails : Nat → Option PyErr) (order : List (Nat × Except PyErr (List Bool)))
    (ho : order.Perm (outcomes batches right fails)) :
    (collect order).1.length = (List.range n).countP (fun i => served batches fails i) ∧
    finalAccuracy (collect order).1 =
      if (List.range n).countP (fun i => served batches fails i) = 0 then .error .zeroDivisionError
      else .ok (((List.range n).countP fun i => served batches fails i && right i : Nat) /
        ((List.range n).countP fun i => served batches fails i : Nat)) := by
  have hw : 0 < workers := by
    rcases Nat.eq_zero_or_pos workers with h | h
    · rw [(C104_shares n workers).1 h] at hb
      cases hb
    · exact h
  obtain ⟨b, h1, -, h3, -⟩ := (C104_shares n workers).2 hw
  cases hb.symm.trans h1
  have hn : batches.flatten.Nodup := by rw [h3]; exact List.nodup_range
  have hperm : (collect order).1.Perm ((outcomes batches right fails).flatMap fun f => (collectOne f).1) := by
    rw [collect_results]
    exact ho.flatMap_right _
  have hlen : (collect order).1.length = (List.range n).countP fun i => served batches fails i := by
    rw [hperm.length_eq, ← List.countP_true, collected_countP batches hn, h3]
    simp
  have hcount : (collect order).1.count true = (List.range n).countP fun i => served batches fails i && right i := by
    rw [List.count, hperm.countP_eq, collected_countP batches hn, h3]
    simp
  refine ⟨hlen, ?_⟩
  rw [finalAccuracy, hlen, hcount]

/-- **C114, the lines of `main`.** One line for each worker: it failed if it raised, or if it had no samples. -/
theorem C114_notes (batches : List (List Nat)) (right : Nat → Bool) (fails : Nat → Option PyErr)
    (order : List (Nat × Except PyErr (List Bool))) (ho : order.Perm (outcomes batches right fails)) :
    (collect order).2.length = batches.length ∧
    (∀ w e, .failed w e ∈ (collect order).2 ↔ w < batches.length ∧
      (fails w = some e ∨ fails w = none ∧ batches.getD w [] = [] ∧ e = .zeroDivisionError)) ∧
    ∀ w a, .completed w a ∈ (collect order).2 ↔ w < batches.length ∧ fails w = none ∧ batches.getD w [] ≠ [] ∧
      a = ((batches.getD w []).countP right : ℚ) / (batches.getD w []).length := by
  have hp : (collect order).2.Perm ((outcomes batches right fails).map fun f => (collectOne f).2) := by
    rw [collect_notes]
    exact ho.map _
  have one : ∀ w, collectOne (w, outcome batches right fails w) =
      match fails w with
      | some e => ([], .failed w e)
      | none => if batches.getD w [] = [] then ([], .failed w .zeroDivisionError)
        else ((batches.getD w []).map right,
          .completed w (((batches.getD w []).countP right : ℚ) / (batches.getD w []).length)) := by
    intro w
    unfold outcome
    cases fails w with
    | some e => rfl
    | none =>
      dsimp only
      generalize batches.getD w [] = b
      rw [collectOne, finalAccuracy, List.length_map]
      cases b with
      | nil => rfl
      | cons x b =>
        rw [if_neg (by simp), if_neg (by simp), List.count, List.countP_map]
        dsimp only
        congr 5
        funext i
        simp [Function.comp]
  refine ⟨?_, fun w e => ?_, fun w a => ?_⟩
  · rw [hp.length_eq]
    simp [outcomes]
  · rw [hp.mem_iff, outcomes, List.map_map, List.mem_map]
    simp only [Function.comp, List.mem_range]
    constructor
    · rintro ⟨v, hv, h⟩
      rw [one] at h
      cases hf : fails v with
      | some e' =>
        rw [hf] at h
        cases h
        exact ⟨hv, .inl hf⟩
      | none =>
        rw [hf] at h
        dsimp only at h
        split at h
        · rename_i hb
          cases h
          exact ⟨hv, .inr ⟨hf, hb, rfl⟩⟩
        · cases h
    · rintro ⟨hw, h⟩
      refine ⟨w, hw, ?_⟩
      rw [one]
      rcases h with h | ⟨h, hb, rfl⟩
      · rw [h]
      · rw [h]
        dsimp only
        rw [if_pos hb]
  · rw [hp.mem_iff, outcomes, List.map_map, List.mem_map]
    simp only [Function.comp, List.mem_range]
    constructor
    · rintro ⟨v, hv, h⟩
      rw [one] at h
      cases hf : fails v with
      | some e' =>
        rw [hf] at h
        cases h
      | none =>
        rw [hf] at h
        dsimp only at h
        split at h
        · cases h
        · rename_i hb
          cases h
          exact ⟨hv, hf, hb, rfl⟩
    · rintro ⟨hw, h, hb, rfl⟩
      refine ⟨w, hw, ?_⟩
      rw [one, h]
      dsimp only
      rw [if_neg hb]

/-- **C114, more workers than samples.** Then `workers - n` workers are logged as failed although none raised, and the
accuracy is the one of all samples. -/
theorem C114_idle (n workers : Nat) (batches : List (List Nat)) (hb : shareSamples n workers = .ok batches)
    (right : Nat → Bool) (order : List (Nat × Except PyErr (List Bool)))
    (ho : order.Perm (outcomes batches right fun _ => none)) (hn : 0 < n) :
    (∀ w, (∃ e, .failed w e ∈ (collect order).2) ↔ n ≤ w ∧ w < workers) ∧
    finalAccuracy (collect order).1 = .ok ((List.range n).countP right / (n : ℚ)) := by
  have hw : 0 < workers := by
    rcases Nat.eq_zero_or_pos workers with h | h
    · rw [(C104_shares n workers).1 h] at hb
      cases hb
    · exact h
  obtain ⟨b, h1, h2, h3, h4⟩ := (C104_shares n workers).2 hw
  cases hb.symm.trans h1
  have hempty : ∀ w, w < workers → (batches.getD w [] = [] ↔ n ≤ w) := by
    intro w hlt
    have hl := h4 w (by omega)
    rw [List.getD, List.getElem?_eq_getElem (by omega : w < batches.length), Option.getD_some, ← List.length_eq_zero_iff, hl]
    rcases Nat.lt_or_ge n workers with h | h
    · rw [Nat.div_eq_of_lt h, Nat.mod_eq_of_lt h]
      split <;> omega
    · have := Nat.div_pos h hw
      omega
  refine ⟨fun w => ?_, ?_⟩
  · simp only [(C114_notes batches right _ order ho).2.1]
    rw [h2]
    constructor
    · rintro ⟨e, hlt, h | ⟨-, h, -⟩⟩
      · cases h
      · exact ⟨(hempty w hlt).1 h, hlt⟩
    · rintro ⟨h, hlt⟩
      exact ⟨_, hlt, .inr ⟨trivial, (hempty w hlt).2 h, rfl⟩⟩
  · have hs : ∀ i ∈ List.range n, served batches (fun _ => none) i = true := by
      intro i hi
      rw [← h3, flatten_eq, List.mem_flatMap] at hi
      obtain ⟨w, hw', hi⟩ := hi
      rw [served_iff batches (by rw [h3]; exact List.nodup_range) _ i w (List.mem_range.1 hw') hi]
      rfl
    have e1 : (List.range n).countP (fun i => served batches (fun _ => none) i) = n := by
      rw [List.countP_eq_length.2 hs, List.length_range]
    have e2 : (List.range n).countP (fun i => served batches (fun _ => none) i && right i) = (List.range n).countP right :=
      List.countP_congr fun i hi => by rw [hs i hi, Bool.true_and]
    rw [(C114_accuracy n workers batches hb right _ order ho).2, e1, e2, if_neg (by omega)]

/-- **C114, MNIST.** The example of the repository: each worker either raises something or has processed its samples one
after the other. The accuracy that is printed is the share of samples whose label is the class of the outputs of the
network, among the samples of the workers that return, for any order of events in all simulations. -/
theorem C114_mnist {js : List Json} (hj : writes js mnistFile) {l : Libs} {file : NpzFile} (hw : shortIds l.uni file)
    {fl : FloatActs} {image : Nat → List ℚ} {label : Nat → Nat} {noise : Nat → Noises} (n workers : Nat)
    (batches : List (List Nat)) (hb : shareSamples n workers = .ok batches)
    (hx : ∀ i < n, (image i).length = 784 ∧ ∀ x ∈ image i, inRange 8 x) (out : Nat → Except PyErr (List Bool))
    (hout : ∀ v < batches.length, ∀ rs, out v = .ok rs →
      ∃ hist s, worker l fl (programmed l mnistBuilt js file) image label noise (batches.getD v []) rs hist s)
    (order : List (Nat × Except PyErr (List Bool)))
    (ho : order.Perm ((List.range batches.length).map fun v => (v, out v))) :
    finalAccuracy (collect order).1 =
      if (List.range n).countP (fun i => served batches (raised out) i) = 0 then .error .zeroDivisionError
      else .ok (((List.range n).countP fun i => served batches (raised out) i &&
          decide (isClass (mnistAnswer l file fl (noise i) (image i)) (label i)) : Nat) /
        ((List.range n).countP fun i => served batches (raised out) i : Nat)) := by
  have hw0 : 0 < workers := by
    rcases Nat.eq_zero_or_pos workers with h | h
    · rw [(C104_shares n workers).1 h] at hb
      cases hb
    · exact h
  obtain ⟨b, h1, -, h3, -⟩ := (C104_shares n workers).2 hw0
  cases hb.symm.trans h1
  refine (C114_accuracy n workers batches hb
    (fun i => decide (isClass (mnistAnswer l file fl (noise i) (image i)) (label i))) (raised out) order ?_).2
  refine ho.trans (List.Perm.of_eq (List.map_congr_left fun v hv => ?_))
  rw [List.mem_range] at hv
  congr 1
  unfold outcome raised
  cases h : out v with
  | error e => rfl
  | ok rs =>
    obtain ⟨hist, s, hwk⟩ := hout v hv rs h
    dsimp only
    rw [C104_worker hj hw hwk fun i hi => hx i ?_]
    rw [← List.mem_range, ← h3, flatten_eq]
    exact List.mem_flatMap.2 ⟨v, List.mem_range.2 hv, hi⟩

/-- **C114, a failure can raise the accuracy.** Half of the samples are classified wrongly by a worker that then fails: the
accuracy that is printed is 1 instead of 1/2. -/
theorem C114_failure_witness : ∃ (batches : List (List Nat)) (right : Nat → Bool) (fails : Nat → Option PyErr),
    shareSamples 4 2 = .ok batches ∧
    finalAccuracy (collect (outcomes batches right fun _ => none)).1 = .ok (1 / 2) ∧
    finalAccuracy (collect (outcomes batches right fails)).1 = .ok 1 :=
  ⟨[[0, 1], [2, 3]], fun i => decide (i < 2), fun w => if w = 1 then some .runtimeError else none, by decide,
    by decide +kernel, by decide +kernel⟩

example := C114_accuracy 5 2 [[0, 1, 2], [3, 4]] (by decide) (fun i => i % 2 == 0)
  (fun w => if w = 1 then some .runtimeError else none) _ (List.Perm.swap _ _ [])
/-- Five images with a spot (as for C104), two workers, and the second raises: three samples count. -/
example : ∃ rs : List Bool, ∀ out : Nat → Except PyErr (List Bool), out 0 = .ok rs → out 1 = .error .runtimeError →
    (collect [(1, out 1), (0, out 0)]).1.length = 3 ∧ ∃ a, finalAccuracy (collect [(1, out 1), (0, out 0)]).1 = .ok a := by
  have hx : ∀ i : Nat, ((fun _ : Nat => spotImage) i).length = 784 ∧ ∀ x ∈ (fun _ : Nat => spotImage) i, inRange 8 x := by
    refine fun i => ⟨spot_image.1, fun x hx => ?_⟩
    obtain ⟨h0, h1⟩ := spot_image.2 x hx
    unfold inRange
    constructor <;> linarith
  obtain ⟨rs, hist, s, h, -⟩ := worker_exists (fl := someActs) (label := fun i => i) (noise := fun _ _ => spotNoise)
    (writes_fields true mnistFile) (spot_short someLibs.uni) [0, 1, 2] fun i _ => hx i
  refine ⟨rs, fun out h0 h1 => ?_⟩
  have hb : shareSamples 5 2 = .ok [[0, 1, 2], [3, 4]] := by decide
  have _key := C114_mnist (writes_fields true mnistFile) (spot_short someLibs.uni) 5 2 _ hb (fun i _ => hx i) out (by
    intro v hv rs' hr
    obtain rfl | rfl : v = 0 ∨ v = 1 := by simp at hv; omega
    · cases h0.symm.trans hr
      exact ⟨hist, s, h⟩
    · cases h1.symm.trans hr) [(1, out 1), (0, out 0)] (List.Perm.swap _ _ [])
  have hlen : rs.length = 3 := by
    rw [C104_worker (writes_fields true mnistFile) (spot_short someLibs.uni) h fun i _ => hx i]
    rfl
  have hl : (collect [(1, out 1), (0, out 0)]).1.length = 3 := by
    rw [collect_results, h0, h1]
    rw [List.flatMap_cons, List.flatMap_cons, collectOne_results]
    simp [hlen, collectOne]
  refine ⟨hl, ?_⟩
  rw [finalAccuracy, hl]
  exact ⟨_, rfl⟩

example := C114_notes [[0, 1, 2], [3, 4], []] (fun i => i % 2 == 0) (fun w => if w = 1 then some .runtimeError else none) _
  (List.Perm.refl _)
example := C114_idle 2 3 [[0], [1], []] (by decide) (fun i => i == 0) _ (List.Perm.refl _) (by decide)
example : (10, (1 : ℚ) / 2) ∈ progressLines ((List.range 12).map fun i => i % 2 == 0) := by decide +kernel

end Ramwich
