import Verif.Lemmas.Stats

/-! # Merging statistics dictionaries (C47) -/
namespace Ramwich

open Spec

/-- **C47.** Merging `b` into `a`, when the two hold different objects: every component of the result is
the sum of both sides, no component is lost or invented, the argument keeps its values, no other object
changes, and the total of the result is the sum of the totals. -/
theorem C47_merge_adds (a b : StatsDict) (h : Heap) (wa : wellFormed a h) (wb : wellFormed b h)
    (hs : separate a b) :
    (∀ k, statOf (a.merge b h).1 (a.merge b h).2 k = statOf a h k + statOf b h k) ∧
    (∀ k, k ∈ names (a.merge b h).1 ↔ k ∈ names a ∨ k ∈ names b) ∧
    (∀ k, statOf b (a.merge b h).2 k = statOf b h k) ∧
    (∀ r, r ∉ refs a → (a.merge b h).2.get r = h.get r) ∧
    (a.merge b h).1.summary (a.merge b h).2 = a.summary h + b.summary h := by
  obtain ⟨w, -, e, g, -, n⟩ := merge_spec a b h wa wb hs
  refine ⟨e, n, ?_, g, ?_⟩
  · intro k
    unfold statOf
    cases hk : StatsDict.find b k with
    | none => rfl
    | some r => exact g r fun hr => hs r hr (mem_refs_of_find hk)
  · have hl : (names (a.merge b h).1).Nodup := w.names
    rw [summary_names _ _ hl, summary_superset a h wa.names _ hl fun k hk => (n k).2 (Or.inl hk),
      summary_superset b h wb.names _ hl fun k hk => (n k).2 (Or.inr hk), ← List.sum_map_add]
    congr 1
    apply List.map_congr_left
    intro k _
    exact e k

/-- What merging many dictionaries gives. -/
theorem mergeAll_spec (ds : List StatsDict) (h : Heap) (wf : ∀ d ∈ ds, wellFormed d h)
    (sep : ds.Pairwise separate) (a : StatsDict) (wa : wellFormed a h) (hsa : ∀ d ∈ ds, separate a d) :
    let p := ds.foldl (fun (p : StatsDict × Heap) d => p.1.merge d p.2) (a, h)
    wellFormed p.1 p.2 ∧ (∀ k, statOf p.1 p.2 k = statOf a h k + (ds.map fun d => statOf d h k).sum) ∧
    (∀ k, k ∈ names p.1 ↔ k ∈ names a ∨ ∃ d ∈ ds, k ∈ names d) := by
  induction ds generalizing a h with
  | nil => exact ⟨wa, by simp, by simp⟩
  | cons d ds ih =>
    rw [List.pairwise_cons] at sep
    have wd := wf d List.mem_cons_self
    have sd := hsa d List.mem_cons_self
    obtain ⟨w, l, e, g, r, n⟩ := merge_spec a d h wa wd sd
    have same : ∀ x ∈ ds, ∀ k, statOf x (a.merge d h).2 k = statOf x h k := by
      intro x hx k
      unfold statOf
      cases hk : StatsDict.find x k with
      | none => rfl
      | some q => exact g q fun hq => hsa x (List.mem_cons_of_mem _ hx) q hq (mem_refs_of_find hk)
    obtain ⟨w', e', n'⟩ := ih (a.merge d h).2
      (fun x hx => ⟨(wf x (List.mem_cons_of_mem _ hx)).names, (wf x (List.mem_cons_of_mem _ hx)).refs,
        by rw [l]; exact (wf x (List.mem_cons_of_mem _ hx)).alive⟩)
      sep.2 (a.merge d h).1 w
      (fun x hx q hq hqx => by
        rcases r q hq with h1 | h1
        · exact hsa x (List.mem_cons_of_mem _ hx) q h1 hqx
        · exact sep.1 x hx q h1 hqx)
    refine ⟨w', ?_, ?_⟩
    · intro k
      rw [List.foldl_cons, e' k, e k, List.map_cons, List.sum_cons, add_assoc]
      congr 2
      exact congrArg List.sum (List.map_congr_left fun x hx => same x hx k)
    · intro k
      rw [List.foldl_cons, n' k, n k]
      simp only [List.mem_cons, exists_eq_or_imp]
      tauto

theorem separate_symm {a b : StatsDict} (h : separate a b) : separate b a := fun r hr hr' => h r hr' hr

theorem wellFormed_nil (h : Heap) : wellFormed [] h := ⟨List.nodup_nil, List.nodup_nil, by simp [refs]⟩

/-- **C47, many dictionaries.** Merging any number of dictionaries without shared objects into a new
one gives, per component, the sum of all of them. -/
theorem C47_merge_all (ds : List StatsDict) (h : Heap) (wf : ∀ d ∈ ds, wellFormed d h)
    (sep : ds.Pairwise separate) :
    (∀ k, statOf (mergeAll ds h).1 (mergeAll ds h).2 k = (ds.map fun d => statOf d h k).sum) ∧
    (∀ k, k ∈ names (mergeAll ds h).1 ↔ ∃ d ∈ ds, k ∈ names d) := by
  obtain ⟨-, e, n⟩ := mergeAll_spec ds h wf sep [] (wellFormed_nil h) (fun d _ r hr => by cases hr)
  refine ⟨fun k => (e k).trans ?_, fun k => (n k).trans (by simp [names])⟩
  simp [statOf, StatsDict.find]

/-- **C47, order.** The order in which dictionaries are merged changes neither a component nor the
total. -/
theorem C47_merge_order (ds ds' : List StatsDict) (hp : ds.Perm ds') (h : Heap)
    (wf : ∀ d ∈ ds, wellFormed d h) (sep : ds.Pairwise separate) :
    (∀ k, statOf (mergeAll ds h).1 (mergeAll ds h).2 k = statOf (mergeAll ds' h).1 (mergeAll ds' h).2 k) ∧
    (mergeAll ds h).1.summary (mergeAll ds h).2 = (mergeAll ds' h).1.summary (mergeAll ds' h).2 := by
  have wf' : ∀ d ∈ ds', wellFormed d h := fun d hd => wf d (hp.mem_iff.2 hd)
  have sep' : ds'.Pairwise separate := (hp.pairwise_iff separate_symm).1 sep
  have A := C47_merge_all ds h wf sep
  have B := C47_merge_all ds' h wf' sep'
  have e : ∀ k, statOf (mergeAll ds h).1 (mergeAll ds h).2 k = statOf (mergeAll ds' h).1 (mergeAll ds' h).2 k := by
    intro k
    rw [A.1 k, B.1 k]
    exact (hp.map _).sum_eq
  refine ⟨e, ?_⟩
  have w := (mergeAll_spec ds h wf sep [] (wellFormed_nil h) (fun d _ r hr => by cases hr)).1
  have w' := (mergeAll_spec ds' h wf' sep' [] (wellFormed_nil h) (fun d _ r hr => by cases hr)).1
  have w : (names (mergeAll ds h).1).Nodup := w.names
  have w' : (names (mergeAll ds' h).1).Nodup := w'.names
  rw [summary_names _ _ w', summary_superset _ _ w _ w' (fun k hk => by
    obtain ⟨d, hd, hk⟩ := (A.2 k).1 hk
    exact (B.2 k).2 ⟨d, hp.mem_iff.1 hd, hk⟩)]
  exact congrArg List.sum (List.map_congr_left fun k _ => e k)

/-- Two dictionaries with one common component. -/
def demoHeap : Heap := [⟨3, 1, 2, 5⟩, ⟨1, 1/2, 1, 1⟩, ⟨4, 1, 1, 1⟩]
def demoA : StatsDict := [("ADC", 0)]
def demoB : StatsDict := [("DAC", 1), ("ADC", 2)]

theorem demoA_wf : wellFormed demoA demoHeap := ⟨by decide, by decide, by decide⟩
theorem demoB_wf : wellFormed demoB demoHeap := ⟨by decide, by decide, by decide⟩
theorem demo_separate : separate demoA demoB := by unfold separate; decide

example := C47_merge_adds demoA demoB demoHeap demoA_wf demoB_wf demo_separate
example : statOf (demoA.merge demoB demoHeap).1 (demoA.merge demoB demoHeap).2 "ADC" = ⟨7, 2, 3, 6⟩ := by
  decide +kernel
example := C47_merge_order [demoA, demoB] [demoB, demoA] (List.Perm.swap _ _ _) demoHeap
  (by simp [demoA_wf, demoB_wf]) (by simp [demo_separate])

/-- **C47, sharing.** The condition on shared objects is needed. After `b` has been merged into an empty
dictionary the two share their objects: scaling the leakage of the result also scales it in `b`, and
merging `b` once more doubles `b` itself, so a third time gives four times its values instead of three. -/
theorem C47_sharing_witness :
    ∃ (b : StatsDict) (h : Heap) (k : String), wellFormed b h ∧
      let p1 := StatsDict.merge [] b h
      let p2 := p1.1.merge b p1.2
      let p3 := p2.1.merge b p2.2
      statOf b (p1.1.updateLeakage 10 p1.2) k ≠ statOf b h k ∧
      statOf b p2.2 k = statOf b h k + statOf b h k ∧ statOf b p2.2 k ≠ statOf b h k ∧
      statOf p3.1 p3.2 k ≠ statOf b h k + statOf b h k + statOf b h k :=
  ⟨[("ADC", 0)], [⟨3, 1, 2, 5⟩], "ADC", ⟨by decide, by decide, by decide⟩, by decide +kernel⟩

end Ramwich
