import Verif.Spec.Visualize
import Verif.Props.GetStatsFloat

/-! # `visualize.py` (C113) -/
namespace Ramwich

open Spec Visualize

/-- No part of a simulator is called "stats" or "components". -/
theorem component_names (p : Power) (s : Sim) : ∀ c ∈ simComponents p s, c.name ≠ "stats" ∧ c.name ≠ "components" := by
  have hm : ∀ (m : Mvmu) (cycles : Int), ∀ c ∈ mvmuComponents p m cycles, c.name ≠ "stats" ∧ c.name ≠ "components" := by
    intro m cycles c hc
    unfold mvmuComponents at hc
    dsimp only at hc
    have one : ∀ l : List Component, c ∈ l → (∀ x ∈ l.map (·.name), x ≠ "stats" ∧ x ≠ "components") →
        c.name ≠ "stats" ∧ c.name ≠ "components" := fun l h k => k _ (List.mem_map_of_mem h)
    rcases List.mem_append.1 hc with hc | hc
    · rcases List.mem_append.1 hc with hc | hc
      · split at hc
        · refine one _ hc ?_
          simp only [List.map_cons, List.map_nil]
          decide
        · cases hc
      · split at hc
        · refine one _ hc ?_
          simp only [List.map_cons, List.map_nil]
          decide
        · cases hc
    · refine one _ hc ?_
      simp only [List.map_cons, List.map_nil]
      decide
  have hr : ∀ (r : RouterStats) (cycles : Int), ∀ c ∈ routerComponents p r cycles,
      c.name ≠ "stats" ∧ c.name ≠ "components" := by
    intro r cycles c hc
    simp only [routerComponents, List.mem_cons, List.not_mem_nil, or_false] at hc
    rcases hc with rfl | rfl | rfl | rfl <;> exact ⟨by dsimp only; decide, by dsimp only; decide⟩
  have hk : ∀ k : CoreObj, ∀ c ∈ coreComponents p k, c.name ≠ "stats" ∧ c.name ≠ "components" := by
    intro k c hc
    unfold coreComponents at hc
    dsimp only at hc
    rcases List.mem_append.1 hc with hc | hc
    · simp only [List.mem_cons, List.not_mem_nil, or_false] at hc
      rcases hc with rfl | rfl | rfl | rfl | rfl | rfl | rfl | rfl <;> exact ⟨by dsimp only; decide, by dsimp only; decide⟩
    · obtain ⟨m, -, hm'⟩ := List.mem_flatMap.1 hc
      exact hm m _ c hm'
  have ht : ∀ t : TileObj, ∀ c ∈ tileComponents p t, c.name ≠ "stats" ∧ c.name ≠ "components" := by
    intro t c hc
    unfold tileComponents at hc
    dsimp only at hc
    split at hc
    · exact hr _ _ c hc
    · rcases List.mem_append.1 hc with hc | hc
      · rcases List.mem_append.1 hc with hc | hc
        · simp only [List.mem_cons, List.not_mem_nil, or_false] at hc
          rcases hc with rfl | rfl | rfl | rfl <;> exact ⟨by dsimp only; decide, by dsimp only; decide⟩
        · exact hr _ _ c hc
      · obtain ⟨k, -, hk'⟩ := List.mem_flatMap.1 hc
        exact hk k c hk'
  intro c hc
  unfold simComponents at hc
  obtain ⟨n, -, hc⟩ := List.mem_flatMap.1 hc
  unfold nodeComponents at hc
  dsimp only at hc
  rcases List.mem_append.1 hc with hc | hc
  · simp only [List.mem_cons, List.not_mem_nil, or_false] at hc
    rcases hc with rfl | rfl | rfl <;> exact ⟨by dsimp only; decide, by dsimp only; decide⟩
  · obtain ⟨t, -, hc⟩ := List.mem_flatMap.1 hc
    exact ht t c hc

theorem get_report (d : StatsDict) (k : String) (e : Entry) (h : k ∉ names d) : (ofReport d).get k e = e := by
  induction d with
  | nil => rfl
  | cons x d ih =>
    have h1 : x.1 ≠ k := fun hx => h (by simp [names, hx])
    have h2 : k ∉ names d := fun hx => h (by simp only [names, List.map_cons, List.mem_cons] at hx ⊢; exact .inr hx)
    unfold ofReport
    rw [List.map_cons, Top.get, if_neg h1]
    exact ih h2

theorem summarize_names (argsort : List Int → List Nat) (d : StatsDict) (hd : d ≠ [])
    (h1 : "stats" ∉ names d) (h2 : "components" ∉ names d) :
    summarize argsort (ofReport d) = (.ok (), [.title, .totalOperations 0, .totalTime 0, .insufficient]) := by
  unfold summarize
  have : (ofReport d).isEmpty = false := by cases d <;> first | exact absurd rfl hd | rfl
  rw [this, if_neg (by decide), get_report d _ _ h1, get_report d _ _ h2]
  rfl

/-- **C113.** If the call in run.py were not commented out, it would print that no operation was completed in no time
and draw nothing, whatever the simulator has done: the report of `get_stats` has no entries "stats" and "components". -/
theorem C113_report (argsort : List Int → List Nat) (p : Power) (s : Sim) (h : Heap) (d : StatsDict) (h' : Heap)
    (hr : s.getStats p h = .ok (d, h')) :
    summarize argsort (ofReport d) = if s.nodes = [] then (.ok (), [.title, .noStatistics])
      else (.ok (), [.title, .totalOperations 0, .totalTime 0, .insufficient]) := by
  have hk := (C48_report p s h d h' hr).2
  have hne : ∀ k, k ∈ names d → k ≠ "stats" ∧ k ≠ "components" := by
    intro k hd
    obtain ⟨c, hc, rfl⟩ := (hk k).1 hd
    exact component_names p s c hc
  split
  · rename_i hs
    have : d = [] := by
      cases d with
      | nil => rfl
      | cons x d =>
        obtain ⟨c, hc, -⟩ := (hk x.1).1 (by simp [names])
        simp [simComponents, hs] at hc
    rw [this]
    rfl
  · rename_i hs
    refine summarize_names argsort d ?_ (fun hx => (hne _ hx).1 rfl) fun hx => (hne _ hx).2 rfl
    rintro rfl
    cases hn : s.nodes with
    | nil => exact hs hn
    | cons n ns =>
      have : "NOC inter" ∈ names ([] : StatsDict) :=
        (hk _).2 ⟨_, by
          unfold simComponents
          rw [hn]
          exact List.mem_flatMap.2 ⟨n, List.mem_cons_self, List.mem_cons_self⟩, rfl⟩
      cases this

theorem mem_nodeBars (cs : List Comp) (label : String) (n : Int) :
    (label, n) ∈ cs.flatMap nodeBars ↔ isBar cs label n := by
  unfold isBar
  simp only [List.mem_flatMap, nodeBars, tileBars, coreBar, List.mem_cons, List.mem_map, Prod.mk.injEq]
  constructor
  · rintro ⟨x, hx, ⟨h1, h2⟩ | ⟨t, ht, ⟨h1, h2⟩ | ⟨c, hc, h1, h2⟩⟩⟩
    · exact .inl ⟨x, hx, h1, h2⟩
    · exact .inr (.inl ⟨x, hx, t, ht, h1, h2⟩)
    · exact .inr (.inr ⟨x, hx, t, ht, c, hc, h1.symm, h2.symm⟩)
  · rintro (⟨x, hx, h1, h2⟩ | ⟨x, hx, t, ht, h1, h2⟩ | ⟨x, hx, t, ht, c, hc, h1, h2⟩)
    · exact ⟨x, hx, .inl ⟨h1, h2⟩⟩
    · exact ⟨x, hx, .inr ⟨t, ht, .inl ⟨h1, h2⟩⟩⟩
    · exact ⟨x, hx, .inr ⟨t, ht, .inr ⟨c, hc, h1.symm, h2.symm⟩⟩⟩

theorem length_nodeBars (cs : List Comp) : (cs.flatMap nodeBars).length = barCount cs := by
  unfold barCount
  rw [List.length_flatMap]
  congr 1
  refine List.map_congr_left fun n _ => ?_
  rw [nodeBars, List.length_cons, List.length_flatMap, Nat.add_comm]
  congr 2
  refine List.map_congr_left fun t _ => ?_
  rw [tileBars, List.length_cons, List.length_map, Nat.add_comm]

theorem topTen_spec (argsort : List Int → List Nat) (hs : sorts argsort) (bars : List (String × Int)) :
    ∃ hidden, (topTen argsort bars ++ hidden).Perm bars ∧
      (topTen argsort bars).length = min 10 bars.length ∧
      (∀ a ∈ topTen argsort bars, ∀ b ∈ hidden, b.2 ≤ a.2) ∧
      (bars.length ≤ 10 → topTen argsort bars = bars) ∧
      (10 < bars.length → ((topTen argsort bars).map (·.2)).Pairwise (· ≤ ·)) := by
  unfold topTen
  split
  · rename_i hl
    dsimp only
    obtain ⟨hp, ho⟩ := hs (bars.map (·.2))
    rw [List.length_map] at hp
    have hlen := hp.length_eq
    rw [List.length_range] at hlen
    generalize argsort (bars.map (·.2)) = order at *
    have hall : (order.map fun i => bars.getD i ("", 0)).Perm bars := by
      refine (hp.map _).trans (List.Perm.of_eq ?_)
      refine List.ext_getElem (by simp) fun i h1 h2 => ?_
      simp [List.getD, List.getElem?_eq_getElem h2]
    have e : ∀ j, (bars.map (·.2)).getD j 0 = (bars.getD j ("", 0)).2 := by
      intro j
      simp only [List.getD, List.getElem?_map]
      cases bars[j]? <;> rfl
    rw [← List.take_append_drop (order.length - 10) order, List.map_append, List.pairwise_append] at ho
    refine ⟨(order.take (order.length - 10)).map fun i => bars.getD i ("", 0), ?_, ?_, ?_, fun h => absurd h (by omega),
      fun _ => ?_⟩
    · refine List.perm_append_comm.trans ?_
      rw [← List.map_append, List.take_append_drop]
      exact hall
    · rw [List.length_map, List.length_drop, hlen]
      omega
    · intro a ha b hb
      obtain ⟨i, hi, rfl⟩ := List.mem_map.1 ha
      obtain ⟨k, hk, rfl⟩ := List.mem_map.1 hb
      have := ho.2.2 _ (List.mem_map.2 ⟨k, hk, rfl⟩) _ (List.mem_map.2 ⟨i, hi, rfl⟩)
      rwa [e, e] at this
    · rw [List.map_map]
      have := ho.2.1
      simp only [e] at this
      exact this
  · rename_i hl
    exact ⟨[], by simp, by omega, by simp, fun _ => rfl, fun h => absurd h hl⟩

theorem summarize_eq (argsort : List Int → List Nat) (d : Top) (o : OpStats) (cs : List Comp)
    (h1 : d.get "stats" (.numbers {}) = .numbers o) (h2 : d.get "components" (.list []) = .list cs) (hc : cs ≠ []) :
    summarize argsort d = ((visualize argsort o (.list cs)).1,
      [.title, .totalOperations o.ops, .totalTime o.time] ++ (visualize argsort o (.list cs)).2) := by
  have hd : d.isEmpty = false := by
    cases d with
    | nil =>
      rw [show Top.get [] "components" (.list []) = .list [] from rfl] at h2
      exact absurd (Entry.list.inj h2).symm hc
    | cons => rfl
  unfold summarize
  rw [hd, if_neg (by decide), h1, h2]

theorem visualize_drawn (argsort : List Int → List Nat) (o : OpStats) (cs : List Comp) (hc : cs ≠ [])
    (ht : (o.opCounts.getD []).length = 1 ∨ (o.opCounts.getD []).length = 4) :
    ∃ a b c, (∀ i t n k x, c ≠ Out.component i t n k x) ∧ (∀ i t n k x, a ≠ Out.component i t n k x) ∧
      (∀ i t n k x, b ≠ Out.component i t n k x) ∧
      visualize argsort o (.list cs) = (.ok (), [a, b,
        .bars 1 0 ((topTen argsort (cs.flatMap nodeBars)).map (·.1))
          ((topTen argsort (cs.flatMap nodeBars)).map fun e => (e.2 : ℚ)), c, .saved, .componentsTitle]
        ++ printComponents 0 cs) := by
  have ho : ¬ (o.isEmpty = true ∨ (Entry.list cs).isEmpty = true) := by
    rintro (h | h)
    · have : o = {} := of_decide_eq_true h
      subst this
      simp at ht
    · cases cs <;> first | exact hc rfl | cases h
  unfold visualize
  rw [if_neg ho]
  dsimp only
  rw [List.length_map, if_pos ht]
  refine ⟨_, _, _, ?_, ?_, ?_, rfl⟩
  · intro i t n k x h
    unfold timelineOf at h
    split at h <;> cases h
  · intro i t n k x h; cases h
  · intro i t n k x h; cases h

/-- **C113, the chart of components.** With one or four types of operations and some components, the third chart shows
the sums of the counts of nodes, tiles and cores: all of them, or ten if there are more. Whatever is not shown has at
most the count of each that is shown. -/
theorem C113_chart (argsort : List Int → List Nat) (hs : sorts argsort) (d : Top) (o : OpStats) (cs : List Comp)
    (h1 : d.get "stats" (.numbers {}) = .numbers o) (h2 : d.get "components" (.list []) = .list cs) (hc : cs ≠ [])
    (ht : (o.opCounts.getD []).length = 1 ∨ (o.opCounts.getD []).length = 4) :
    ∃ shown hidden : List (String × Int),
      (summarize argsort d).1 = .ok () ∧
      Out.bars 1 0 (shown.map (·.1)) (shown.map fun e => (e.2 : ℚ)) ∈ (summarize argsort d).2 ∧
      (∀ label n, (label, n) ∈ shown ++ hidden ↔ isBar cs label n) ∧
      (shown ++ hidden).length = barCount cs ∧ shown.length = min 10 (barCount cs) ∧
      (∀ a ∈ shown, ∀ b ∈ hidden, b.2 ≤ a.2) ∧
      (barCount cs ≤ 10 → shown = treeBars cs) ∧ (10 < barCount cs → (shown.map (·.2)).Pairwise (· ≤ ·)) := by
  obtain ⟨hidden, hp, hl, hb, hle, hgt⟩ := topTen_spec argsort hs (cs.flatMap nodeBars)
  obtain ⟨a, b, c, -, -, -, hv⟩ := visualize_drawn argsort o cs hc ht
  rw [summarize_eq argsort d o cs h1 h2 hc, hv]
  refine ⟨_, hidden, ?_, ?_, fun label n => ?_, ?_, ?_, hb, ?_, ?_⟩
  · rfl
  · simp
  · rw [hp.mem_iff, mem_nodeBars]
  · rw [hp.length_eq, length_nodeBars]
  · rw [hl, length_nodeBars]
  · rw [← length_nodeBars]
    exact hle
  · rw [← length_nodeBars]
    exact hgt

/-- **C113, other numbers of types.** With any other number of types of operations (also none) the second chart raises
ValueError: no figure is saved and no component is printed. -/
theorem C113_types (argsort : List Int → List Nat) (d : Top) (o : OpStats) (cs : List Comp)
    (h1 : d.get "stats" (.numbers {}) = .numbers o) (h2 : d.get "components" (.list []) = .list cs) (hc : cs ≠ [])
    (ho : o ≠ {}) (ht : (o.opCounts.getD []).length ≠ 1 ∧ (o.opCounts.getD []).length ≠ 4) :
    (summarize argsort d).1 = .error .valueError ∧ Out.saved ∉ (summarize argsort d).2 ∧
    ∀ i t n c x, Out.component i t n c x ∉ (summarize argsort d).2 := by
  rw [summarize_eq argsort d o cs h1 h2 hc]
  have he : ¬ (o.isEmpty = true ∨ (Entry.list cs).isEmpty = true) := by
    rintro (h | h)
    · exact ho (of_decide_eq_true h)
    · cases cs <;> first | exact hc rfl | cases h
  unfold visualize
  rw [if_neg he]
  dsimp only
  rw [List.length_map, if_neg (by rintro (h | h); exacts [ht.1 h, ht.2 h])]
  exact ⟨rfl, by simp, by simp⟩

mutual
theorem mem_lines (indent k : Nat) (t i : String) (n : Int) (x : ℚ) : (c : Comp) →
    (Out.component k t i n x ∈ Comp.lines indent c ↔ ∃ depth y, k = indent + depth ∧ atDepth [c] depth y ∧ t = y.type ∧
      i = y.id ∧ n = y.stats.ops ∧ x = y.stats.time)
  | .mk t' i' s cs => by
    have ih := mem_printed (indent + 1) k t i n x cs
    rw [Comp.lines, List.mem_cons, ih]
    constructor
    · rintro (h | ⟨depth, y, h1, h2, h3⟩)
      · injection h with e1 e2 e3 e4 e5
        exact ⟨0, _, e1, .here List.mem_cons_self, e2, e3, e4, e5⟩
      · exact ⟨depth + 1, y, by omega, .inside List.mem_cons_self h2, h3⟩
    · rintro ⟨depth, y, h1, h2, e2, e3, e4, e5⟩
      cases h2 with
      | here hy =>
        rw [List.mem_singleton] at hy
        subst hy
        left
        rw [h1, e2, e3, e4, e5]
        rfl
      | @inside _ c _ m hy h =>
        rw [List.mem_singleton] at hy
        subst hy
        exact .inr ⟨m, y, by omega, h, e2, e3, e4, e5⟩

theorem mem_printed (indent k : Nat) (t i : String) (n : Int) (x : ℚ) : (cs : List Comp) →
    (Out.component k t i n x ∈ printComponents indent cs ↔ ∃ depth y, k = indent + depth ∧ atDepth cs depth y ∧
      t = y.type ∧ i = y.id ∧ n = y.stats.ops ∧ x = y.stats.time)
  | [] => by
    rw [printComponents]
    constructor
    · intro h; cases h
    · rintro ⟨depth, y, -, h, -⟩
      cases h with
      | here hy => cases hy
      | inside hy _ => cases hy
  | c :: cs => by
    rw [printComponents, List.mem_append, mem_lines indent k t i n x c, mem_printed indent k t i n x cs]
    have split : ∀ depth y, atDepth (c :: cs) depth y ↔ atDepth [c] depth y ∨ atDepth cs depth y := by
      intro depth y
      constructor
      · intro h
        cases h with
        | here hy =>
          rcases List.mem_cons.1 hy with rfl | hy
          · exact .inl (.here List.mem_cons_self)
          · exact .inr (.here hy)
        | inside hy h =>
          rcases List.mem_cons.1 hy with rfl | hy
          · exact .inl (.inside List.mem_cons_self h)
          · exact .inr (.inside hy h)
      · rintro (h | h)
        · cases h with
          | here hy => rw [List.mem_singleton] at hy; subst hy; exact .here List.mem_cons_self
          | inside hy h => rw [List.mem_singleton] at hy; subst hy; exact .inside List.mem_cons_self h
        · cases h with
          | here hy => exact .here (List.mem_cons_of_mem _ hy)
          | inside hy h => exact .inside (List.mem_cons_of_mem _ hy) h
    constructor
    · rintro (⟨depth, y, h1, h2, h3⟩ | ⟨depth, y, h1, h2, h3⟩)
      · exact ⟨depth, y, h1, (split _ _).2 (.inl h2), h3⟩
      · exact ⟨depth, y, h1, (split _ _).2 (.inr h2), h3⟩
    · rintro ⟨depth, y, h1, h2, h3⟩
      rcases (split _ _).1 h2 with h | h
      · exact .inl ⟨depth, y, h1, h, h3⟩
      · exact .inr ⟨depth, y, h1, h, h3⟩
end

/-- **C113, the lines of components.** When the charts are drawn, a line is printed for each component at every depth,
indented by its depth, with the sum of its counts and its time; and no other lines of components. -/
theorem C113_lines (argsort : List Int → List Nat) (d : Top) (o : OpStats) (cs : List Comp)
    (h1 : d.get "stats" (.numbers {}) = .numbers o) (h2 : d.get "components" (.list []) = .list cs) (hc : cs ≠ [])
    (ht : (o.opCounts.getD []).length = 1 ∨ (o.opCounts.getD []).length = 4) (indent : Nat) (type id : String)
    (operations : Int) (time : ℚ) :
    Out.component indent type id operations time ∈ (summarize argsort d).2 ↔
      ∃ c, atDepth cs indent c ∧ type = c.type ∧ id = c.id ∧ operations = c.stats.ops ∧ time = c.stats.time := by
  obtain ⟨a, b, c, hc1, ha1, hb1, hv'⟩ := visualize_drawn argsort o cs hc ht
  have hv : Out.component indent type id operations time ∈ (summarize argsort d).2 ↔
      Out.component indent type id operations time ∈ printComponents 0 cs := by
    rw [summarize_eq argsort d o cs h1 h2 hc, hv']
    simp [(hc1 _ _ _ _ _).symm, (ha1 _ _ _ _ _).symm, (hb1 _ _ _ _ _).symm]
  rw [hv, mem_printed]
  constructor
  · rintro ⟨depth, y, hk, hy, h3⟩
    rw [Nat.zero_add] at hk
    subst hk
    exact ⟨y, hy, h3⟩
  · rintro ⟨y, hy, h3⟩
    exact ⟨indent, y, (Nat.zero_add _).symm, hy, h3⟩

mutual
theorem lines_components (indent : Nat) : (c : Comp) → ∀ x ∈ Comp.lines indent c,
    ∃ indent type id operations time, x = Out.component indent type id operations time
  | .mk t i s cs => by
    intro x hx
    rw [Comp.lines, List.mem_cons] at hx
    rcases hx with rfl | hx
    · exact ⟨_, _, _, _, _, rfl⟩
    · exact printed_components (indent + 1) cs x hx

theorem printed_components (indent : Nat) : (cs : List Comp) → ∀ x ∈ printComponents indent cs,
    ∃ indent type id operations time, x = Out.component indent type id operations time
  | [] => by
    intro x hx
    rw [printComponents] at hx
    cases hx
  | c :: cs => by
    intro x hx
    rw [printComponents, List.mem_append] at hx
    rcases hx with hx | hx
    · exact lines_components indent c x hx
    · exact printed_components indent cs x hx
end

mutual
theorem length_lines (indent : Nat) : (c : Comp) → (Comp.lines indent c).length = compSize c
  | .mk t i s cs => by
    rw [Comp.lines, List.length_cons, length_printed (indent + 1) cs, compSize, Nat.add_comm]

theorem length_printed (indent : Nat) : (cs : List Comp) → (printComponents indent cs).length = treeSize cs
  | [] => by rw [printComponents, treeSize, List.length_nil]
  | c :: cs => by
    rw [printComponents, List.length_append, length_lines indent c, length_printed indent cs, treeSize]
end

/-- **C113, the other outputs.** When the charts are drawn, first the sum of the counts and the time are printed, then
the first two charts show the counts and the averages of the types (0 for one that is missing) and the last the times of
completion if there are any; the figure is saved before components are printed, and there is one line for each of
them (C113_lines says which). -/
theorem C113_overall (argsort : List Int → List Nat) (d : Top) (o : OpStats) (cs : List Comp)
    (h1 : d.get "stats" (.numbers {}) = .numbers o) (h2 : d.get "components" (.list []) = .list cs) (hc : cs ≠ [])
    (counts : List (String × Int)) (ho : o.opCounts = some counts) (ht : counts.length = 1 ∨ counts.length = 4) :
    ∃ labels values lines, summarize argsort d = (.ok (),
      [.title, .totalOperations (counts.map (·.2)).sum, .totalTime (o.totalTime.getD 0),
        .bars 0 0 (counts.map (·.1)) (counts.map fun e => (e.2 : ℚ)),
        .bars 0 1 (counts.map (·.1)) [o.avgLoad.getD 0, o.avgSet.getD 0, o.avgAlu.getD 0, o.avgMvm.getD 0],
        .bars 1 0 labels values,
        match o.completionTimes with | some times => .timeline times | none => .noTimeline,
        .saved, .componentsTitle] ++ lines) ∧ lines.length = treeSize cs ∧
      ∀ x ∈ lines, ∃ indent type id operations time, x = Out.component indent type id operations time := by
  have he : ¬ (o.isEmpty = true ∨ (Entry.list cs).isEmpty = true) := by
    rintro (h | h)
    · have : o = {} := of_decide_eq_true h
      rw [this] at ho
      cases ho
    · cases cs <;> first | exact hc rfl | cases h
  rw [summarize_eq argsort d o cs h1 h2 hc]
  unfold visualize
  rw [if_neg he]
  dsimp only
  rw [ho, Option.getD_some, List.length_map, if_pos ht]
  refine ⟨(topTen argsort (cs.flatMap nodeBars)).map (·.1), (topTen argsort (cs.flatMap nodeBars)).map fun e => (e.2 : ℚ),
    printComponents 0 cs, ?_, length_printed 0 cs, printed_components 0 cs⟩
  rw [OpStats.ops, ho]
  unfold timelineOf
  rfl

/-- **C113, too little.** Without numbers or without components only the sum and the time are printed. -/
theorem C113_insufficient (argsort : List Int → List Nat) (d : Top) (hd : d ≠ []) (o : OpStats) (cs : List Comp)
    (h1 : d.get "stats" (.numbers {}) = .numbers o) (h2 : d.get "components" (.list []) = .list cs)
    (h : o = {} ∨ cs = []) :
    summarize argsort d = (.ok (), [.title, .totalOperations ((o.opCounts.getD []).map (·.2)).sum,
      .totalTime (o.totalTime.getD 0), .insufficient]) := by
  have hd' : d.isEmpty = false := by cases d <;> first | exact absurd rfl hd | rfl
  have he : o.isEmpty = true ∨ (Entry.list cs).isEmpty = true := by
    rcases h with rfl | rfl
    · exact .inl (by decide)
    · exact .inr rfl
  unfold summarize
  rw [hd', if_neg (by decide), h1, h2]
  dsimp only
  unfold visualize
  rw [if_pos he]
  rfl

/-- **C113, no list of components.** If what stands under "components" is an object (as the `Stats` of a report) or a
dictionary with numbers, the first two charts are drawn, then AttributeError is raised: no figure is saved. -/
theorem C113_no_list (argsort : List Int → List Nat) (d : Top) (hd : d ≠ []) (o : OpStats) (e : Entry) (ho : o ≠ {})
    (h1 : d.get "stats" (.numbers {}) = .numbers o) (h2 : d.get "components" (.list []) = e)
    (he : e = .object ∨ ∃ p : OpStats, p ≠ {} ∧ e = .numbers p)
    (hn : (o.opCounts.getD []).length = 1 ∨ (o.opCounts.getD []).length = 4) :
    summarize argsort d = (.error .attributeError, [.title, .totalOperations ((o.opCounts.getD []).map (·.2)).sum,
      .totalTime (o.totalTime.getD 0),
      .bars 0 0 ((o.opCounts.getD []).map (·.1)) ((o.opCounts.getD []).map fun e => (e.2 : ℚ)),
      .bars 0 1 ((o.opCounts.getD []).map (·.1))
        [o.avgLoad.getD 0, o.avgSet.getD 0, o.avgAlu.getD 0, o.avgMvm.getD 0]]) := by
  have hd' : d.isEmpty = false := by cases d <;> first | exact absurd rfl hd | rfl
  have hempty : ∀ p : OpStats, p ≠ {} → p.isEmpty = false := fun p hp => decide_eq_false hp
  have hx : ¬(o.isEmpty = true ∨ e.isEmpty = true) := by
    rintro (h | h)
    · rw [hempty o ho] at h
      exact absurd h (by decide)
    · rcases he with rfl | ⟨p, hp, rfl⟩
      · exact absurd h (by decide)
      · exact absurd ((hempty p hp).symm.trans h) (by decide)
  have hl : ((o.opCounts.getD []).map (·.1)).length = 1 ∨ ((o.opCounts.getD []).map (·.1)).length = 4 := by
    rwa [List.length_map]
  unfold summarize
  rw [hd', if_neg (by decide), h1, h2]
  dsimp only
  unfold visualize
  rw [if_neg hx]
  dsimp only
  rw [if_pos hl]
  rcases he with rfl | ⟨p, _, rfl⟩ <;> rfl

/-- Numbers of one type, and the `Stats` of a component called "components". -/
example : summarize (fun _ => [])
    [("stats", .numbers { opCounts := some [("load", 3)] }), ("components", .object)] =
    (.error .attributeError, [.title, .totalOperations 3, .totalTime 0, .bars 0 0 ["load"] [3],
      .bars 0 1 ["load"] [0, 0, 0, 0]]) := by
  rw [C113_no_list _ _ (by simp) { opCounts := some [("load", 3)] } .object (by decide) (by rfl) (by rfl) (.inl rfl)
    (.inl rfl)]
  simp

/-- A sort of positions by insertion, and a report of four types with one node, one tile and twelve cores. -/
def demoArgsort (l : List Int) : List Nat := (List.range l.length).insertionSort fun i k => l.getD i 0 ≤ l.getD k 0

theorem demoArgsort_sorts : sorts demoArgsort := by
  intro l
  refine ⟨List.perm_insertionSort _ _, List.pairwise_map.2 ?_⟩
  have : Std.Total fun i k : Nat => l.getD i 0 ≤ l.getD k 0 := ⟨fun i k => le_total _ _⟩
  have : IsTrans Nat fun i k : Nat => l.getD i 0 ≤ l.getD k 0 := ⟨fun _ _ _ h k => le_trans h k⟩
  exact List.pairwise_insertionSort _ _

def demoCounts (n : Int) : OpStats :=
  { opCounts := some [("load", n), ("set", 1), ("alu", 0), ("mvm", 2)], totalTime := some 7 }

def demoTree : List Comp :=
  [.mk (some "node") (some "0") (some (demoCounts 40)) [.mk (some "tile") (some "2") (some (demoCounts 30))
    ((List.range 12).map fun i => .mk (some "core") (some (toString i)) (some (demoCounts i)) [])]]

def demoTop : Top := [("stats", .numbers (demoCounts 40)), ("components", .list demoTree)]

example := C113_report demoArgsort demoPower demoSim [] demoReport.1 demoReport.2 demoReport_eq
example := C113_chart demoArgsort demoArgsort_sorts demoTop (demoCounts 40) demoTree rfl rfl (by simp [demoTree])
  (.inr rfl)
example := C113_overall demoArgsort demoTop (demoCounts 40) demoTree rfl rfl (by simp [demoTree]) _ rfl (.inr rfl)
example := C113_insufficient demoArgsort [("stats", .numbers (demoCounts 40))] (by simp) (demoCounts 40) [] rfl rfl
  (.inr rfl)
example : treeSize demoTree = 14 := by decide
example : barCount demoTree = 14 := by decide
example : (topTen demoArgsort (demoTree.flatMap nodeBars)).length = 10 := by decide +kernel
example : ("Core 0.2.11", 14) ∈ topTen demoArgsort (demoTree.flatMap nodeBars) := by decide +kernel
example : ("Core 0.2.3", 6) ∉ topTen demoArgsort (demoTree.flatMap nodeBars) := by decide +kernel
example := C113_lines demoArgsort demoTop (demoCounts 40) demoTree rfl rfl (by simp [demoTree]) (.inr rfl) 2 "core" "11"
  14 7
example : Out.component 2 "core" "11" 14 7 ∈ (summarize demoArgsort demoTop).2 := by decide +kernel
example := C113_types demoArgsort
  [("stats", .numbers { opCounts := some [("load", 3), ("mvm", 1)] }), ("components", .list demoTree)]
  { opCounts := some [("load", 3), ("mvm", 1)] } demoTree rfl rfl (by simp [demoTree]) (by decide) (by decide)

end Ramwich
