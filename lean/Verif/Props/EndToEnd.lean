import Verif.Lemmas.Runnable

/-! # C86: from the files to the end of the simulation -/
namespace Ramwich

open Spec

variable {c c' : Config} {a : Nat} {js : List Json} {ps : List Placed} {act : Activation} {xs : List ℚ}
  {moves : List DryMove}

/-- C86: the loaders accept the files: all operations are placed, the activation is in the DRAM of tile 0 of node 0. -/
theorem C86_loads (h : runnable c c' a js ps act xs moves) (l : Libs) (w : NpzFile) :
    ((Sim.new c').loadOperations l.lax l.pick (.value (.arr js))).1 = .ok () ∧
    ((loaded l (Sim.new c') [.operations (.value (.arr js)), .weights w]).prepare l.oob (some act)).1 = .ok () ∧
    ∃ n, (simulator l c' js w act).nodes[a]? = some n ∧
      ∀ t < c'.numTilesPerNode, (nodeInit c' n).ops t = tileProgram ps a t ∧
        (∀ k < c'.numCoresPerTile, (nodeInit c' n).prog t k = coreProgram ps a t k) ∧
        ∀ i, ((nodeInit c' n).valid t).getD i false = decide (a = 0 ∧ t = 0 ∧ i < xs.length) := by
  have hready := C50_loaded c' ⟨fun _ x => x, fun _ x => x⟩ l [.operations (.value (.arr js)), .weights w]
  have h0 := face_operations l c' h.entries h.targets 0 0 (by have := h.node; omega) h.tiles
  have h00 : (tileAt (loaded l (Sim.new c') [.operations (.value (.arr js)), .weights w]) 0 0).isSome := by
    have h1 := h0.2
    rw [← face_weights l _ w] at h1
    rw [← Option.isSome_map (f := face)]
    exact (congrArg Option.isSome h1).trans rfl
  refine ⟨h0.1, (face_activation l hready act xs h.input h.fits h00 0 0).1, ?_⟩
  obtain ⟨n, hn, -, hch, -, hp⟩ := runnable_checked h l w ⟨fun _ x => x, fun _ x => x⟩ fun _ _ _ _ _ => ⟨fun _ _ _ => 0, fun _ _ _ => 0⟩
  refine ⟨n, hn, fun t ht => ⟨(hp t ht).1, (hp t ht).2, fun i => ?_⟩⟩
  rw [hch.there t ht i]
  unfold inputWords
  by_cases hz : a = 0 ∧ t = 0
  · rw [if_pos hz, Nat.testBit_two_pow_sub_one]
    simp [hz]
  · rw [if_neg hz, Nat.zero_testBit]
    exact (decide_eq_false (fun hh => hz ⟨hh.1, hh.2.1⟩)).symm

/-- C86: with every schedule no process raises, and however the run has begun, it can be continued until nothing happens
any more; then every program of the node is executed to its end, or a read is skipped (C32). -/
theorem C86_ends (h : runnable c c' a js ps act xs moves) (l : Libs) (w : NpzFile) (fl : FloatActs)
    (noise : Nat → Nat → Nat → Nat → Nat → Noise) :
    ∃ n, (simulator l c' js w act).nodes[a]? = some n ∧
      ∀ as s, (n.start c').run (c'.sysCfg fl noise) as = some s →
        s.crashed = none ∧ (∃ bs s', s.run (c'.sysCfg fl noise) bs = some s' ∧ atRest (c'.sysCfg fl noise) s') ∧
        ∀ bs s', s.run (c'.sysCfg fl noise) bs = some s' → atRest (c'.sysCfg fl noise) s' →
          finished (c'.sysCfg fl noise) s' ∨ strandedRead (c'.sysCfg fl noise) s' := by
  obtain ⟨n, hn, hs, hch, hl, -⟩ := runnable_checked h l w fl noise
  refine ⟨n, hn, fun as s hr => ?_⟩
  rw [hs] at hr
  have := C85_ends _ _ hch hl as s hr
  exact ⟨C85_never_raises _ _ hch hl as s hr, this.1, this.2⟩

/-- C86: the registers, DRAMs and executed operations at the end of a complete run of the node are determined by the
files, the weights and the noise: schedules and latencies have no influence. -/
theorem C86_same_result (h : runnable c c' a js ps act xs moves) (l : Libs) (w : NpzFile) (fl : FloatActs)
    (noise : Nat → Nat → Nat → Nat → Nat → Noise) :
    ∃ n, (simulator l c' js w act).nodes[a]? = some n ∧
      ∀ cfg' as as' s s', sameMachine (c'.sysCfg fl noise) cfg' → (n.start c').run (c'.sysCfg fl noise) as = some s →
        (n.start c').run cfg' as' = some s' → finished (c'.sysCfg fl noise) s → finished cfg' s' →
        ∀ t < c'.numTilesPerNode, (s'.tile t).log = (s.tile t).log ∧
          (∀ k < c'.numCoresPerTile, ((s'.tile t).core k).log = ((s.tile t).core k).log ∧
            ((s'.tile t).core k).core = ((s.tile t).core k).core) ∧
          ∀ i < c'.tileConfig.edramSize, (s'.tile t).ctrl.valid[i]? = (s.tile t).ctrl.valid[i]? ∧
            (s'.tile t).ctrl.mem.cells[i]? = (s.tile t).ctrl.mem.cells[i]? := by
  obtain ⟨n, hn, hs, hch, hl, -⟩ := runnable_checked h l w fl noise
  refine ⟨n, hn, fun cfg' as as' s s' hm hr hr' hf hf' t ht => ?_⟩
  rw [hs] at hr hr'
  have key := C85_same_result _ cfg' hm _ hch as as' s s' hr hr' hf hf' t ht
  rw [hch.words t ht] at key
  exact key

/-- C86: the same in simulated time: no process raises, and once the clock has passed the sum of the times of the
operations of the file, all programs of the node have been executed to their ends and all its tile processes have
returned, or a read is skipped. -/
theorem C86_simulation (h : runnable c c' a js ps act xs moves) (l : Libs) (w : NpzFile) (fl : FloatActs)
    (noise : Nat → Nat → Nat → Nat → Nat → Noise) :
    ∃ n, (simulator l c' js w act).nodes[a]? = some n ∧
      ∀ as f, (nodeInit c' n).fstart.run (c'.sysCfg fl noise) c'.stageLat as = some f →
        f.ts.sys.crashed = none ∧
        (fileCycles c' ps a < f.ts.now →
          f.ts.finished (c'.sysCfg fl noise) (nodeInit c' n) ∧ allReturned (c'.sysCfg fl noise) f ∨
          strandedRead (c'.sysCfg fl noise) (f.ts.plain (nodeInit c' n))) := by
  obtain ⟨n, hn, -, hch, hl, hp⟩ := runnable_checked h l w fl noise
  refine ⟨n, hn, fun as f hf => ?_⟩
  rw [fileCycles_eq c' fl noise (nodeInit c' n) ps a hp]
  exact C85_simulation _ _ _ hch hl as f hf

end Ramwich
