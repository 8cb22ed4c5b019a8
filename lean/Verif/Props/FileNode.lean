import Verif.Lemmas.FileNode
import Verif.Props.Dataflow

/-! # C88: the equations of the files -/
namespace Ramwich

open Spec

variable {c c' : Config} {a : Nat} {js : List Json} {ps : List Placed} {act : Activation} {xs : List ℚ}
  {moves : List DryMove}

/-- C88: at the end of a complete run, with any schedule and any latencies, the contents of the DRAMs of the node solve
the equations of the operations, weights and activation that are in the files, and the registers are those of the
solution. -/
theorem C88_equations (h : runnable c c' a js ps act xs moves) (hp : paired c' ps a) (l : Libs) (w : NpzFile)
    (hw : shortIds l.uni w) (hr : ∀ x ∈ xs, inRange c'.dataConfig.activationFracBits x) (fl : FloatActs)
    (noise : Nat → Nat → Nat → Nat → Nat → Noise) :
    ∃ n, (simulator l c' js w act).nodes[a]? = some n ∧
      ∀ cfg as s, sameMachine (c'.sysCfg fl noise) cfg → (n.start c').run cfg as = some s → finished cfg s →
        ∃ final, solution (coreParamsWith c' fl) c'.numTilesPerNode c'.numCoresPerTile (coreProgram ps a) (tileProgram ps a)
            (fun t k => CoreState.loadAll {} (coreMatrices l.uni c' w a t k)) (fun t k i => errorsOf (noise t k i))
            (fun t i => a = 0 ∧ t = 0 ∧ i < xs.length) (fun _ i => fixedPoint c'.dataConfig.activationFracBits (xs.getD i 0))
            (fun t => wordsOf (s.tile t).ctrl.mem) final ∧
          ∀ t < c'.numTilesPerNode, ∀ k < c'.numCoresPerTile, ∀ (start : Int) (len : Nat), 0 < len →
            (((s.tile t).core k).core.readFromRegister start len).1.map (fun v => v.map BitVec.toInt)
              = (coreParamsWith c' fl).read (final t k) start len := by
  obtain ⟨n, hn, hs, hch, -, hprog⟩ := runnable_checked h l w fl noise
  refine ⟨n, hn, fun cfg as s hm hrun hf => ?_⟩
  rw [hs] at hrun
  have hT : cfg.net.tiles = c'.numTilesPerNode := hm.tiles
  have hC : cfg.cores = c'.numCoresPerTile := hm.cores
  have hch' : checked cfg c c' c'.tileConfig.edramSize (inputWords xs.length a) moves (nodeInit c' n) := by
    refine ⟨hch.simulable, hch.build, hch.unit, hch.lists, ?_, ?_, ?_, ?_⟩
    · rw [hT]; exact hch.words
    · rw [hT]; exact hch.there
    · rw [hT, hC]; exact hch.cores
    · rw [hT, hC]; exact hch.check
  have hcomp : composed cfg c c' (coreMatrices l.uni c' w a) (nodeInit c' n) := by
    refine ⟨hch.simulable, hch.build, hch.unit, hch.lists, ?_, ?_, ?_, ?_⟩
    · rw [hT, hC]
      exact fun t ht k hk => ⟨fl, runnable_core h l w hw fl hn t k ht hk⟩
    · exact fun t _ k _ => coreMatrices_shape l.uni c' w a t k
    · rw [hT, hC]
      intro t ht k hk
      rw [(hprog t ht).2 k hk]
      exact hp.positive t ht k hk
    · rw [hT]
      intro src hsrc dst hdst
      rw [(hprog src hsrc).1, (hprog dst hdst).1]
      exact hp.matched src hsrc dst hdst
  obtain ⟨final, ⟨h1, h2, h3⟩, h4⟩ := C87_accepted cfg c c' _ _ moves _ _ hch' hcomp as s hrun hf
  rw [hT, hC] at h4
  rw [hT] at h2 h3
  rw [hT, hC] at h1
  have hfl : cfg.fl = fl := hm.fl
  have hno : cfg.noise = noise := hm.noise
  rw [hfl] at h1 h4
  rw [hno] at h1
  refine ⟨final, ⟨fun t ht k hk => ?_, fun src hsrc dst hdst => ?_, fun t ht i hi => ?_⟩, h4⟩
  · have := h1 t ht k hk
    rw [(hprog t ht).2 k hk] at this
    exact this
  · have := h2 src hsrc dst hdst
    rw [(hprog src hsrc).1, (hprog dst hdst).1] at this
    exact this
  · obtain ⟨ha, rfl, hi⟩ := hi
    have hv : i < ((nodeInit c' n).mem 0).size ∧ ((nodeInit c' n).valid 0).getD i false = true := by
      rw [hch.words 0 ht, hch.there 0 ht]
      have := h.fits
      refine ⟨by omega, ?_⟩
      unfold inputWords
      rw [if_pos ⟨ha, rfl⟩, Nat.testBit_two_pow_sub_one]
      simpa using hi
    rw [h3 0 ht i hv]
    show wordsOf ((nodeInit c' n).mem 0) i = _
    rw [runnable_input h l w hr hn ha i hi, List.getD_eq_getElem?_getD, List.getElem?_eq_getElem hi]
    rfl

/-- C88: the weights of a unit are those of the last array of the file for it that has the size of the unit. -/
theorem C88_weights (l : Libs) (c : Config) (w : NpzFile) (a t k m : Nat) (hm : m < c.numMvmusPerCore) :
    ((CoreState.loadAll {} (coreMatrices l.uni c w a t k)).units m).weights = weightsIn l.uni c w a t k m :=
  coreMatrices_weights l.uni c w a t k m hm

end Ramwich
