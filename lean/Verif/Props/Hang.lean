import Verif.Lemmas.WaitEnd
import Verif.Spec.MnistHang
import Verif.Props.Mnist

/-! # C92: a check that finds hangs; the example of the repository can hang -/
namespace Ramwich

open Spec

/-- The hypotheses of C92: those of C85 (`checked`), with a sequence of moves that ends in a hang. The check does not look
at the data in the DRAMs, the weights or the noise. -/
structure Spec.hanging (cfg : SysCfg) (c c' : Config) (size : Nat) (valid : Nat → Nat) (moves : List WaitMove)
    (i : SysInit) : Prop where
  simulable : Simulable c
  build : c.build = .ok c'
  unit : 0 < c'.mvmuConfig.xbarSize * c'.numMvmusPerCore
  lists : i.ok
  words : ∀ t < cfg.net.tiles, (i.mem t).size = size
  there : ∀ t < cfg.net.tiles, ∀ a, (i.valid t).getD a false = (valid t).testBit a
  cores : ∀ t < cfg.net.tiles, ∀ k < cfg.cores, ∃ fl hist, i.core t k = (Core.new c').after fl hist
  check : hangsWith (coreParamsOf c' id id) size cfg.net.tiles cfg.cores valid i.prog i.ops moves

variable {c c' : Config} {size : Nat} {valid : Nat → Nat}

/-- C92: what the check finds is there: the node, with some latencies, has a run that raises nothing, after which nothing
happens any more, with a program that is not executed to its end and a read that waits although all its words are valid.
This holds for all data, all weights, all noise and all activation functions. -/
theorem C92_hangs (cfg : SysCfg) (i : SysInit) {moves : List WaitMove} (h : hanging cfg c c' size valid moves i) :
    ∃ cfg' as s, sameMachine cfg cfg' ∧ i.start.run cfg' as = some s ∧ s.crashed = none ∧ atRest cfg' s ∧
      ¬finished cfg' s ∧ strandedRead cfg' s := by
  obtain ⟨as, F, h1, h2⟩ := hangs_run h.simulable h.build h.unit id id h.lists h.words h.there h.cores h.check
  exact ⟨cfg.instant, as, F, ⟨rfl, rfl, rfl, rfl⟩, h1, h2⟩

/-- C92: a program that passes both checks, that of C85 and this one: which of the two happens is decided by the order of
events alone. There is a run to the end, and with the same start a run after which nothing happens any more and which has
not come to the end. -/
theorem C92_both (cfg : SysCfg) (i : SysInit) {moves : List DryMove} {moves' : List WaitMove}
    (h : checked cfg c c' size valid moves i)
    (h' : hangsWith (coreParamsOf c' id id) size cfg.net.tiles cfg.cores valid i.prog i.ops moves') :
    ∃ cfg' as F as' s, sameMachine cfg cfg' ∧ i.start.run cfg' as = some F ∧ finished cfg' F ∧
      i.start.run cfg' as' = some s ∧ s.crashed = none ∧ atRest cfg' s ∧ ¬finished cfg' s ∧ strandedRead cfg' s := by
  obtain ⟨as, F, h1, h2, -, -⟩ := h.run
  obtain ⟨as', s, h3, h4⟩ := hangs_run h.simulable h.build h.unit id id h.lists h.words h.there h.cores h'
  exact ⟨cfg.instant, as, F, as', s, ⟨rfl, rfl, rfl, rfl⟩, h1, h2, h3, h4⟩

set_option maxRecDepth 10000 in
theorem mnist_hangs : hangsWith (coreParamsOf mnistBuilt id id) mnistBuilt.tileConfig.edramSize
    mnistBuilt.numTilesPerNode mnistBuilt.numCoresPerTile (inputWords 784 0) (coreProgram mnistFile 0)
    (tileProgram mnistFile 0) mnistHang := by decide +kernel

theorem hangsWith_congr {p : CoreParams} {tiles cores : Nat} {prog prog' : Nat → Nat → List CoreOp}
    {ops ops' : Nat → List TileOp} {moves : List WaitMove}
    (hp : ∀ t < tiles, ops t = ops' t ∧ ∀ k < cores, prog t k = prog' t k) :
    hangsWith p size tiles cores valid prog ops moves ↔ hangsWith p size tiles cores valid prog' ops' moves := by
  have e : dryStart p tiles cores valid prog ops = dryStart p tiles cores valid prog' ops' := by
    unfold dryStart
    refine mapM_option_congr fun t ht => ?_
    have ht := List.mem_range.1 ht
    rw [(hp t ht).1, mapM_option_congr fun k hk => by rw [(hp t ht).2 k (List.mem_range.1 hk)]]
  unfold hangsWith
  rw [e]

/-- C92: the same for programs in files: a simulator that is made from a file of operations, any file of weights and any
activation of this length, whose node `a` passes both checks, has a run of this node to the end and one that hangs. -/
theorem C92_files {a : Nat} {js : List Json} {ps : List Placed} {act : Activation} {xs : List ℚ} {moves : List DryMove}
    {moves' : List WaitMove} (h : runnable c c' a js ps act xs moves)
    (h' : hangsWith (coreParamsOf c' id id) c'.tileConfig.edramSize c'.numTilesPerNode c'.numCoresPerTile
      (inputWords xs.length a) (coreProgram ps a) (tileProgram ps a) moves') (l : Libs) (w : NpzFile) (fl : FloatActs)
    (noise : Nat → Nat → Nat → Nat → Nat → Noise) :
    ∃ n, (simulator l c' js w act).nodes[a]? = some n ∧
      ∃ cfg as F as' s, sameMachine (c'.sysCfg fl noise) cfg ∧
        (n.start c').run cfg as = some F ∧ finished cfg F ∧
        (n.start c').run cfg as' = some s ∧ s.crashed = none ∧ atRest cfg s ∧ ¬finished cfg s ∧ strandedRead cfg s := by
  obtain ⟨n, hn, hs, hch, -, hp⟩ := runnable_checked h l w fl noise
  refine ⟨n, hn, ?_⟩
  rw [hs]
  exact C92_both _ _ hch (moves' := moves') ((hangsWith_congr (prog' := coreProgram ps a) (ops' := tileProgram ps a) hp).2 h')

/-- C92: the example of the repository can hang. For every way to write its operations to a file, every file of weights,
every activation of 784 values, all noise and all activation functions there is an order of events (with some latencies) in
which the example comes to its end (C86), and one after which nothing happens any more although it has not come to its
end: a read waits although all its words are valid. -/
theorem C92_mnist (js : List Json) (hj : writes js mnistFile) (act : Activation) (xs : List ℚ)
    (ha : act = .array xs ∨ act = .file 1 xs) (hx : xs.length = 784) (l : Libs) (w : NpzFile) (fl : FloatActs)
    (noise : Nat → Nat → Nat → Nat → Nat → Noise) :
    ∃ n, (simulator l mnistBuilt js w act).nodes[0]? = some n ∧
      ∃ cfg as F as' s, sameMachine (mnistBuilt.sysCfg fl noise) cfg ∧
        (n.start mnistBuilt).run cfg as = some F ∧ finished cfg F ∧
        (n.start mnistBuilt).run cfg as' = some s ∧ s.crashed = none ∧ atRest cfg s ∧ ¬finished cfg s ∧
        strandedRead cfg s := by
  exact C92_files (mnist_runnable hj ha hx) (by rw [hx]; exact mnist_hangs) l w fl noise

/-! The program of `C78_timing_decides`. -/

/-- Both loads ask before the store: the first gets its words, the second is not looked at. -/
def tripleHang : List WaitMove :=
  [.ask 0 (.core 0), .ask 0 (.core 1), .go (.core 0 2), .resume 0 (.core 0), .go (.core 0 0), .go (.core 0 2)]

theorem triple_there (t a : Nat) : (tripleInit.valid t).getD a false = (3 : Nat).testBit a := by
  show demoValid.getD a false = _
  rw [show (3 : Nat) = 2 ^ 2 - 1 from rfl, Nat.testBit_two_pow_sub_one]
  by_cases h : a < 8
  · exact (by decide : ∀ a < 8, demoValid.getD a false = decide (a < 2)) a h
  · rw [List.getD_eq_getElem?_getD, List.getElem?_eq_none (by simpa [demoValid] using h)]
    exact (decide_eq_false (by omega)).symm

theorem triple_hanging : hanging oneTileSys demoCore demoCoreBuilt 8 (fun _ => 3) tripleHang tripleInit where
  simulable := demoCore_simulable
  build := demoCore_build
  unit := by decide +kernel
  lists := tripleInit_ok
  words _ _ := rfl
  there t _ a := triple_there t a
  cores _ _ _ _ := ⟨someActs, [], rfl⟩
  check := by decide +kernel

theorem triple_checked : checked oneTileSys demoCore demoCoreBuilt 8 (fun _ => 3)
    [.core 0 2, .core 0 0, .core 0 1, .core 0 0, .core 0 1, .core 0 2, .tile 0] tripleInit where
  simulable := demoCore_simulable
  build := demoCore_build
  unit := by decide +kernel
  lists := tripleInit_ok
  words _ _ := rfl
  there t _ a := triple_there t a
  cores _ _ _ _ := ⟨someActs, [], rfl⟩
  check := by decide +kernel

example := C92_hangs oneTileSys tripleInit triple_hanging
example := C92_both oneTileSys tripleInit triple_checked triple_hanging.check
example := C92_mnist _ (writes_fields false mnistFile) (.array (List.replicate 784 (1 / 2))) _ (.inl rfl)
  List.length_replicate someLibs .missing someActs

/-- If the loads ask for the words one after the other, no read is skipped: the moves end in no hang. -/
example : ¬ hangsWith (coreParamsOf demoCoreBuilt id id) 8 1 3 (fun _ => 3) tripleInit.prog tripleInit.ops
    [.ask 0 (.core 0), .go (.core 0 2), .resume 0 (.core 0), .go (.core 0 1), .go (.core 0 0), .go (.core 0 1),
      .go (.core 0 2)] := by
  decide +kernel

end Ramwich
