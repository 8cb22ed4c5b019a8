import Verif.Spec.CoreTest
import Verif.Props.TileTest

/-! # C105: tests/test_core_features.py -/
namespace Ramwich

open Spec

/-- The words 0-127 of tile 2. -/
def coreTestValid (t : Nat) : Nat := if t = 2 then 2 ^ 128 - 1 else 0

def coreTestMoves : List DryMove := [.core 2 0, .core 2 0, .core 2 0, .core 2 1, .core 2 1, .core 2 1, .core 0 0, .core 0 1,
  .core 1 0, .core 1 1]

set_option maxRecDepth 10000 in
theorem coreTest_accepted : accepted (coreParamsOf tileTestBuilt id id) tileTestBuilt.tileConfig.edramSize 3 2 coreTestValid
    tileFixedProg (fun _ => []) coreTestMoves := by decide +kernel

theorem coreTest_apart : apart (coreParamsOf tileTestBuilt id id) 3 2 tileFixedProg (fun _ => []) := by decide +kernel

set_option maxRecDepth 10000 in
theorem coreTest_formula : ((learnAll (coreParamsOf tileTestBuilt id id).place tileFixedProg (fun _ => [])
    [((2, 0, 128), .input 0 128)] [.store 2 0 0, .store 2 1 0]).bind
    fun known => known.lookup (2, 256, 128)) = some tileTestFormula := by decide +kernel

theorem coreTest_positive : ∀ t < 3, ∀ k < 2, ∀ op ∈ upToHlt (tileFixedProg t k), CoreOp.positive op := by decide +kernel

section
variable {mat0 mat1 : List (List ℚ)} {activation : List Int} {i : SysInit} (h : coreTest mat0 mat1 activation i)
  {cfg : SysCfg} (ht : cfg.net.tiles = 3) (hk : cfg.cores = 2)
include h ht hk

theorem coreTest_checked : checked cfg tileTestConfig tileTestBuilt tileTestBuilt.tileConfig.edramSize coreTestValid coreTestMoves i where
  simulable := tileTest_simulable
  build := tileTest_build
  unit := by decide +kernel
  lists := h.lists
  words := by rw [ht]; exact h.size
  there := by
    rw [ht]
    intro t h3 a
    rw [h.valid t h3 a]
    unfold coreTestValid
    by_cases h2 : t = 2
    · rw [if_pos h2, Nat.testBit_two_pow_sub_one]
      simp [h2]
    · rw [if_neg h2, Nat.zero_testBit]
      simp [h2]
  cores := by
    rw [ht, hk]
    intro t h3 k h2
    obtain ⟨fl, e⟩ := h.core t h3 k h2
    exact ⟨fl, _, e⟩
  check := by rw [ht, hk, h.prog, h.ops]; exact coreTest_accepted

theorem coreTest_composed (hs : coreTestSizes mat0 mat1 activation) :
    composed cfg tileTestConfig tileTestBuilt (coreTestWeights mat0 mat1) i where
  simulable := tileTest_simulable
  build := tileTest_build
  unit := by decide +kernel
  lists := h.lists
  cores := by rw [ht, hk]; exact h.core
  matrices := by
    rw [ht, hk]
    intro t h3 k h2 w hw
    have hx : tileTestBuilt.mvmuConfig.xbarSize = 128 := by decide +kernel
    have hm : 0 < tileTestBuilt.numMvmusPerCore := by decide +kernel
    have : w.1 = 0 ∧ w.2 ∈ [mat0, mat1] := by
      unfold coreTestWeights at hw
      split at hw
      · cases List.mem_singleton.1 hw; exact ⟨rfl, by simp⟩
      · cases List.mem_singleton.1 hw; exact ⟨rfl, by simp⟩
      · cases hw
    rw [hx, this.1]
    exact ⟨hm, hs.2 _ this.2⟩
  positive := by rw [ht, hk, h.prog]; exact coreTest_positive
  matched := by rw [h.ops]; intros; rfl

variable (hl : latenciesOk cfg i) (as : List SysAct) (s : Sys) (hrun : i.start.run cfg as = some s)
include hl hrun

/-- C105: the core test ends, with all weights, activations and latencies: nothing raises, whatever has happened it can be
continued until nothing happens any more, and then both cores have executed their programs. -/
theorem C105_ends : s.crashed = none ∧ (∃ bs s', s.run cfg bs = some s' ∧ atRest cfg s') ∧
    ∀ bs s', s.run cfg bs = some s' → atRest cfg s' → finished cfg s' :=
  have hc := coreTest_checked h ht hk
  ⟨C85_never_raises cfg i hc hl as s hrun, C94_finishes cfg i hc hl (by rw [ht, hk, h.prog, h.ops]; exact coreTest_apart) as s hrun⟩

omit hl in
/-- C105: what it computes: in any order of events, words 256-383 of tile 2 are two layers of rectified products, once both cores
have executed their programs. -/
theorem C105_result (hs : coreTestSizes mat0 mat1 activation) (hf : finished cfg s) :
    wordsAt (wordsOf (s.tile 2).ctrl.mem) 256 128 = tileTestOutput (coreParamsWith tileTestBuilt cfg.fl)
      (fun _ k _ => entry (if k = 0 then mat0 else mat1)) (fun t k n => errorsOf (cfg.noise t k n)) activation := by
  obtain ⟨final, hsol, -⟩ := C87_accepted cfg _ _ _ _ _ _ i (coreTest_checked h ht hk) (coreTest_composed h ht hk hs) as s hrun hf
  unfold equations at hsol
  rw [ht, hk, h.prog, h.ops] at hsol
  have hmem := words_fit (fun t => (s.tile t).ctrl.mem)
  let N : NodeEnv := ⟨coreParamsWith tileTestBuilt cfg.fl, wordsOf (i.mem 2),
    fun t k m => ((CoreState.loadAll {} (coreTestWeights mat0 mat1 t k)).units m).weights, fun t k n => errorsOf (cfg.noise t k n)⟩
  obtain ⟨p1, p2, -⟩ := tileTest_params
  have hin : wordsAt (wordsOf (i.mem 2)) 0 128 = activation := by
    apply List.ext_getElem
    · simp [wordsAt, hs.1]
    · intro j h1 h2
      have hj : j < 128 := by rw [← hs.1]; exact h2
      simp only [wordsAt, List.getElem_map, List.getElem_range, Nat.zero_add]
      rw [h.words j hj, List.getD_eq_getElem?_getD, List.getElem?_eq_getElem h2, Option.getD_some]
  have hstart : KnownOk N (fun t => wordsOf (s.tile t).ctrl.mem) [((2, 0, 128), .input 0 128)] := by
    intro x hx
    rw [List.mem_singleton] at hx
    subst hx
    show wordsAt (wordsOf (s.tile 2).ctrl.mem) 0 128 = wordsAt (wordsOf (i.mem 2)) 0 128
    unfold wordsAt
    apply List.map_congr_left
    intro j hj
    have hj := List.mem_range.1 hj
    refine hsol.input 2 (by omega) _ ⟨?_, ?_⟩
    · rw [h.size 2 (by omega)]
      refine lt_of_lt_of_le (by omega : 0 + j < 128) ?_
      decide +kernel
    · rw [h.valid 2 (by omega)]
      simp [hj]
  have hf := coreTest_formula
  cases hkn : learnAll (coreParamsOf tileTestBuilt id id).place tileFixedProg (fun _ => [])
      [((2, 0, 128), .input 0 128)] [.store 2 0 0, .store 2 1 0] with
  | none => rw [hkn] at hf; cases hf
  | some known =>
    rw [hkn] at hf
    have hok := learnAll_ok (N := N) (show (coreParamsOf tileTestBuilt id id).actWidth ≤ 30 by rw [p1]; decide) p2 rfl hsol hmem _ _ _
      (by decide) hstart hkn
    refine (hok _ (lookup_pair hf)).trans ?_
    show N.p.rectified (N.p.product _ _ (N.p.rectified (N.p.product _ _ (wordsAt (wordsOf (i.mem 2)) 0 128) 128)) 128) = _
    rw [hin]
    rfl

omit hl in
/-- C105: so no word of the output is greater than 255, and the assertion of the test (test_core_features.py:63) fails for all
weights and activations for which an element of `expected_output` is. -/
theorem C105_assertion (hs : coreTestSizes mat0 mat1 activation) (hf : finished cfg s) (m0 m1 : Nat → Nat → Int)
    (x : Nat → Int) (hbig : ∃ v ∈ tileTestExpected m0 m1 x, 255 < v) :
    (∀ v ∈ wordsAt (wordsOf (s.tile 2).ctrl.mem) 256 128, 0 ≤ v ∧ v ≤ 255) ∧
    wordsAt (wordsOf (s.tile 2).ctrl.mem) 256 128 ≠ tileTestExpected m0 m1 x := by
  have hb : ∀ v ∈ wordsAt (wordsOf (s.tile 2).ctrl.mem) 256 128, 0 ≤ v ∧ v ≤ 255 := by
    rw [C105_result h ht hk as s hrun hs hf]
    intro v hv
    unfold tileTestOutput CoreParams.rectified at hv
    obtain ⟨a, -, rfl⟩ := List.mem_map.1 hv
    have hw : (coreParamsWith tileTestBuilt cfg.fl).actWidth = 8 := tileTest_params.1
    rw [hw]
    unfold clampTo
    omega
  refine ⟨hb, fun e => ?_⟩
  obtain ⟨v, hv, h3⟩ := hbig
  rw [← e] at hv
  have := (hb v hv).2
  omega

end

/-! ## The test with any weights and activation -/

/-- The node of the test with these weights and this activation. -/
def coreTestInit (size : Nat) (mat0 mat1 : List (List ℚ)) (activation : List Int) : SysInit where
  mem t := if t = 2 then { size := size, cells := activation.map (BitVec.ofInt 32) ++ List.replicate (size - 128) 0 }
    else Memory.new size
  valid t := if t = 2 then List.replicate 128 true ++ List.replicate (size - 128) false else List.replicate size false
  core t k := (Core.new tileTestBuilt).after someActs ((coreTestWeights mat0 mat1 t k).map fun w => .load w.1 w.2)
  prog := tileFixedProg
  ops _ := []

theorem coreTest_init (size : Nat) (h128 : 128 ≤ size) (hsize : size = tileTestBuilt.tileConfig.edramSize) (mat0 mat1 : List (List ℚ))
    (activation : List Int) (hl : activation.length = 128) (hr : ∀ v ∈ activation, fits32 v) :
    coreTest mat0 mat1 activation (coreTestInit size mat0 mat1 activation) where
  prog := rfl
  ops := rfl
  lists := by
    intro t
    unfold coreTestInit
    by_cases h2 : t = 2
    · simp only [if_pos h2, List.length_append, List.length_map, List.length_replicate, hl]
      omega
    · simp only [if_neg h2, Memory.new, List.length_replicate]
      trivial
  size := by
    intro t _
    rw [← hsize]
    show (if t = 2 then _ else _ : Memory).size = _
    split <;> rfl
  words := by
    intro j hj
    show (((activation.map (BitVec.ofInt 32) ++ List.replicate (size - 128) 0).getD j 0).toInt : Int) = _
    have hj' : j < activation.length := by omega
    rw [List.getD_eq_getElem?_getD, List.getElem?_append_left (by simpa using hj'), List.getElem?_map,
      List.getElem?_eq_getElem hj', Option.map_some, Option.getD_some, List.getD_eq_getElem?_getD, List.getElem?_eq_getElem hj',
      Option.getD_some]
    rw [toInt_ofInt32]
    exact wrap32_of_fits (hr _ (List.getElem_mem _))
  valid := by
    intro t _ a
    show (if t = 2 then _ else _ : List Bool).getD a false = _
    by_cases h2 : t = 2
    · rw [if_pos h2, List.getD_eq_getElem?_getD, List.getElem?_append]
      by_cases ha : a < 128
      · rw [List.length_replicate, if_pos ha, List.getElem?_replicate, if_pos ha, Option.getD_some, eq_comm, decide_eq_true_iff]
        exact ⟨h2, ha⟩
      · simp only [List.length_replicate, ha, if_false, List.getElem?_replicate, h2, and_false, decide_false]
        split <;> rfl
    · rw [if_neg h2, List.getD_eq_getElem?_getD, List.getElem?_replicate]
      simp only [h2, false_and, decide_false]
      split <;> rfl
  core := fun _ _ _ _ => ⟨someActs, rfl⟩

/-- The latency of the operation is there and not negative. -/
def latencyThere : CoreOp → Bool
  | .load _ _ _ vec => decide (0 ≤ vec)
  | .store .. => true
  | op => match tileTestBuilt.executionLatency op with
    | .ok d => decide (0 ≤ d)
    | .error _ => false

theorem latencyThere_some {r : Except PyErr Int} (h : (match r with | .ok d => decide (0 ≤ d) | .error _ => false) = true) :
    ∃ d, r = .ok d ∧ 0 ≤ d := by
  cases r with
  | ok d => exact ⟨d, rfl, of_decide_eq_true h⟩
  | error e => exact absurd h (by simp)

theorem coreTest_latencies (size : Nat) (mat0 mat1 : List (List ℚ)) (activation : List Int) (fl : FloatActs)
    (noise : Nat → Nat → Nat → Nat → Nat → Noise) :
    latenciesOk (tileTestBuilt.sysCfg fl noise) (coreTestInit size mat0 mat1 activation) where
  edram := Int.natCast_nonneg _
  dataMem := Int.natCast_nonneg _
  exec := by
    show ∀ t < tileTestBuilt.numTilesPerNode, ∀ k < tileTestBuilt.numCoresPerTile, ∀ op ∈ tileFixedProg t k, _
    have h1 : tileTestBuilt.numTilesPerNode = 3 := by decide +kernel
    have h2 : tileTestBuilt.numCoresPerTile = 2 := by decide +kernel
    rw [h1, h2]
    have key : ∀ t < 3, ∀ k < 2, ∀ op ∈ tileFixedProg t k, latencyThere op = true := by
      decide +kernel
    intro t ht k hk op hop
    have h := key t ht k hk op hop
    unfold latencyThere at h
    cases op <;> first
      | trivial
      | exact of_decide_eq_true h
      | (simp only at h ⊢
         exact latencyThere_some h)
  net := ⟨_, rfl, Int.natCast_nonneg _⟩
  nodes := by
    show 1 ≤ tileTestBuilt.numNodes
    decide +kernel

/-- The test with all weights 2 and all activations 1: it ends, and its assertion fails. -/
example (fl : FloatActs) (noise : Nat → Nat → Nat → Nat → Nat → Noise) : ∃ i as s, coreTest (List.replicate 128 (List.replicate 128 2))
    (List.replicate 128 (List.replicate 128 2)) (List.replicate 128 1) i ∧
    i.start.run (tileTestBuilt.sysCfg fl noise) as = some s ∧ finished (tileTestBuilt.sysCfg fl noise) s ∧
    wordsAt (wordsOf (s.tile 2).ctrl.mem) 256 128 ≠ tileTestExpected (fun _ _ => 2) (fun _ _ => 2) (fun _ => 1) := by
  have hi := coreTest_init tileTestBuilt.tileConfig.edramSize (by decide +kernel) rfl (List.replicate 128 (List.replicate 128 2))
    (List.replicate 128 (List.replicate 128 2)) (List.replicate 128 1) List.length_replicate (fun v hv => by
      rw [List.eq_of_mem_replicate hv]; unfold fits32; norm_num)
  have ht : (tileTestBuilt.sysCfg fl noise).net.tiles = 3 := by
    show tileTestBuilt.numTilesPerNode = 3
    decide +kernel
  have hk : (tileTestBuilt.sysCfg fl noise).cores = 2 := by
    show tileTestBuilt.numCoresPerTile = 2
    decide +kernel
  obtain ⟨-, ⟨bs, s, h1, h2⟩, h3⟩ := C105_ends hi ht hk (coreTest_latencies _ _ _ _ fl noise) [] _ rfl
  have hsz : coreTestSizes (List.replicate 128 (List.replicate 128 2)) (List.replicate 128 (List.replicate 128 2))
      (List.replicate 128 1) := by
    refine ⟨List.length_replicate, fun m hm => ?_⟩
    have : m = List.replicate 128 (List.replicate 128 2) := by simpa using hm
    rw [this]
    exact ⟨List.length_replicate, fun row hrow => by rw [List.eq_of_mem_replicate hrow]; exact List.length_replicate⟩
  exact ⟨_, bs, s, hi, h1, h3 bs s h1 h2, (C105_assertion hi ht hk bs s h1 hsz (h3 bs s h1 h2) _ _ _
    ⟨65536, by decide +kernel, by decide⟩).2⟩

end Ramwich
