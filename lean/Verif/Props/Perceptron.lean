import Verif.Lemmas.Perceptron

/-! # C89: what the example of the repository computes -/
namespace Ramwich

open Spec

theorem words_fit (m : Nat → Memory) (t a : Nat) : fits32 (wordsOf (m t) a) := by
  unfold wordsOf fits32
  generalize (m t).cells.getD a 0 = v
  have h1 := BitVec.le_toInt v
  have h2 := BitVec.toInt_lt (x := v)
  constructor <;> omega

/-- C89: there are complete runs of the example, and a complete run, with any schedule and any latencies, for any weights, image, noise and activation
functions, ends with the outputs of the perceptron in words 0 to 9 of the DRAM of tile 1. -/
theorem C89_mnist (js : List Json) (hj : writes js mnistFile) (act : Activation) (xs : List ℚ)
    (ha : act = .array xs ∨ act = .file 1 xs) (hx : xs.length = 784) (hr : ∀ x ∈ xs, inRange 8 x) (l : Libs) (w : NpzFile)
    (hw : shortIds l.uni w) (fl : FloatActs) (noise : Nat → Nat → Nat → Nat → Nat → Noise) :
    ∃ n, (simulator l mnistBuilt js w act).nodes[0]? = some n ∧
      (∃ cfg as s, sameMachine (mnistBuilt.sysCfg fl noise) cfg ∧ (n.start mnistBuilt).run cfg as = some s ∧ finished cfg s) ∧
      ∀ cfg as s, sameMachine (mnistBuilt.sysCfg fl noise) cfg → (n.start mnistBuilt).run cfg as = some s →
        finished cfg s →
        wordsAt (wordsOf (s.tile 1).ctrl.mem) 0 10 =
          (coreParamsWith mnistBuilt fl).perceptron (mnistMul (coreParamsWith mnistBuilt fl)
            (weightsIn l.uni mnistBuilt w 0) fun t k i => errorsOf (noise t k i)) (xs.map (fixedPoint 8)) := by
  obtain ⟨-, -, hT, hC, hM, hF⟩ := mnist_params
  obtain ⟨n, hn, h⟩ := C88_equations (mnist_runnable hj ha hx) mnist_paired l w hw (by rw [hF]; exact hr) fl noise
  obtain ⟨n', hn', F, ⟨cfg, as, h5, h6, h7⟩, -⟩ := C86_mnist_result js hj act xs ha hx l w fl noise
  cases hn'.symm.trans hn
  refine ⟨n, hn, ⟨cfg, as, F, h5, h6, h7⟩, fun cfg as s hm hs hf => ?_⟩
  obtain ⟨final, h1, -⟩ := h cfg as s hm hs hf
  rw [hT, hC, hF] at h1
  have h2 := solution_congr mnist_programs.1 mnist_programs.2 h1
  have h3 := mnist_solution h2 (fun t a => words_fit (fun t => (s.tile t).ctrl.mem) t a) (xs.map (fixedPoint 8))
    (by rw [List.length_map, hx]) (fun i hi => ⟨⟨rfl, rfl, by omega⟩, by
      have hlt : i < xs.length := by omega
      simp only [List.getD_eq_getElem?_getD, List.getElem?_map, List.getElem?_eq_getElem hlt, Option.map_some,
        Option.getD_some]⟩)
  rw [h3, mnistMul_congr _ _ fun t k m hm6 => C88_weights l mnistBuilt w 0 t k m (by rw [hM]; exact hm6)]

/-- C89: the same in simulated time: after 256504 cycles the outputs of the perceptron are in words 0 to 9 of the DRAM of
tile 1 and all tiles have returned, or a read is skipped (C32). -/
theorem C89_simulation (js : List Json) (hj : writes js mnistFile) (act : Activation) (xs : List ℚ)
    (ha : act = .array xs ∨ act = .file 1 xs) (hx : xs.length = 784) (hr : ∀ x ∈ xs, inRange 8 x) (l : Libs) (w : NpzFile)
    (hw : shortIds l.uni w) (fl : FloatActs) (noise : Nat → Nat → Nat → Nat → Nat → Noise) :
    ∃ n, (simulator l mnistBuilt js w act).nodes = [n] ∧
      ∀ as f, (nodeInit mnistBuilt n).fstart.run (mnistBuilt.sysCfg fl noise) mnistBuilt.stageLat as = some f →
        256504 < f.ts.now →
        wordsAt (wordsOf (f.ts.sys.tile 1).ctrl.mem) 0 10 =
          (coreParamsWith mnistBuilt fl).perceptron (mnistMul (coreParamsWith mnistBuilt fl)
            (weightsIn l.uni mnistBuilt w 0) fun t k i => errorsOf (noise t k i)) (xs.map (fixedPoint 8)) ∧
          allReturned (mnistBuilt.sysCfg fl noise) f ∨
        strandedRead (mnistBuilt.sysCfg fl noise) (f.ts.plain (nodeInit mnistBuilt n)) := by
  obtain ⟨n, hn, h1⟩ := C86_mnist js hj act xs ha hx l w fl noise
  have hn0 : (simulator l mnistBuilt js w act).nodes[0]? = some n := by rw [hn]; rfl
  obtain ⟨n2, hn2, -, h2⟩ := C89_mnist js hj act xs ha hx hr l w hw fl noise
  cases hn2.symm.trans hn0
  obtain ⟨n3, hn3, hs, hch, -⟩ := runnable_checked (mnist_runnable hj ha hx) l w fl noise
  cases hn3.symm.trans hn0
  refine ⟨n, hn, fun as f hf hlate => ?_⟩
  rcases (h1 as f hf).2 hlate with ⟨h3, h4⟩ | h3
  · obtain ⟨cs, hp⟩ := plain_run hch.lists.good (clocked_reach hch.lists hf)
    rw [← hs] at hp
    exact .inl ⟨(h2 _ cs (f.ts.plain (nodeInit mnistBuilt n)) ⟨rfl, rfl, rfl, rfl⟩ hp (finished_plain h3) :), h4⟩
  · exact .inr h3

example := C88_equations (mnist_runnable (writes_fields true mnistFile) (.inl rfl) (List.length_replicate (n := 784) (a := 0)))
  mnist_paired someLibs .missing (fun _ h => nomatch h)
example := C89_mnist _ (writes_fields true mnistFile) (.array (List.replicate 784 (1 / 2))) _ (.inl rfl) List.length_replicate
  (fun x hx => by rw [List.eq_of_mem_replicate hx]; unfold inRange; norm_num) someLibs .missing (fun _ h => nomatch h)
example := C89_simulation _ (writes_fields false mnistFile) (.file 1 (List.replicate 784 (1 / 2))) _ (.inr rfl)
  List.length_replicate (fun x hx => by rw [List.eq_of_mem_replicate hx]; unfold inRange; norm_num) someLibs .missing
  (fun _ h => nomatch h)

end Ramwich
