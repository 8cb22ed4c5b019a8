import Verif.Lemmas.FlowSys
import Verif.Props.Perceptron
import Verif.Props.Hang

/-! # C93: every run follows the equations of its programs -/
namespace Ramwich

open Spec

/-- C93: if `mem` and `final` solve the equations of the programs, then in every state of every run — complete or not,
with any schedule and any latencies, also of programs that wait for ever — the valid words of the DRAMs are those of
`mem`, and a core that is at the end of its program has the registers of `final`. -/
theorem C93_invariant (cfg : SysCfg) (c c' : Config) (weights : Nat → Nat → List (Nat × List (List ℚ))) (i : SysInit)
    (h : composed cfg c c' weights i) (mem : Nat → Nat → Int) (final : Nat → Nat → CoreState)
    (he : equations cfg c' weights i mem final) (as : List SysAct) (s : Sys) (hs : i.start.run cfg as = some s) :
    ∀ t < cfg.net.tiles,
      (∀ a < (i.mem t).size, (s.tile t).ctrl.valid.getD a false = true → wordsOf (s.tile t).ctrl.mem a = mem t a) ∧
      ∀ k < cfg.cores, (((s.tile t).core k).phase = .halted ∨
          ((s.tile t).core k).phase = .ready ∧ ((s.tile t).core k).prog = []) →
        ∀ (start : Int) (len : Nat), 0 < len →
          (((s.tile t).core k).core.readFromRegister start len).1.map (fun v => v.map BitVec.toInt)
            = (coreParamsWith c' cfg.fl).read (final t k) start len := by
  intro t ht
  have hi := sysInv_run h.lists.good as s hs
  have hf := flowAll_run h he as s hs
  have hci := ctrlInv_of (h.lists.good t) (hi.tile t).ctrl
  refine ⟨fun a ha hv => ?_, fun k hk hdone start len hl => ?_⟩
  · rw [hci.mem.vals a ha] at hv
    show BitVec.toInt _ = _
    rw [hci.mem.cells a ha]
    exact word_mem (tileFlow_writes (h.lists.good t) (hi.tile t) (hf.tile t ht)) (fun h0 => he.input t ht a ⟨ha, h0⟩) hv
  · obtain ⟨cv, rest, s', stores, g1, g2, g3, -, -, g6⟩ := flow_core h he hi hf.tile ht hk
    unfold CorePhaseOk at g1
    have hend : ((s.tile t).core k).core = cv ∧ rest = [] := by
      rcases hdone with hp | ⟨hp, hq⟩
      · rw [hp] at g1; exact ⟨g1.1, g1.2.2⟩
      · rw [hp] at g1; exact ⟨g1.1, by rw [← g1.2, hq]⟩
    rw [hend.2] at g6
    injection g6 with g6
    injection g6 with g6 _
    rw [hend.1, ← g6, (core_read cv cfg.fl s' g3 start len hl).1, params_with cfg.fl g2]

/-- C93: the equations determine every word that is valid in some state of some run: two solutions agree there. -/
theorem C93_unique (cfg : SysCfg) (c c' : Config) (weights : Nat → Nat → List (Nat × List (List ℚ))) (i : SysInit)
    (h : composed cfg c c' weights i) (mem mem' : Nat → Nat → Int) (final final' : Nat → Nat → CoreState)
    (he : equations cfg c' weights i mem final) (he' : equations cfg c' weights i mem' final') (as : List SysAct) (s : Sys)
    (hs : i.start.run cfg as = some s) :
    ∀ t < cfg.net.tiles, ∀ a < (i.mem t).size, (s.tile t).ctrl.valid.getD a false = true → mem t a = mem' t a :=
  fun t ht a ha hv => ((C93_invariant cfg c c' weights i h mem final he as s hs t ht).1 a ha hv).symm.trans
    ((C93_invariant cfg c c' weights i h mem' final' he' as s hs t ht).1 a ha hv)

section
variable {c c' : Config} {a : Nat} {js : List Json} {ps : List Placed} {act : Activation} {xs : List ℚ}
  {moves : List DryMove}

/-- C93: the same from the files: whatever solves the equations of the operations, weights and activation in the files is
what is in the valid words of the DRAMs, in every state of every run of the node. -/
theorem C93_files (h : runnable c c' a js ps act xs moves) (hp : paired c' ps a) (l : Libs) (w : NpzFile)
    (hw : shortIds l.uni w) (hr : ∀ x ∈ xs, inRange c'.dataConfig.activationFracBits x) (fl : FloatActs)
    (noise : Nat → Nat → Nat → Nat → Nat → Noise) :
    ∃ n, (simulator l c' js w act).nodes[a]? = some n ∧ n.start c' = (nodeInit c' n).start ∧ (nodeInit c' n).ok ∧
      ∀ (mem : Nat → Nat → Int) (final : Nat → Nat → CoreState),
        solution (coreParamsWith c' fl) c'.numTilesPerNode c'.numCoresPerTile (coreProgram ps a) (tileProgram ps a)
            (fun t k => CoreState.loadAll {} (coreMatrices l.uni c' w a t k)) (fun t k i => errorsOf (noise t k i))
            (fun t i => a = 0 ∧ t = 0 ∧ i < xs.length) (fun _ i => fixedPoint c'.dataConfig.activationFracBits (xs.getD i 0))
            mem final →
        ∀ cfg as s, sameMachine (c'.sysCfg fl noise) cfg → (n.start c').run cfg as = some s →
          ∀ t < c'.numTilesPerNode,
            (∀ i < c'.tileConfig.edramSize, (s.tile t).ctrl.valid.getD i false = true →
              wordsOf (s.tile t).ctrl.mem i = mem t i) ∧
            ∀ k < c'.numCoresPerTile, (((s.tile t).core k).phase = .halted ∨
                ((s.tile t).core k).phase = .ready ∧ ((s.tile t).core k).prog = []) →
              ∀ (start : Int) (len : Nat), 0 < len →
                (((s.tile t).core k).core.readFromRegister start len).1.map (fun v => v.map BitVec.toInt)
                  = (coreParamsWith c' fl).read (final t k) start len := by
  obtain ⟨n, hn, hs, hch, -, hprog⟩ := runnable_checked h l w fl noise
  refine ⟨n, hn, hs, hch.lists, fun mem final hsol cfg as s hm hrun => ?_⟩
  rw [hs] at hrun
  have hT : cfg.net.tiles = c'.numTilesPerNode := hm.tiles
  have hC : cfg.cores = c'.numCoresPerTile := hm.cores
  have hfl : cfg.fl = fl := hm.fl
  have hno : cfg.noise = noise := hm.noise
  have hcomp : composed cfg c c' (coreMatrices l.uni c' w a) (nodeInit c' n) := by
    refine ⟨hch.simulable, hch.build, hch.unit, hch.lists, ?_, ?_, ?_, ?_⟩
    · rw [hT, hC]
      exact fun t ht k hk => ⟨fl, runnable_core h l w hw fl hn t k ht hk⟩
    · exact fun t _ k _ => coreMatrices_shape l.uni c' w a t k
    · rw [hT, hC]
      intro t ht k hk
      rw [(hprog t ht).2 k hk]
      exact hp.positive t ht k hk
    · rw [hT]
      intro src hsrc dst hdst
      rw [(hprog src hsrc).1, (hprog dst hdst).1]
      exact hp.matched src hsrc dst hdst
  have heq : equations cfg c' (coreMatrices l.uni c' w a) (nodeInit c' n) mem final := by
    unfold equations
    rw [hT, hC, hfl, hno]
    refine ⟨fun t ht k hk => ?_, fun src hsrc dst hdst => ?_, fun t ht i hi => ?_⟩
    · rw [(hprog t ht).2 k hk]; exact hsol.core t ht k hk
    · rw [(hprog src hsrc).1, (hprog dst hdst).1]; exact hsol.transfer src hsrc dst hdst
    · have hv := hi.2
      rw [hch.there t ht i] at hv
      unfold inputWords at hv
      split at hv
      · rename_i h0
        obtain ⟨ha, rfl⟩ := h0
        rw [Nat.testBit_two_pow_sub_one] at hv
        have hlt : i < xs.length := by simpa using hv
        rw [hsol.input 0 ht i ⟨ha, rfl, hlt⟩]
        show _ = wordsOf ((nodeInit c' n).mem 0) i
        rw [runnable_input h l w hr hn ha i hlt, List.getD_eq_getElem?_getD, List.getElem?_eq_getElem hlt]
        rfl
      · simp at hv
  have := C93_invariant cfg c c' _ _ hcomp mem final heq as s hrun
  rw [hT, hC, hfl] at this
  intro t ht
  obtain ⟨h1, h2⟩ := this t ht
  exact ⟨fun i hi => h1 i (by rw [hch.words t ht]; exact hi), h2⟩

end

/-- C93: in every state of every run of the MNIST example, with any schedule and any latencies, also in those that hang
(C92), an output word that is valid is the output of the perceptron. -/
theorem C93_mnist (js : List Json) (hj : writes js mnistFile) (act : Activation) (xs : List ℚ)
    (ha : act = .array xs ∨ act = .file 1 xs) (hx : xs.length = 784) (hr : ∀ x ∈ xs, inRange 8 x) (l : Libs) (w : NpzFile)
    (hw : shortIds l.uni w) (fl : FloatActs) (noise : Nat → Nat → Nat → Nat → Nat → Noise) :
    ∃ n, (simulator l mnistBuilt js w act).nodes[0]? = some n ∧
      ∀ cfg as s, sameMachine (mnistBuilt.sysCfg fl noise) cfg → (n.start mnistBuilt).run cfg as = some s →
        ∀ r < 10, (s.tile 1).ctrl.valid.getD r false = true →
        wordsOf (s.tile 1).ctrl.mem r =
          ((coreParamsWith mnistBuilt fl).perceptron (mnistMul (coreParamsWith mnistBuilt fl)
            (weightsIn l.uni mnistBuilt w 0) fun t k i => errorsOf (noise t k i)) (xs.map (fixedPoint 8))).getD r 0 := by
  obtain ⟨-, -, hT, hC, hM, hF⟩ := mnist_params
  have hrun := mnist_runnable hj ha hx
  obtain ⟨n, hn, -, -, h⟩ := C93_files hrun mnist_paired l w hw (by rw [hF]; exact hr) fl noise
  obtain ⟨n1, hn1, h1⟩ := C88_equations hrun mnist_paired l w hw (by rw [hF]; exact hr) fl noise
  cases hn1.symm.trans hn
  obtain ⟨n2, hn2, ⟨cfgF, asF, F, e1, e2, e3⟩, h2⟩ := C89_mnist js hj act xs ha hx hr l w hw fl noise
  cases hn2.symm.trans hn
  obtain ⟨final, e4, -⟩ := h1 cfgF asF F e1 e2 e3
  refine ⟨n, hn, fun cfg as s hm hs r hr hv => ?_⟩
  have e5 := (h _ final e4 cfg as s hm hs 1 (by rw [hT]; decide)).1 r (by
    rw [show mnistBuilt.tileConfig.edramSize = 4194304 by decide +kernel]; omega) hv
  rw [e5, ← h2 cfgF asF F e1 e2 e3]
  unfold wordsAt
  rw [List.getD_eq_getElem?_getD, List.getElem?_map, List.getElem?_range hr]
  simp

/-- C93: the same in simulated time: at every time, an output word that is valid is the output of the perceptron. -/
theorem C93_simulation (js : List Json) (hj : writes js mnistFile) (act : Activation) (xs : List ℚ)
    (ha : act = .array xs ∨ act = .file 1 xs) (hx : xs.length = 784) (hr : ∀ x ∈ xs, inRange 8 x) (l : Libs) (w : NpzFile)
    (hw : shortIds l.uni w) (fl : FloatActs) (noise : Nat → Nat → Nat → Nat → Nat → Noise) :
    ∃ n, (simulator l mnistBuilt js w act).nodes = [n] ∧
      ∀ as f, (nodeInit mnistBuilt n).fstart.run (mnistBuilt.sysCfg fl noise) mnistBuilt.stageLat as = some f →
        ∀ r < 10, (f.ts.sys.tile 1).ctrl.valid.getD r false = true →
        wordsOf (f.ts.sys.tile 1).ctrl.mem r =
          ((coreParamsWith mnistBuilt fl).perceptron (mnistMul (coreParamsWith mnistBuilt fl)
            (weightsIn l.uni mnistBuilt w 0) fun t k i => errorsOf (noise t k i)) (xs.map (fixedPoint 8))).getD r 0 := by
  obtain ⟨n, hn, -⟩ := C86_mnist js hj act xs ha hx l w fl noise
  have hn0 : (simulator l mnistBuilt js w act).nodes[0]? = some n := by rw [hn]; rfl
  obtain ⟨n2, hn2, h2⟩ := C93_mnist js hj act xs ha hx hr l w hw fl noise
  cases hn2.symm.trans hn0
  obtain ⟨n3, hn3, hs, hch, -⟩ := runnable_checked (mnist_runnable hj ha hx) l w fl noise
  cases hn3.symm.trans hn0
  refine ⟨n, hn, fun as f hf r hr hv => ?_⟩
  obtain ⟨cs, hp⟩ := plain_run hch.lists.good (clocked_reach hch.lists hf)
  rw [← hs] at hp
  exact (h2 _ cs (f.ts.plain (nodeInit mnistBuilt n)) ⟨rfl, rfl, rfl, rfl⟩ hp r hr hv :)

/-! The program of C42: what tile 1 has received is right at any time. -/

theorem demo_equations : ∃ final, equations slowSys demoCoreBuilt (fun _ _ => []) demoInit
    (fun t => wordsOf (otherRun.2.tile t).ctrl.mem) final :=
  let ⟨final, h, _⟩ := C87_accepted slowSys demoCore demoCoreBuilt 8 (fun _ => 3) demoMoves (fun _ _ => []) demoInit
    demo_checked demo_composed otherRun.1 otherRun.2 otherRun_runs otherRun_finished
  ⟨final, h⟩

example (as : List SysAct) (s : Sys) (hs : demoInit.start.run slowSys as = some s)
    (hv : (s.tile 1).ctrl.valid.getD 5 false = true) : wordsOf (s.tile 1).ctrl.mem 5 = 9 := by
  obtain ⟨final, h⟩ := demo_equations
  rw [(C93_invariant slowSys demoCore demoCoreBuilt (fun _ _ => []) demoInit demo_composed _ final h as s hs 1
    (by decide)).1 5 (by decide) hv]
  decide +kernel

/-- In the middle of a run, a word that has been stored is valid and a word that will be received is not. -/
example : (demoInit.start.run slowSys (otherRun.1.take 60)).any (fun s =>
    (s.tile 0).ctrl.valid.getD 4 false && !(s.tile 1).ctrl.valid.getD 5 false) = true := by
  decide +kernel

example := C93_unique slowSys demoCore demoCoreBuilt (fun _ _ => []) demoInit demo_composed _ _ _ _
  demo_equations.choose_spec demo_equations.choose_spec otherRun.1 otherRun.2 otherRun_runs
example := C93_files (mnist_runnable (writes_fields true mnistFile) (.inl rfl) (List.length_replicate (n := 784) (a := 0)))
  mnist_paired someLibs .missing (fun _ h => nomatch h)
example := C93_mnist _ (writes_fields true mnistFile) (.array (List.replicate 784 (1 / 2))) _ (.inl rfl) List.length_replicate
  (fun x hx => by rw [List.eq_of_mem_replicate hx]; unfold inRange; norm_num) someLibs .missing (fun _ h => nomatch h)
example := C93_simulation _ (writes_fields false mnistFile) (.file 1 (List.replicate 784 (1 / 2))) _ (.inr rfl)
  List.length_replicate (fun x hx => by rw [List.eq_of_mem_replicate hx]; unfold inRange; norm_num) someLibs .missing
  (fun _ h => nomatch h)

end Ramwich
