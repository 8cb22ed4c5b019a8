import Verif.Props.EndToEnd
import Verif.Spec.Mnist

/-! # C86: the example of the repository -/
namespace Ramwich

open Spec

/-- Entries that are written with all their fields. -/
theorem writes_fields (isAddress : Bool) (ps : List Placed) :
    writes (ps.map fun p => .obj (fieldsOf isAddress p)) ps := by
  induction ps with
  | nil => exact .nil
  | cons p ps ih =>
    refine .cons ⟨_, isAddress, rfl, ?_⟩ ih
    cases p with
    | tile n t op => cases op <;> simp [fieldsOf, tells, getField]
    | core n t k op => cases op <;> simp [fieldsOf, tells, getField]

theorem mnist_build : mnistConfig.build = .ok mnistBuilt := by decide +kernel

theorem mnist_simulable : Simulable mnistConfig := by
  refine ⟨rfl, rfl, by decide, by decide, fun _ => by decide, fun _ => by decide, ?_, ?_, ?_⟩ <;>
    norm_num [mnistConfig]

set_option maxRecDepth 10000 in
theorem mnist_accepted : accepted (coreParamsOf mnistBuilt id id) mnistBuilt.tileConfig.edramSize
    mnistBuilt.numTilesPerNode mnistBuilt.numCoresPerTile (inputWords 784 0) (coreProgram mnistFile 0)
    (tileProgram mnistFile 0) mnistMoves := by decide +kernel

set_option maxRecDepth 10000 in
theorem mnist_runnable {js : List Json} (hj : writes js mnistFile) {act : Activation} {xs : List ℚ}
    (ha : act = .array xs ∨ act = .file 1 xs) (hx : xs.length = 784) :
    runnable mnistConfig mnistBuilt 0 js mnistFile act xs mnistMoves where
  simulable := mnist_simulable
  build := mnist_build
  node := by decide +kernel
  tiles := by decide +kernel
  unit := by decide +kernel
  alu := by decide +kernel
  dac := by decide +kernel
  adc := by decide +kernel
  entries := hj
  targets := by decide +kernel
  lengths := by decide +kernel
  input := ha
  fits := by rw [hx]; decide +kernel
  check := (congrArg (fun n => accepted (coreParamsOf mnistBuilt id id) mnistBuilt.tileConfig.edramSize
    mnistBuilt.numTilesPerNode mnistBuilt.numCoresPerTile (inputWords n 0) (coreProgram mnistFile 0)
    (tileProgram mnistFile 0) mnistMoves) hx).mpr mnist_accepted

theorem mnist_cycles : fileCycles mnistBuilt mnistFile 0 = 256504 := by decide +kernel

/-- C86: the example of the repository. For every way to write its operations to a file, every file of weights, every
activation of 784 values (an image), all noise and all activation functions: the simulation of the example never raises,
and at time 256505 at the latest all programs have been executed to their ends and all tiles have returned, or a read is
skipped (C32). -/
theorem C86_mnist (js : List Json) (hj : writes js mnistFile) (act : Activation) (xs : List ℚ)
    (ha : act = .array xs ∨ act = .file 1 xs) (hx : xs.length = 784) (l : Libs) (w : NpzFile) (fl : FloatActs)
    (noise : Nat → Nat → Nat → Nat → Nat → Noise) :
    ∃ n, (simulator l mnistBuilt js w act).nodes = [n] ∧
      ∀ as f, (nodeInit mnistBuilt n).fstart.run (mnistBuilt.sysCfg fl noise) mnistBuilt.stageLat as = some f →
        f.ts.sys.crashed = none ∧
        (256504 < f.ts.now →
          f.ts.finished (mnistBuilt.sysCfg fl noise) (nodeInit mnistBuilt n) ∧
            allReturned (mnistBuilt.sysCfg fl noise) f ∨
          strandedRead (mnistBuilt.sysCfg fl noise) (f.ts.plain (nodeInit mnistBuilt n))) := by
  obtain ⟨n, h1, h2⟩ := C86_simulation (mnist_runnable hj ha hx) l w fl noise
  refine ⟨n, ?_, by rw [mnist_cycles] at h2; exact h2⟩
  have h3 := (C50_loaded mnistBuilt fl l
    [.operations (.value (.arr js)), .weights w, .activation (some act)]).2.1
  have h4 : (simulator l mnistBuilt js w act).nodes.length = 1 := h3
  obtain ⟨m, hm⟩ := List.length_eq_one_iff.1 h4
  rw [hm] at h1 ⊢
  cases h1
  rfl

/-- C86: the example has one result: there is a complete run, and all complete runs, also with other latencies, end with
the same registers and the same data in the DRAMs. -/
theorem C86_mnist_result (js : List Json) (hj : writes js mnistFile) (act : Activation) (xs : List ℚ)
    (ha : act = .array xs ∨ act = .file 1 xs) (hx : xs.length = 784) (l : Libs) (w : NpzFile) (fl : FloatActs)
    (noise : Nat → Nat → Nat → Nat → Nat → Noise) :
    ∃ n, (simulator l mnistBuilt js w act).nodes[0]? = some n ∧
      ∃ F, (∃ cfg as, sameMachine (mnistBuilt.sysCfg fl noise) cfg ∧ (n.start mnistBuilt).run cfg as = some F ∧
          finished cfg F) ∧
        ∀ cfg as s, sameMachine (mnistBuilt.sysCfg fl noise) cfg → (n.start mnistBuilt).run cfg as = some s →
          finished cfg s → ∀ t < 5, (∀ k < 8, ((s.tile t).core k).core = ((F.tile t).core k).core) ∧
            ∀ i < 4194304, (s.tile t).ctrl.valid[i]? = (F.tile t).ctrl.valid[i]? ∧
              (s.tile t).ctrl.mem.cells[i]? = (F.tile t).ctrl.mem.cells[i]? := by
  obtain ⟨n, hn, hs, hch, -, -⟩ := runnable_checked (mnist_runnable hj ha hx) l w fl noise
  obtain ⟨bs, F, h1, h2, -, h4⟩ := hch.run
  refine ⟨n, hn, F, ⟨(mnistBuilt.sysCfg fl noise).instant, bs, ⟨rfl, rfl, rfl, rfl⟩, by rw [hs]; exact h1, h2⟩, fun cfg as s hm hr hf t ht => ?_⟩
  rw [hs] at hr
  have hm' : sameMachine (mnistBuilt.sysCfg fl noise).instant cfg := ⟨hm.tiles, hm.cores, hm.fl, hm.noise⟩
  obtain ⟨-, b, d⟩ := C44_same_result _ cfg hm' _ hch.lists bs as F s h1 hr h2 hf h4 t ht
  rw [hch.words t ht] at d
  exact ⟨fun k hk => (b k hk).2, d⟩

example := C86_mnist _ (writes_fields false mnistFile) (.array (List.replicate 784 (1 / 2))) _ (.inl rfl) List.length_replicate
  someLibs .missing someActs
example := C86_mnist_result _ (writes_fields true mnistFile) (.file 1 (List.replicate 784 (1 / 2))) _ (.inr rfl) List.length_replicate
  someLibs .missing someActs
example := C86_loads (mnist_runnable (writes_fields true mnistFile) (.inl rfl) (List.length_replicate (n := 784) (a := 0)))
example := C86_ends (mnist_runnable (writes_fields true mnistFile) (.inl rfl) (List.length_replicate (n := 784) (a := 0)))
example := C86_same_result
  (mnist_runnable (writes_fields true mnistFile) (.inl rfl) (List.length_replicate (n := 784) (a := 0)))
example := C86_simulation
  (mnist_runnable (writes_fields true mnistFile) (.inl rfl) (List.length_replicate (n := 784) (a := 0)))

end Ramwich
