import Verif.Lemmas.UnitRefine
import Verif.Lemmas.SpecMvm

/-! # One product after an arbitrary history -/
namespace Ramwich

open Spec

theorem exec_append (p : UnitParams) (s : UnitState) (a b : List UnitOp) :
    p.exec s (a ++ b) = p.exec (p.exec s a) b := by
  simp [UnitParams.exec]

theorem mvmuExec_append (m : Mvmu) (a b : List UnitOp) : m.exec (a ++ b) = (m.exec a).exec b := by
  simp [Mvmu.exec]

theorem wrap32_id (v : Int) (h : -2 ^ 31 ≤ v ∧ v < 2 ^ 31) : wrap32 v = v := by
  unfold wrap32
  rw [Int.bmod_eq_of_le] <;> omega

theorem getD_of_lt {α : Type} (l : List α) (i : Nat) (d : α) (h : i < l.length) :
    l.getD i d = l[i] := by
  rw [List.getD_eq_getElem?_getD, List.getElem?_eq_getElem h]; rfl

/-- Abstract state after loading weights and writing a whole input vector. -/
theorem spec_load_write (p : UnitParams) (s : UnitState) (W : List (List ℚ)) (x : List Int)
    (hW : W.length = p.size ∧ ∀ row ∈ W, row.length = p.size) (hx : x.length = p.size)
    (hr : ∀ v ∈ x, -2 ^ 31 ≤ v ∧ v < 2 ^ 31) :
    (p.exec s [.load W, .write 0 x]).weights = (fun r j => (W.getD r []).getD j 0) ∧
    ∀ j, j < p.size → (p.exec s [.load W, .write 0 x]).inputs j = x.getD j 0 := by
  have h1 : p.step s (.load W) = (.ok [], { s with weights := fun r j => (W.getD r []).getD j 0 }) :=
    if_pos hW
  have h2 : ∀ s : UnitState, p.step s (.write 0 x) = (.ok [], { s with
          inputs := fun j =>
            if (0 : Int) ≤ j ∧ (j : Int) < 0 + x.length then
              wrap32 (x.getD (j - (0 : Int).toNat) 0)
            else s.inputs j }) := fun s => if_pos (by omega)
  simp only [UnitParams.exec, List.foldl_cons, List.foldl_nil, h1, h2]
  refine ⟨trivial, ?_⟩
  intro j hj
  rw [if_pos (by omega)]
  simp only [Int.toNat_zero, Nat.sub_zero]
  apply wrap32_id
  have hlt : j < x.length := by omega
  rw [getD_of_lt _ _ _ hlt]
  exact hr _ (List.getElem_mem hlt)

/-- Registers of the unit read off the abstract outputs. -/
theorem registers_of_refines (m : Mvmu) (s : UnitState) (h : Refines m s) :
    m.outreg.registers = (List.range m.cfg.xbarSize).map fun r => BitVec.ofInt 32 (s.outputs r) := by
  have hl := list_eq_range_map m.outreg.registers 0
  rw [h.stores.ok.outLen] at hl
  rw [hl]
  apply List.map_congr_left
  intro r hr
  rw [List.mem_range] at hr
  rw [h.out r hr, BitVec.ofInt_toInt]

theorem inregisters_of_refines (m : Mvmu) (s : UnitState) (h : Refines m s) :
    m.inreg.registers = (List.range m.cfg.xbarSize).map fun r => BitVec.ofInt 32 (s.inputs r) := by
  have hl := list_eq_range_map m.inreg.registers 0
  rw [h.stores.ok.inLen] at hl
  rw [hl]
  apply List.map_congr_left
  intro r hr
  rw [List.mem_range] at hr
  rw [h.inp r hr, BitVec.ofInt_toInt]

theorem ofInt_wrap32 (v : Int) : BitVec.ofInt 32 (wrap32 v) = BitVec.ofInt 32 v := by
  rw [← toInt_ofInt32, BitVec.ofInt_toInt]

/-- Output registers after a whole product, whatever happened before. -/
theorem mvm_registers (c c' : Config) (hs : Simulable c) (h : c.build = .ok c')
    (W : List (List ℚ)) (x : List Int)
    (hW : W.length = c.mvmuConfig.xbarSize ∧ ∀ row ∈ W, row.length = c.mvmuConfig.xbarSize)
    (hx : x.length = c.mvmuConfig.xbarSize) (hr : ∀ v ∈ x, -2 ^ 31 ≤ v ∧ v < 2 ^ 31)
    (before : List UnitOp) (ep en : Nat → Nat → Nat → Nat → ℚ) :
    ((Mvmu.new c').exec (before ++ [.load W, .write 0 x, .mvm ep en])).outreg.registers
      = (List.range c.mvmuConfig.xbarSize).map fun r => BitVec.ofInt 32
          (((paramsOf c.mvmuConfig c.dataConfig).analog ep en).mvmValue c.dataConfig.storageConfig
            c.dataConfig.weightFracBits c.mvmuConfig.xbarSize c.mvmuConfig.dacResolution
            c.dataConfig.activationWidth c.mvmuConfig.adcResolution
            (fun r j => (W.getD r []).getD j 0) (fun j => x.getD j 0) r) := by
  obtain ⟨-, hc, -, hR⟩ := refines_built c c' hs h (before ++ [.load W, .write 0 x, .mvm ep en])
  rw [registers_of_refines _ _ hR, hc, (build_fields c c' h).2.1]
  apply List.map_congr_left
  intro r _
  have e : (before ++ [.load W, .write 0 x, .mvm ep en])
      = before ++ ([UnitOp.load W, .write 0 x] ++ [.mvm ep en]) := by simp
  rw [e, exec_append, exec_append]
  set p := paramsOf c.mvmuConfig c.dataConfig with hp
  obtain ⟨h1, h2⟩ := spec_load_write p (p.exec {} before) W x hW hx hr
  simp only [UnitParams.exec, List.foldl_cons, List.foldl_nil] at h1 h2 ⊢
  simp only [UnitParams.step.eq_3]
  rw [ofInt_wrap32, h1]
  congr 1
  exact analog_mvmValue_congr _ _ _ _ _ _ _ _ _ _ h2 r

end Ramwich
