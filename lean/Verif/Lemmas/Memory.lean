import Verif.Model.Memory
import Verif.Spec.Memory
import Verif.Lemmas.UnitRefine

/-! # Lemmas about the word memory -/
namespace Ramwich

open Spec

/-- A request handed to a memory (`Memory.read` / `Memory.write`, memory.py:92-136). -/
def Memory.call (m : Memory) : MemOp → Except PyErr (List I32) × Memory
  | .read start length batch => m.read start length batch
  | .write start values batch =>
      let r := m.write start values batch
      (r.1.map fun _ => [], r.2)

def Memory.exec (m : Memory) (ops : List MemOp) : Memory := ops.foldl (fun m op => (m.call op).2) m

theorem pySlice_getD {α : Type} (xs : List α) (start len : Int) (d : α) (h0 : 0 ≤ start)
    (h1 : start + len ≤ xs.length) (h2 : 0 ≤ len) :
    pySlice xs start (start + len)
      = (List.range len.toNat).map fun i => xs.getD (start.toNat + i) d := by
  unfold pySlice pySliceBound
  have e1 : (if start < 0 then (start + xs.length).toNat else min start.toNat xs.length)
      = start.toNat := by rw [if_neg (by omega)]; omega
  have e2 : (if start + len < 0 then (start + len + xs.length).toNat
      else min (start + len).toNat xs.length) = start.toNat + len.toNat := by
    rw [if_neg (by omega)]; omega
  simp only [e1, e2]
  apply List.ext_getElem
  · simp; omega
  · intro i h3 h4
    simp at h3 h4
    simp only [List.getElem_map, List.getElem_range]
    rw [List.getD_eq_getElem?_getD, List.getElem?_eq_getElem (by omega)]
    simp

structure MemInv (size : Nat) (ops : List MemOp) (m : Memory) : Prop where
  sz : m.size = size
  len : m.cells.length = size
  cells : ∀ a, a < size → m.cells.getD a 0 = lastStored size ops a
  ro : m.stats.readOperations = total size MemOp.readBatch ops
  rc : m.stats.readCells = total size MemOp.readLen ops
  wo : m.stats.writeOperations = total size MemOp.writeBatch ops
  wc : m.stats.writeCells = total size MemOp.writeLen ops
  tot : m.stats.totalOperations = m.stats.readOperations + m.stats.writeOperations
  tc : m.stats.totalOperatedCells = m.stats.readCells + m.stats.writeCells

theorem total_snoc (size : Nat) (f : MemOp → Int) (ops : List MemOp) (op : MemOp) :
    total size f (ops ++ [op]) = total size f ops + if op.inRange size then f op else 0 := by
  unfold total
  rw [List.filter_append]
  cases h : op.inRange size <;> simp [h]

theorem lastStored_snoc (size : Nat) (ops : List MemOp) (op : MemOp) (a : Nat) :
    lastStored size (ops ++ [op]) a = (op.stores size a).getD (lastStored size ops a) := by
  unfold lastStored
  rw [List.filterMap_append]
  cases h : op.stores size a <;> simp [h]

theorem mem_step (size : Nat) (ops : List MemOp) (m : Memory) (h : MemInv size ops m) (op : MemOp) :
    (m.call op).1 = memAnswer size ops op ∧ MemInv size (ops ++ [op]) (m.call op).2 ∧
    (op.inRange size = false → (m.call op).2 = m) ∧
    ((m.call op).1.isOk = op.inRange size) := by
  cases op with
  | read start length batch =>
    simp only [Memory.call, Memory.read, memAnswer, h.sz]
    by_cases h1 : start < 0 ∨ start + length > size
    · have hr : (MemOp.read start length batch).inRange size = false := by
        simp only [MemOp.inRange, decide_eq_false_iff_not]; omega
      simp only [if_pos h1]
      refine ⟨trivial, ⟨h.sz, h.len, ?_, ?_, ?_, ?_, ?_, h.tot, h.tc⟩, fun _ => trivial, ?_⟩
      · intro a ha; rw [lastStored_snoc]; exact h.cells a ha
      · rw [total_snoc, hr]; simpa using h.ro
      · rw [total_snoc, hr]; simpa using h.rc
      · rw [total_snoc, hr]; simpa using h.wo
      · rw [total_snoc, hr]; simpa using h.wc
      · rw [hr]; rfl
    · by_cases h2 : length ≤ 0
      · have hr : (MemOp.read start length batch).inRange size = false := by
          simp only [MemOp.inRange, decide_eq_false_iff_not]; omega
        simp only [if_neg h1, if_pos h2]
        refine ⟨trivial, ⟨h.sz, h.len, ?_, ?_, ?_, ?_, ?_, h.tot, h.tc⟩, fun _ => trivial, ?_⟩
        · intro a ha; rw [lastStored_snoc]; exact h.cells a ha
        · rw [total_snoc, hr]; simpa using h.ro
        · rw [total_snoc, hr]; simpa using h.rc
        · rw [total_snoc, hr]; simpa using h.wo
        · rw [total_snoc, hr]; simpa using h.wc
        · rw [hr]; rfl
      · have hr : (MemOp.read start length batch).inRange size = true := by
          simp only [MemOp.inRange, decide_eq_true_eq]; omega
        simp only [if_neg h1, if_neg h2]
        refine ⟨?_, ⟨rfl, h.len, ?_, ?_, ?_, ?_, ?_, ?_, ?_⟩, ?_, ?_⟩
        · rw [pySlice_getD _ _ _ 0 (by omega) (by rw [h.len]; omega) (by omega)]
          congr 1
          apply List.map_congr_left
          intro i hi
          rw [List.mem_range] at hi
          exact h.cells _ (by omega)
        · intro a ha; rw [lastStored_snoc]; exact h.cells a ha
        · rw [total_snoc, hr]; simp only [MemoryStats.addRead, h.ro, MemOp.readBatch, if_true]
        · rw [total_snoc, hr]; simp only [MemoryStats.addRead, h.rc, MemOp.readLen, if_true]
        · rw [total_snoc, hr]; simp only [MemoryStats.addRead, h.wo, MemOp.writeBatch, if_true, add_zero]
        · rw [total_snoc, hr]; simp only [MemoryStats.addRead, h.wc, MemOp.writeLen, if_true, add_zero]
        · simp only [MemoryStats.addRead, h.tot]; omega
        · simp only [MemoryStats.addRead, h.tc]; omega
        · rw [hr]; simp
        · rw [hr]; rfl
  | write start values batch =>
    simp only [Memory.call, Memory.write, memAnswer, h.sz]
    by_cases h1 : start < 0 ∨ start + values.length > size
    · have hr : (MemOp.write start values batch).inRange size = false := by
        simp only [MemOp.inRange, decide_eq_false_iff_not]; omega
      simp only [if_pos h1]
      refine ⟨rfl, ⟨h.sz, h.len, ?_, ?_, ?_, ?_, ?_, h.tot, h.tc⟩, fun _ => trivial, ?_⟩
      · intro a ha
        rw [lastStored_snoc]
        simp only [MemOp.stores, hr, Bool.false_eq_true, false_and, if_false, Option.getD_none]
        exact h.cells a ha
      · rw [total_snoc, hr]; simpa using h.ro
      · rw [total_snoc, hr]; simpa using h.rc
      · rw [total_snoc, hr]; simpa using h.wo
      · rw [total_snoc, hr]; simpa using h.wc
      · rw [hr]; rfl
    · have hr : (MemOp.write start values batch).inRange size = true := by
        simp only [MemOp.inRange, decide_eq_true_eq]; omega
      simp only [if_neg h1]
      have hle : start.toNat + values.length ≤ m.cells.length := by rw [h.len]; omega
      refine ⟨rfl, ⟨rfl, ?_, ?_, ?_, ?_, ?_, ?_, ?_, ?_⟩, ?_, ?_⟩
      · simp only; rw [pySliceSet_length _ _ _ hle, h.len]
      · intro a ha
        simp only
        rw [pySliceSet_getD _ _ _ _ _ hle, lastStored_snoc]
        simp only [MemOp.stores, hr, true_and]
        by_cases hin : start ≤ a ∧ (a : Int) < start + values.length
        · rw [if_pos hin, if_pos (by omega)]
          have hlt : a - start.toNat < values.length := by omega
          rw [List.getD_eq_getElem?_getD, List.getElem?_eq_getElem hlt]
          rfl
        · rw [if_neg hin, if_neg (by omega)]
          exact h.cells a ha
      · rw [total_snoc, hr]; simp only [MemoryStats.addWrite, h.ro, MemOp.readBatch, if_true, add_zero]
      · rw [total_snoc, hr]; simp only [MemoryStats.addWrite, h.rc, MemOp.readLen, if_true, add_zero]
      · rw [total_snoc, hr]; simp only [MemoryStats.addWrite, h.wo, MemOp.writeBatch, if_true]
      · rw [total_snoc, hr]; simp only [MemoryStats.addWrite, h.wc, MemOp.writeLen, if_true]
      · simp only [MemoryStats.addWrite, h.tot]; omega
      · simp only [MemoryStats.addWrite, h.tc]; omega
      · rw [hr]; simp
      · rw [hr]; rfl

theorem mem_inv (size : Nat) (ops : List MemOp) : MemInv size ops ((Memory.new size).exec ops) := by
  induction ops using List.reverseRecOn with
  | nil =>
    refine ⟨rfl, by simp [Memory.exec, Memory.new], ?_, rfl, rfl, rfl, rfl, rfl, rfl⟩
    intro a _
    simp only [Memory.exec, List.foldl_nil, Memory.new, getD_replicate_zero]
    rfl
  | append_singleton ops op ih =>
    have := (mem_step size ops _ ih op).2.1
    simpa [Memory.exec] using this

end Ramwich
