import Verif.Lemmas.Memory

/-! # Properties of the word memory (C12-C14) -/
namespace Ramwich

open Spec

/-- C12: after any history of reads and writes on a fresh memory of `size` words (accepted or not),
every request is answered as the specification says: a read returns, address by address, the last
value stored there by an accepted write (0 if none). -/
theorem C12_memory_answers (size : Nat) (ops : List MemOp) (op : MemOp) :
    (((Memory.new size).exec ops).call op).1 = memAnswer size ops op :=
  (mem_step size ops _ (mem_inv size ops) op).1

example : (((Memory.new 8).exec [.write 2 [5, 6, 7] 1, .read 0 4 1, .write 4 [9] 2, .write 7 [1, 1] 1]).call
    (.read 1 5 1)).1 = .ok [0, 5, 6, 9, 0] := by
  rw [C12_memory_answers]; decide +kernel

/-- C12, one step: a read after an accepted write returns the written values inside the block and
the earlier contents elsewhere. -/
theorem C12_read_after_write (size : Nat) (ops : List MemOp) (start : Int) (values : List I32)
    (b : Int) (hw : 0 ≤ start ∧ start + values.length ≤ size) (a : Nat) (ha : a < size) :
    lastStored size (ops ++ [.write start values b]) a =
      (if start ≤ a ∧ (a : Int) < start + values.length then values.getD (a - start.toNat) 0
       else lastStored size ops a) ∧
    (((Memory.new size).exec (ops ++ [.write start values b])).call (.read a 1 1)).1
      = .ok [lastStored size (ops ++ [.write start values b]) a] := by
  constructor
  · rw [lastStored_snoc]
    have hr : (MemOp.write start values b).inRange size = true := by
      simp only [MemOp.inRange, decide_eq_true_eq]; exact hw
    simp only [MemOp.stores, hr, true_and]
    by_cases hin : start ≤ a ∧ (a : Int) < start + values.length
    · rw [if_pos hin, if_pos hin]
      have hlt : a - start.toNat < values.length := by omega
      rw [List.getD_eq_getElem?_getD, List.getElem?_eq_getElem hlt]
      rfl
    · rw [if_neg hin, if_neg hin]
      rfl
  · rw [C12_memory_answers, memAnswer, if_neg (by omega), if_neg (by omega)]
    simp

example := C12_read_after_write 8 [.write 0 [1, 2, 3] 1] 2 [7, 8] 1 (by decide) 2 (by decide)

/-- C13: a request is accepted exactly when it lies inside the memory (and, for a read, is not
empty); a rejected request changes nothing at all. -/
theorem C13_memory_bounds (size : Nat) (ops : List MemOp) (op : MemOp) :
    ((((Memory.new size).exec ops).call op).1.isOk = op.inRange size) ∧
    (op.inRange size = false → (((Memory.new size).exec ops).call op).2 = (Memory.new size).exec ops) :=
  ⟨(mem_step size ops _ (mem_inv size ops) op).2.2.2, (mem_step size ops _ (mem_inv size ops) op).2.2.1⟩

example : (MemOp.read (-1) 3 1).inRange 8 = false ∧ (MemOp.read 5 4 1).inRange 8 = false ∧
    (MemOp.write 6 [1, 2] 1).inRange 8 = true := by decide

/-- C14: the counters are the sums over the accepted requests of the history, and the totals are
reads plus writes. -/
theorem C14_memory_stats (size : Nat) (ops : List MemOp) :
    let s := ((Memory.new size).exec ops).stats
    s.readOperations = total size MemOp.readBatch ops ∧
    s.readCells = total size MemOp.readLen ops ∧
    s.writeOperations = total size MemOp.writeBatch ops ∧
    s.writeCells = total size MemOp.writeLen ops ∧
    s.totalOperations = s.readOperations + s.writeOperations ∧
    s.totalOperatedCells = s.readCells + s.writeCells := by
  have h := mem_inv size ops
  exact ⟨h.ro, h.rc, h.wo, h.wc, h.tot, h.tc⟩

example : ((Memory.new 8).exec [.write 2 [5, 6, 7] 1, .read 0 4 3, .read 6 4 1]).stats.totalOperations
    = 4 := by
  have h := C14_memory_stats 8 [.write 2 [5, 6, 7] 1, .read 0 4 3, .read 6 4 1]
  simp only at h
  rw [h.2.2.2.2.1, h.1, h.2.2.1]
  decide

end Ramwich
