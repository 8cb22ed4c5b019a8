import Verif.Spec.Ledger
import Verif.Lemmas.CoreBooks

/-! # Operations of a core and the ledger -/
namespace Ramwich

open Spec

/-! ## Lists of zeros -/

theorem zeros_blank (n : Nat) : blank (List.replicate n (0 : I32)) = List.replicate n 0 := by simp [blank]

theorem blank_zeros (l : List I32) : blank l = List.replicate l.length 0 := by simp [blank, List.map_const']

theorem pySliceSet_zeros {n s k : Nat} (h : s + k ≤ n) :
    pySliceSet (List.replicate n (0 : I32)) s (List.replicate k 0) = List.replicate n 0 := by
  unfold pySliceSet
  rw [List.eq_replicate_iff]
  constructor
  · simp; omega
  · intro b hb
    simp only [List.mem_append, List.take_replicate, List.drop_replicate, List.mem_replicate] at hb
    grind

theorem accesses_snoc (rs : List (Int × Nat)) (r : Int × Nat) (lo hi : Nat) :
    accesses (rs ++ [r]) lo hi = accesses rs lo hi ++ if (lo : Int) ≤ r.1 ∧ r.1 < hi then [r] else [] := by
  unfold accesses
  rw [List.filter_append]
  congr 1
  by_cases h : (lo : Int) ≤ r.1 ∧ r.1 < hi <;> simp [h]

theorem accessesFrom_snoc (rs : List (Int × Nat)) (r : Int × Nat) (lo : Nat) :
    accessesFrom (rs ++ [r]) lo = accessesFrom rs lo ++ if (lo : Int) ≤ r.1 then [r] else [] := by
  unfold accessesFrom
  rw [List.filter_append]
  congr 1
  by_cases h : (lo : Int) ≤ r.1 <;> simp [h]

theorem accessCounts_read (R W : List (Int × Nat)) (a b c d : Nat) (s : Int) (k : Nat) :
    (accessCounts R W a b c d).addRead 1 k = accessCounts (R ++ [(s, k)]) W a b c d := by
  simp only [accessCounts, MemoryStats.addRead, MemoryStats.mk.injEq, List.length_append, List.map_append,
    List.sum_append, List.length_singleton, List.map_cons, List.map_nil, List.sum_cons, List.sum_nil]
  push_cast
  refine ⟨?_, ?_, ?_, ?_, ?_, ?_⟩ <;> first | trivial | omega

theorem accessCounts_write (R W : List (Int × Nat)) (a b c d : Nat) (s : Int) (k : Nat) :
    (accessCounts R W a b c d).addWrite 1 k = accessCounts R (W ++ [(s, k)]) a b c d := by
  simp only [accessCounts, MemoryStats.addWrite, MemoryStats.mk.injEq, List.length_append, List.map_append,
    List.sum_append, List.length_singleton, List.map_cons, List.map_nil, List.sum_cons, List.sum_nil]
  push_cast
  refine ⟨?_, ?_, ?_, ?_, ?_, ?_⟩ <;> first | trivial | omega

/-- Replacing one entry of a list given by a function. -/
theorem map_range_set {α : Type} (n : Nat) (f g : Nat → α) (i : Nat) (x : α) (hi : x = g i) (h : ∀ j, j ≠ i → f j = g j) :
    ((List.range n).map f).set i x = (List.range n).map g := by
  apply List.ext_getElem?
  intro j
  rw [List.getElem?_set]
  by_cases hj : i = j
  · subst hj
    by_cases hn : i < n
    · simp [hn, hi]
    · simp [hn]
  · rw [if_neg hj, List.getElem?_map, List.getElem?_map]
    cases hr : (List.range n)[j]? with
    | none => rfl
    | some y =>
      obtain ⟨h1, h2⟩ := List.getElem?_eq_some_iff.1 hr
      rw [List.getElem_range] at h2
      subst h2
      rw [Option.map_some, Option.map_some, h j (fun e => hj e.symm)]

theorem map_range_some {α : Type} {n : Nat} {f : Nat → α} {i : Nat} {x : α} (h : ((List.range n).map f)[i]? = some x) :
    i < n ∧ x = f i := by
  rw [List.getElem?_map] at h
  cases hr : (List.range n)[i]? with
  | none => rw [hr] at h; cases h
  | some y =>
    obtain ⟨h1, h2⟩ := List.getElem?_eq_some_iff.1 hr
    rw [List.getElem_range] at h2
    subst h2
    rw [hr] at h
    injection h with h
    exact ⟨by simpa using h1, h.symm⟩

/-! ## The ledger has no contents -/

theorem ledgerUnit_books (c : Config) (R W : List (Int × Nat)) (p : Nat) : (ledgerUnit c R W p).books = ledgerUnit c R W p := by
  simp only [Mvmu.books, ledgerUnit, InReg.new, OutReg.new, zeros_blank]
  cases c.mvmuConfig.haveRramXbar <;> rfl

theorem ledger_books (c : Config) (R W : List (Int × Nat)) (vs : List (VfuOp × Nat)) (p : Nat → Nat) :
    (ledger c R W vs p).books = ledger c R W vs p := by
  simp only [Core.books, ledger, Memory.books, Memory.new, zeros_blank, List.map_map, Function.comp_def, ledgerUnit_books]

/-! ## Registers -/

theorem unit_of_address {X : Nat} {s : Int} {id : Int} {stop : Int} {N : Nat} {C : Core} (hX : C.config.mvmuConfig.xbarSize = X)
    (hN : C.config.numMvmusPerCore = N) (h : C.mvmuIdFromAddress s stop = .ok id) :
    X ≠ 0 ∧ N ≠ 0 ∧ id = s / X % N := by
  unfold Core.mvmuIdFromAddress at h
  rw [hX, hN] at h
  dsimp only at h
  split at h
  · cases h
  rename_i h1
  split at h
  · cases h
  split at h
  · cases h
  rename_i h2
  injection h with h
  exact ⟨by simpa using h1, h2, h.symm⟩

theorem ledger_write {c : Config} {R W : List (Int × Nat)} {vs : List (VfuOp × Nat)} {p : Nat → Nat} {C C' : Core}
    (hC : C.books = ledger c R W vs p) {s : Int} {d : List I32} {u : Unit} (h : C.writeToRegister s d = (.ok u, C')) :
    C'.books = ledger c R (W ++ [(s, d.length)]) vs p := by
  have hb := writeToRegister_books C s d
  rw [hC, h, blank_zeros] at hb
  dsimp only at hb
  unfold Core.writeToRegister at hb
  rw [List.length_replicate] at hb
  dsimp only at hb
  have e1 : (ledger c R W vs p).totalRegisters = 2 * (c.mvmuConfig.xbarSize * c.numMvmusPerCore) + c.coreConfig.dataMemSize := by
    simp [Core.totalRegisters, Core.cacheStart, Core.outregStart, ledger]; ring
  have e2 : (ledger c R W vs p).cacheStart = 2 * (c.mvmuConfig.xbarSize * c.numMvmusPerCore) := by
    simp [Core.cacheStart, Core.outregStart, ledger]; ring
  have e3 : (ledger c R W vs p).outregStart = c.mvmuConfig.xbarSize * c.numMvmusPerCore := by
    simp [Core.outregStart, ledger]
  split at hb
  · injection hb with hb _; cases hb
  rename_i h1
  rw [e1] at h1
  split at hb
  · injection hb with hb _; cases hb
  rename_i h2
  unfold Core.overlapsOutput at h2
  rw [e2, e3] at h2
  rw [e2] at hb
  split at hb
  · rename_i h3
    injection hb with hb1 hb2
    rw [← hb2]
    unfold Memory.write at hb1 ⊢
    dsimp only at hb1 ⊢
    rw [List.length_replicate] at hb1 ⊢
    split at hb1
    · cases hb1
    rename_i h4
    rw [if_neg h4]
    dsimp only
    unfold ledger
    dsimp only
    rw [Core.mk.injEq]
    refine ⟨rfl, ?_, ?_, rfl⟩
    · apply List.map_congr_left
      intro u hu
      rw [List.mem_range] at hu
      rw [accesses_snoc, if_neg, List.append_nil]
      dsimp only
      have : c.mvmuConfig.xbarSize * (u + 1) ≤ c.mvmuConfig.xbarSize * c.numMvmusPerCore := Nat.mul_le_mul_left _ hu
      omega
    · simp only [Memory.new]
      rw [Memory.mk.injEq]
      refine ⟨rfl, ?_, ?_⟩
      · apply pySliceSet_zeros
        simp only [ledger, Memory.new] at h4
        push_cast at *
        omega
      · rw [accessesFrom_snoc (r := (s, d.length)), if_pos, accessCounts_write _ _ _ _ _ _ s]
        dsimp only
        push_cast at *
        omega
  · rename_i h3
    split at hb
    · injection hb with hb _; cases hb
    rename_i id hid
    obtain ⟨hX, hN, hid⟩ := unit_of_address (X := c.mvmuConfig.xbarSize) (N := c.numMvmusPerCore) rfl rfl hid
    split at hb
    · injection hb with hb _; cases hb
    rename_i m hm
    split at hb
    · injection hb with hb _; cases hb
    rename_i m' hm'
    injection hb with _ hb
    rw [← hb]
    obtain ⟨hi, rfl⟩ := map_range_some hm
    have hXp : (0 : Int) < c.mvmuConfig.xbarSize := by omega
    have hs : s < c.mvmuConfig.xbarSize * c.numMvmusPerCore := by
      by_contra hc
      apply h2
      simp only [Bool.or_eq_true, Bool.and_eq_true, decide_eq_true_eq]
      left; left
      push_cast at *
      omega
    have hs0 : 0 ≤ s := by omega
    have hdiv : s / c.mvmuConfig.xbarSize < c.numMvmusPerCore := by
      rw [Int.ediv_lt_iff_lt_mul hXp]
      rw [mul_comm]; exact hs
    have hdiv0 : 0 ≤ s / (c.mvmuConfig.xbarSize : Int) := Int.ediv_nonneg hs0 (by omega)
    rw [Int.emod_eq_of_lt hdiv0 hdiv] at hid
    have hidn : (id.toNat : Int) = s / c.mvmuConfig.xbarSize := by omega
    have hlo : (c.mvmuConfig.xbarSize : Int) * id.toNat ≤ s := by
      rw [hidn]; exact Int.mul_ediv_self_le (by omega)
    have hhi : s < (c.mvmuConfig.xbarSize : Int) * (id.toNat + 1) := by
      rw [hidn]; exact Int.lt_mul_ediv_self_add hXp |>.trans_eq (by ring)
    unfold ledger
    dsimp only
    rw [Core.mk.injEq]
    refine ⟨rfl, ?_, ?_, rfl⟩
    · apply map_range_set
      · unfold Mvmu.writeToInreg InReg.write at hm'
        simp only [bind, Except.bind, List.length_replicate] at hm'
        split at hm'
        · cases hm'
        rename_i r hr
        split at hr
        · cases hr
        rename_i hr2
        injection hr with hr
        injection hm' with hm'
        rw [← hm', ← hr, accesses_snoc (r := (s, d.length)), if_pos]
        · unfold ledgerUnit
          dsimp only
          rw [Mvmu.mk.injEq]
          refine ⟨rfl, rfl, ?_, rfl, rfl, rfl, rfl, rfl, rfl, rfl, rfl, rfl, rfl, rfl⟩
          rw [InReg.mk.injEq]
          refine ⟨rfl, ?_, ?_⟩
          · simp only [InReg.new]
            apply pySliceSet_zeros
            simp only [ledgerUnit, InReg.new] at hr2
            push_cast at *
            omega
          · rw [accessCounts_write _ _ _ _ _ _ s]
        · push_cast; exact ⟨hlo, hhi⟩
      · intro j hj
        rw [accesses_snoc, if_neg, List.append_nil]
        dsimp only
        push_cast
        rintro ⟨g1, g2⟩
        apply hj
        have a1 : (c.mvmuConfig.xbarSize : Int) * j < c.mvmuConfig.xbarSize * (id.toNat + 1) := lt_of_le_of_lt g1 hhi
        have a2 : (c.mvmuConfig.xbarSize : Int) * id.toNat < c.mvmuConfig.xbarSize * (j + 1) := lt_of_le_of_lt hlo g2
        have b1 := lt_of_mul_lt_mul_left a1 (by omega)
        have b2 := lt_of_mul_lt_mul_left a2 (by omega)
        omega
    · rw [accessesFrom_snoc (r := (s, d.length)), if_neg, List.append_nil]
      dsimp only
      push_cast at *
      omega

theorem ledger_read {c : Config} {R W : List (Int × Nat)} {vs : List (VfuOp × Nat)} {p : Nat → Nat} {C C' : Core}
    (hC : C.books = ledger c R W vs p) {s l : Int} {v : List I32} (h : C.readFromRegister s l = (.ok v, C')) :
    v.length = l.toNat ∧ C'.books = ledger c (R ++ [(s, l.toNat)]) W vs p := by
  have hb := readFromRegister_books C s l
  rw [hC, h] at hb
  simp only [Except.map] at hb
  have hv : v.length = (blank v).length := by simp
  rw [hv]
  generalize blank v = v at hb
  generalize C'.books = B at hb
  unfold Core.readFromRegister at hb
  dsimp only at hb
  have e1 : (ledger c R W vs p).totalRegisters = 2 * (c.mvmuConfig.xbarSize * c.numMvmusPerCore) + c.coreConfig.dataMemSize := by
    simp [Core.totalRegisters, Core.cacheStart, Core.outregStart, ledger]; ring
  have e2 : (ledger c R W vs p).cacheStart = 2 * (c.mvmuConfig.xbarSize * c.numMvmusPerCore) := by
    simp [Core.cacheStart, Core.outregStart, ledger]; ring
  have e3 : (ledger c R W vs p).outregStart = c.mvmuConfig.xbarSize * c.numMvmusPerCore := by
    simp [Core.outregStart, ledger]
  split at hb
  · injection hb with hb _; cases hb
  rename_i h1
  rw [e1] at h1
  split at hb
  · injection hb with hb _; cases hb
  rename_i h2
  rw [e3] at h2
  rw [e2] at hb
  split at hb
  · rename_i h3
    injection hb with hb1 hb2
    rw [← hb2]
    unfold Memory.read at hb1 ⊢
    dsimp only at hb1 ⊢
    split at hb1
    · cases hb1
    rename_i h4
    rw [if_neg h4]
    split at hb1
    · cases hb1
    rename_i h5
    rw [if_neg h5]
    injection hb1 with hb1
    refine ⟨?_, ?_⟩
    · rw [← hb1]
      simp only [ledger, Memory.new] at h4
      simp only [pySlice, pySliceBound, ledger, Memory.new, List.length_take, List.length_drop, List.length_replicate]
      rw [if_neg (by push_cast at *; omega), if_neg (by push_cast at *; omega)]
      push_cast at *
      omega
    unfold ledger
    dsimp only
    rw [Core.mk.injEq]
    refine ⟨rfl, ?_, ?_, rfl⟩
    · apply List.map_congr_left
      intro u hu
      rw [List.mem_range] at hu
      rw [accesses_snoc, if_neg, List.append_nil]
      dsimp only
      have : c.mvmuConfig.xbarSize * (u + 1) ≤ c.mvmuConfig.xbarSize * c.numMvmusPerCore := Nat.mul_le_mul_left _ hu
      omega
    · simp only [Memory.new]
      rw [Memory.mk.injEq]
      refine ⟨rfl, rfl, ?_⟩
      rw [accessesFrom_snoc (r := (s, l.toNat)), if_pos, ← accessCounts_read _ _ _ _ _ _ s, Int.toNat_of_nonneg (by omega)]
      dsimp only
      push_cast at *
      omega
  · rename_i h3
    split at hb
    · injection hb with hb _; cases hb
    rename_i id hid
    obtain ⟨hX, hN, hid⟩ := unit_of_address (X := c.mvmuConfig.xbarSize) (N := c.numMvmusPerCore) rfl rfl hid
    split at hb
    · injection hb with hb _; cases hb
    rename_i m hm
    split at hb
    · injection hb with hb _; cases hb
    rename_i v' m' hm'
    injection hb with hb1 hb
    injection hb1 with hb1
    subst hb1
    rw [← hb]
    obtain ⟨hi, rfl⟩ := map_range_some hm
    have hXp : (0 : Int) < c.mvmuConfig.xbarSize := by omega
    have hs0 : (c.mvmuConfig.xbarSize : Int) * c.numMvmusPerCore ≤ s := by push_cast at *; omega
    have hs : s < c.mvmuConfig.xbarSize * (c.numMvmusPerCore + c.numMvmusPerCore) := by
      have : (c.mvmuConfig.xbarSize : Int) * (c.numMvmusPerCore + c.numMvmusPerCore) =
        2 * (c.mvmuConfig.xbarSize * c.numMvmusPerCore) := by ring
      push_cast at *; omega
    have hdiv : s / c.mvmuConfig.xbarSize < c.numMvmusPerCore + c.numMvmusPerCore := by
      rw [Int.ediv_lt_iff_lt_mul hXp]
      rw [mul_comm]; exact hs
    have hdiv0 : c.numMvmusPerCore ≤ s / (c.mvmuConfig.xbarSize : Int) := by
      rw [Int.le_ediv_iff_mul_le hXp, mul_comm]; exact hs0
    have hid2 : id = s / c.mvmuConfig.xbarSize - c.numMvmusPerCore := by
      rw [hid]
      have := Int.emod_emod_of_dvd (s / (c.mvmuConfig.xbarSize : Int)) (dvd_refl (c.numMvmusPerCore : Int))
      rw [← Int.sub_emod_right]
      exact Int.emod_eq_of_lt (by omega) (by omega)
    have hidn : (id.toNat : Int) = s / c.mvmuConfig.xbarSize - c.numMvmusPerCore := by omega
    have hlo : (c.mvmuConfig.xbarSize : Int) * c.numMvmusPerCore + c.mvmuConfig.xbarSize * id.toNat ≤ s := by
      rw [hidn, ← mul_add, add_sub_cancel]; exact Int.mul_ediv_self_le (by omega)
    have hhi : s < (c.mvmuConfig.xbarSize : Int) * c.numMvmusPerCore + c.mvmuConfig.xbarSize * (id.toNat + 1) := by
      have := Int.lt_mul_ediv_self_add (x := s) hXp
      have e : (c.mvmuConfig.xbarSize : Int) * (s / c.mvmuConfig.xbarSize) + c.mvmuConfig.xbarSize =
        (c.mvmuConfig.xbarSize : Int) * c.numMvmusPerCore + c.mvmuConfig.xbarSize * (id.toNat + 1) := by
          rw [hidn]; ring
      omega
    unfold Mvmu.readFromOutreg OutReg.read at hm'
    simp only [bind, Except.bind] at hm'
    split at hm'
    · cases hm'
    split at hm'
    · cases hm'
    rename_i r hr
    split at hr
    · cases hr
    injection hr with hr
    injection hm' with hm'
    injection hm' with hm1 hm2
    refine ⟨?_, ?_⟩
    · rw [← hm1, ← hr]
      simp [gather]
    unfold ledger
    dsimp only
    rw [Core.mk.injEq]
    refine ⟨rfl, ?_, ?_, rfl⟩
    · apply map_range_set
      · rw [← hm2, ← hr, accesses_snoc (r := (s, l.toNat)), if_pos]
        · unfold ledgerUnit
          dsimp only
          rw [Mvmu.mk.injEq]
          refine ⟨rfl, rfl, rfl, ?_, rfl, rfl, rfl, rfl, rfl, rfl, rfl, rfl, rfl, rfl⟩
          rw [OutReg.mk.injEq]
          refine ⟨rfl, rfl, ?_⟩
          rw [List.length_map, List.length_range, accessCounts_read _ _ _ _ _ _ s]
        · push_cast; exact ⟨hlo, hhi⟩
      · intro j hj
        rw [accesses_snoc, if_neg, List.append_nil]
        dsimp only
        push_cast
        rintro ⟨g1, g2⟩
        apply hj
        have a1 : (c.mvmuConfig.xbarSize : Int) * j < c.mvmuConfig.xbarSize * (id.toNat + 1) := by omega
        have a2 : (c.mvmuConfig.xbarSize : Int) * id.toNat < c.mvmuConfig.xbarSize * (j + 1) := by omega
        have b1 := lt_of_mul_lt_mul_left a1 (by omega)
        have b2 := lt_of_mul_lt_mul_left a2 (by omega)
        omega
    · rw [accessesFrom_snoc (r := (s, l.toNat)), if_neg, List.append_nil]
      dsimp only
      push_cast at *
      omega

/-! ## Vector operations -/

theorem lanes_snoc (q : VfuOp → Bool) (vs : List (VfuOp × Nat)) (op : VfuOp) (n : Nat) :
    lanes q (vs ++ [(op, n)]) = lanes q vs + if q op then n else 0 := by
  unfold lanes
  rw [List.filter_append, List.map_append, List.sum_append]
  by_cases h : q op = true <;> simp [h]

theorem vectorCounts_snoc (vs : List (VfuOp × Nat)) (op : VfuOp) (n : Nat) :
    (vectorCounts vs).update op n = vectorCounts (vs ++ [(op, n)]) := by
  simp only [vectorCounts, lanes_snoc, VfuStats.update]
  cases op <;> simp

theorem ledger_vfu {c : Config} {R W : List (Int × Nat)} {vs : List (VfuOp × Nat)} {p : Nat → Nat} {C C' : Core}
    (hC : C.books = ledger c R W vs p) {fl : FloatActs} {op : VfuOp} {a : List I32} {b : Option (List I32)} {v : List I32}
    (hab : ∀ y ∈ b, y.length = a.length) (h : C.vfuCall fl op a b = (.ok v, C')) :
    v.length = a.length ∧ C'.books = ledger c R W (vs ++ [(op, a.length)]) p := by
  unfold Core.vfuCall VfuStats.calculate at h
  have hs : vfuSecond a.length (b.map Operand.arr) = .ok b := by cases b <;> rfl
  simp only [Operand.toArray, hs] at h
  have hvfu : C.vfu = vectorCounts vs := by rw [show C.vfu = C.books.vfu from rfl, hC]; rfl
  cases hv : vfuHandle fl C.config.dataConfig.activationFracBits op a b with
  | error e => rw [hv] at h; cases h
  | ok r =>
    rw [hv] at h
    injection h with h2 h3
    injection h2 with h2
    constructor
    · rw [← h2, List.length_map]
      unfold vfuHandle at hv
      split at hv
      · injection hv with hv
        rw [← hv, List.length_map]
      · cases b with
        | none => cases hv
        | some b =>
          have hb := hab b rfl
          dsimp only at hv
          split at hv
          · cases hv
          · unfold broadcast2 at hv
            rw [if_pos hb.symm] at hv
            injection hv with hv
            rw [← hv, List.length_zipWith, hb, Nat.min_self]
    · rw [← h3]
      have : ({ C with vfu := C.vfu.update op a.length } : Core).books = { C.books with vfu := C.vfu.update op a.length } := rfl
      rw [this, hC, hvfu, vectorCounts_snoc]
      rfl

/-! ## Products -/

theorem npArange_mask {size adcs cpa j : Nat} (hs : size = adcs * cpa) (hj : j < cpa) :
    (npArange j size cpa).length = adcs := by
  unfold npArange
  rw [List.length_map, List.length_range, hs]
  cases adcs with
  | zero =>
    apply Nat.div_eq_of_lt
    omega
  | succ n =>
    have h1 : (n + 1) * cpa = n * cpa + cpa := by ring
    rw [Nat.div_eq_iff (by omega), h1]
    constructor <;> (have h2 : (n + 1 + 1) * cpa = n * cpa + cpa + cpa := by ring) <;> omega

/-- A unit after `p` products begun, `slices` slices and `columns` columns. -/
def unitAt (c : Config) (reads writes : List (Int × Nat)) (p slices columns : Nat) : Mvmu :=
  let m := c.mvmuConfig
  let size := m.xbarSize
  let rrams := m.numRramXbarPerMvmu
  let srams := m.numSramXbarPerMvmu
  let adcs := m.numAdcPerXbar
  { Mvmu.new c with
    inreg := { InReg.new size with stats := accessCounts [] writes slices (slices * size) 0 0 }
    outreg := { OutReg.new size with
      stats := accessCounts reads [] columns (columns * adcs) (p + columns) (p * size + columns * adcs) }
    snaOperations := columns * (m.numXbarPerMvmu * adcs + adcs)
    dacStats := if m.haveRramXbar then
        { conversions := slices * size, activeCycles := slices * m.dacLat.getD 0 } else {}
    rram := { posXbar := [], negXbar := [], mvmOperations := if m.haveRramXbar then slices * (rrams * 2) else 0 }
    snhPosSamples := if m.haveRramXbar then slices * (rrams * size) else 0
    snhNegSamples := if m.haveRramXbar then slices * (rrams * size) else 0
    muxPosSelections := if m.haveRramXbar then columns * (rrams * adcs) else 0
    muxNegSelections := if m.haveRramXbar then columns * (rrams * adcs) else 0
    adcStats := if m.haveRramXbar then
        { conversions := columns * (rrams * adcs * match m.adcType with | .differential => 1 | .normal => 2)
          activeCycles := columns * m.adcLat.getD 0 } else {}
    sram := { posXbar := [], negXbar := [], macOperations := if m.haveSramXbar then slices * (srams * 2 * size) else 0 }
    muxSramSelections := if m.haveSramXbar then columns * (srams * adcs) else 0 }

theorem ledgerUnit_at (c : Config) (R W : List (Int × Nat)) (p : Nat) :
    ledgerUnit c R W p = unitAt c R W p (p * ((c.dataConfig.activationWidth + c.mvmuConfig.dacResolution - 1) / c.mvmuConfig.dacResolution))
      (p * ((c.dataConfig.activationWidth + c.mvmuConfig.dacResolution - 1) / c.mvmuConfig.dacResolution) * c.mvmuConfig.numColumnsPerAdc) := rfl

theorem columnBooks_unitAt {c : Config} (hs : c.mvmuConfig.xbarSize = c.mvmuConfig.numAdcPerXbar * c.mvmuConfig.numColumnsPerAdc)
    {j : Nat} (hj : j < c.mvmuConfig.numColumnsPerAdc) (R W : List (Int × Nat)) (p a b : Nat) :
    columnBooks j (unitAt c R W p a b) = unitAt c R W p a (b + 1) := by
  have hm : (npArange j c.mvmuConfig.xbarSize c.mvmuConfig.numColumnsPerAdc).length = c.mvmuConfig.numAdcPerXbar :=
    npArange_mask hs hj
  have hadc : c.mvmuConfig.adcSize = c.mvmuConfig.numRramXbarPerMvmu * c.mvmuConfig.numAdcPerXbar *
      (match c.mvmuConfig.adcType with | .differential => 1 | .normal => 2) := by
    unfold MVMUConfig.adcSize; cases c.mvmuConfig.adcType <;> rfl
  simp only [columnBooks, unitAt, Mvmu.new]
  rw [hm, hadc]
  rw [Mvmu.mk.injEq]
  refine ⟨rfl, rfl, rfl, ?_, ?_, rfl, rfl, rfl, rfl, ?_, ?_, ?_, rfl, ?_⟩
  · simp only [accessCounts, MemoryStats.addRead, MemoryStats.addWrite, OutReg.mk.injEq, MemoryStats.mk.injEq, true_and]
    push_cast
    refine ⟨?_, ?_, ?_, ?_, ?_, ?_⟩ <;> ring
  · unfold MVMUConfig.snaSize; ring
  · split <;> ring
  · split <;> ring
  · split
    · rw [ADCStats.mk.injEq]
      refine ⟨?_, rfl, rfl, ?_⟩ <;> (dsimp only; push_cast; ring)
    · rfl
  · split <;> ring

theorem columns_unitAt {c : Config} (hs : c.mvmuConfig.xbarSize = c.mvmuConfig.numAdcPerXbar * c.mvmuConfig.numColumnsPerAdc)
    (R W : List (Int × Nat)) (p a : Nat) (l : List Nat) : ∀ b, (∀ j ∈ l, j < c.mvmuConfig.numColumnsPerAdc) →
      l.foldl (fun m j => columnBooks j m) (unitAt c R W p a b) = unitAt c R W p a (b + l.length) := by
  induction l with
  | nil => intro b _; rfl
  | cons j l ih =>
    intro b h
    rw [List.foldl_cons, columnBooks_unitAt hs (h j (by simp)), ih _ (fun j hj => h j (by simp [hj])), List.length_cons]
    congr 1
    omega

theorem sliceBooks_unitAt {c : Config} (hs : c.mvmuConfig.xbarSize = c.mvmuConfig.numAdcPerXbar * c.mvmuConfig.numColumnsPerAdc)
    (R W : List (Int × Nat)) (p a b : Nat) :
    sliceBooks (unitAt c R W p a b) = unitAt c R W p (a + 1) (b + c.mvmuConfig.numColumnsPerAdc) := by
  have h := columns_unitAt hs R W p (a + 1) (List.range c.mvmuConfig.numColumnsPerAdc) b (fun j hj => List.mem_range.1 hj)
  rw [List.length_range] at h
  rw [← h]
  unfold sliceBooks
  show (List.range c.mvmuConfig.numColumnsPerAdc).foldl _ _ = _
  congr 1
  simp only [unitAt, Mvmu.new, InReg.new]
  rw [Mvmu.mk.injEq]
  refine ⟨rfl, rfl, ?_, rfl, rfl, ?_, ?_, ?_, ?_, rfl, rfl, rfl, ?_, rfl⟩
  · simp only [accessCounts, MemoryStats.addRead, InReg.mk.injEq, MemoryStats.mk.injEq, true_and]
    push_cast
    refine ⟨?_, ?_, ?_, ?_⟩ <;> first | trivial | ring
  · split
    · rw [DACStats.mk.injEq]
      refine ⟨?_, ?_⟩ <;> (dsimp only; ring)
    · rfl
  · rw [RRAMXbar.mk.injEq]
    refine ⟨rfl, rfl, ?_⟩
    split <;> ring
  · split <;> ring
  · split <;> ring
  · rw [SRAMCim.mk.injEq]
    refine ⟨rfl, rfl, ?_⟩
    split <;> ring

theorem slices_unitAt {c : Config} (hs : c.mvmuConfig.xbarSize = c.mvmuConfig.numAdcPerXbar * c.mvmuConfig.numColumnsPerAdc)
    (R W : List (Int × Nat)) (p : Nat) (l : List Nat) : ∀ a b,
      l.foldl (fun m _ => sliceBooks m) (unitAt c R W p a b) =
        unitAt c R W p (a + l.length) (b + l.length * c.mvmuConfig.numColumnsPerAdc) := by
  induction l with
  | nil => intro a b; simp
  | cons j l ih =>
    intro a b
    rw [List.foldl_cons, sliceBooks_unitAt hs, ih, List.length_cons]
    congr 1
    · omega
    · ring

theorem mvmBooks_ledgerUnit {c : Config} (hs : c.mvmuConfig.xbarSize = c.mvmuConfig.numAdcPerXbar * c.mvmuConfig.numColumnsPerAdc)
    (R W : List (Int × Nat)) (p : Nat) : mvmBooks (ledgerUnit c R W p) = ledgerUnit c R W (p + 1) := by
  rw [ledgerUnit_at, ledgerUnit_at]
  unfold mvmBooks
  have h1 : ∀ a b, ({ unitAt c R W p a b with
      outreg := { (unitAt c R W p a b).outreg with stats := (unitAt c R W p a b).outreg.stats.addWrite 1 (unitAt c R W p a b).outreg.size } } : Mvmu) =
      unitAt c R W (p + 1) a b := by
    intro a b
    simp only [unitAt, OutReg.new]
    rw [Mvmu.mk.injEq]
    refine ⟨rfl, rfl, rfl, ?_, rfl, rfl, rfl, rfl, rfl, rfl, rfl, rfl, rfl, rfl⟩
    simp only [accessCounts, MemoryStats.addWrite, OutReg.mk.injEq, MemoryStats.mk.injEq, true_and]
    push_cast
    refine ⟨?_, ?_, ?_, ?_⟩ <;> first | trivial | ring
  rw [h1, slices_unitAt hs, List.length_range]
  have h2 : (unitAt c R W p (p * ((c.dataConfig.activationWidth + c.mvmuConfig.dacResolution - 1) / c.mvmuConfig.dacResolution))
      (p * ((c.dataConfig.activationWidth + c.mvmuConfig.dacResolution - 1) / c.mvmuConfig.dacResolution) * c.mvmuConfig.numColumnsPerAdc)).numIterations =
    (c.dataConfig.activationWidth + c.mvmuConfig.dacResolution - 1) / c.mvmuConfig.dacResolution := rfl
  rw [h2]
  congr 1 <;> ring

/-- How often each unit has multiplied after one more product of unit `i`. -/
def bump (p : Nat → Nat) (i : Int) : Nat → Nat := fun u => p u + if i = (u : Int) then 1 else 0

theorem ledger_mvmOne {c : Config} (hs : c.mvmuConfig.xbarSize = c.mvmuConfig.numAdcPerXbar * c.mvmuConfig.numColumnsPerAdc)
    {R W : List (Int × Nat)} {vs : List (VfuOp × Nat)} {p : Nat → Nat} {C C' : Core}
    (hC : C.books = ledger c R W vs p) {i : Int} {noise : Nat → Noise} (h : C.mvmOne i noise = (.ok (), C')) :
    C'.books = ledger c R W vs (bump p i) := by
  unfold Core.mvmOne at h
  split at h
  · cases h
  rename_i m hm
  split at h
  · cases h
  rename_i m' hx
  injection h with _ h
  unfold Core.getMvmu at hm
  split at hm
  · cases hm
  rename_i hi
  split at hm
  · rename_i m0 hg
    injection hm with hm
    subst hm
    have hb : C'.books = { C.books with mvmus := C.books.mvmus.set i.toNat (mvmBooks m0.books) } := by
      rw [← h]; simp only [Core.books, List.map_set, executeMvm_books hx]
    have hg' : C.books.mvmus[i.toNat]? = some m0.books := by
      simp only [Core.books]; rw [List.getElem?_map, hg]; rfl
    rw [hb, hC]
    rw [hC] at hg'
    obtain ⟨h1, h2⟩ := map_range_some hg'
    rw [h2, mvmBooks_ledgerUnit hs]
    unfold ledger
    dsimp only
    rw [Core.mk.injEq]
    refine ⟨rfl, ?_, rfl, rfl⟩
    apply map_range_set
    · unfold bump
      rw [if_pos (by omega)]
    · intro j hj
      unfold bump
      rw [if_neg (by omega)]
      rfl
  · cases hm

theorem ledger_visitMvm {c : Config} (hs : c.mvmuConfig.xbarSize = c.mvmuConfig.numAdcPerXbar * c.mvmuConfig.numColumnsPerAdc)
    {R W : List (Int × Nat)} {vs : List (VfuOp × Nat)} (xs : List Int) : ∀ {p : Nat → Nat} {C C' : Core} {noise : Nat → Nat → Noise},
    C.books = ledger c R W vs p → C.visitMvm noise xs = (.ok (), C') →
    C'.books = ledger c R W vs (fun u => p u + xs.count (u : Int)) := by
  induction xs with
  | nil =>
    intro p C C' noise hC h
    injection h with _ h
    rw [← h, hC]
    rfl
  | cons i xs ih =>
    intro p C C' noise hC h
    obtain ⟨_, C1, h1, h2⟩ := andThen_ok h
    rw [ih (ledger_mvmOne hs hC h1) h2]
    congr 1
    funext u
    unfold bump
    rw [List.count_cons, add_assoc, add_comm (List.count _ _)]
    simp

end Ramwich
