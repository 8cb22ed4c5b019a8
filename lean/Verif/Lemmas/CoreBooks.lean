import Verif.Lemmas.TileBlank

/-! # The counters of a core do not depend on its data -/
namespace Ramwich

open Spec

/-! ## Lists and memories -/

theorem blank_pySliceSet (xs ys : List I32) (s : Nat) : pySliceSet (blank xs) s (blank ys) = blank (pySliceSet xs s ys) := by
  simp only [pySliceSet, blank, List.map_take, List.map_drop, List.map_append, List.length_map]

theorem blank_pySlice (xs : List I32) (a b : Int) : pySlice (blank xs) a b = blank (pySlice xs a b) := by
  simp [pySlice, blank, List.map_take, List.map_drop]

theorem blank_gather (xs : List I32) (is : List Nat) : gather (blank xs) is 0 = blank (gather xs is 0) := by
  simp only [gather, blank, List.map_map]
  apply List.map_congr_left
  intro i _
  simp only [Function.comp, List.getD_eq_getElem?_getD, List.getElem?_map]
  cases xs[i]? <;> rfl

theorem memory_write_books (m : Memory) (s : Int) (d : List I32) (b : Int) :
    m.books.write s (blank d) b = ((m.write s d b).1, (m.write s d b).2.books) := by
  unfold Memory.write
  simp only [blank_length, Memory.books]
  split
  · rfl
  · simp [blank_pySliceSet]

theorem memory_read_books (m : Memory) (s l b : Int) :
    m.books.read s l b = ((m.read s l b).1.map blank, (m.read s l b).2.books) := by
  unfold Memory.read
  by_cases h1 : s < 0 ∨ s + l > (m.size : Int)
  · simp [Memory.books, h1, Except.map]
  · by_cases h2 : l ≤ 0
    · simp only [Memory.books, if_neg h1, if_pos h2, Except.map]
    · simp only [Memory.books, if_neg h1, if_neg h2, Except.map, blank_pySlice]

/-! ## Registers of an MVMU -/

theorem writeToInreg_books (m : Mvmu) (s : Int) (d : List I32) :
    m.books.writeToInreg s (blank d) = (m.writeToInreg s d).map Mvmu.books := by
  unfold Mvmu.writeToInreg InReg.write
  simp only [Mvmu.books, blank_length]
  split
  · rfl
  · simp [bind, Except.bind, Except.map, Mvmu.books, blank_pySliceSet]

theorem blank_sshift (l : List I32) (n : Nat) : (blank l).map (fun x => x.sshiftRight n) = blank (l.map fun x => x.sshiftRight n) := by
  simp only [blank, List.map_map]
  apply List.map_congr_left
  intro x _
  simp [Function.comp]

theorem readFromOutreg_books (m : Mvmu) (s l : Int) :
    m.books.readFromOutreg s l = (m.readFromOutreg s l).map fun p => (blank p.1, p.2.books) := by
  unfold Mvmu.readFromOutreg OutReg.read
  by_cases h1 : s < 0 ∧ 0 < l
  · simp only [if_pos h1]; rfl
  · by_cases h2 : ((List.range l.toNat).map fun i => s.toNat + i).any (fun i => decide (i ≥ m.outreg.size)) = true
    · have h3 : ((List.range l.toNat).map fun i => s.toNat + i).any (fun i => decide (i ≥ m.books.outreg.size)) = true := h2
      simp only [if_neg h1, if_pos h2, if_pos h3]; rfl
    · have h3 : ¬((List.range l.toNat).map fun i => s.toNat + i).any (fun i => decide (i ≥ m.books.outreg.size)) = true := h2
      simp only [if_neg h1, if_neg h2, if_neg h3]
      simp only [bind, Except.bind, Except.map, Mvmu.books, blank_gather, blank_sshift]

/-! ## Registers of a core -/

theorem writeToRegister_books (c : Core) (s : Int) (d : List I32) :
    c.books.writeToRegister s (blank d) = ((c.writeToRegister s d).1, (c.writeToRegister s d).2.books) := by
  unfold Core.writeToRegister
  have h1 : c.books.totalRegisters = c.totalRegisters := rfl
  have h2 : c.books.cacheStart = c.cacheStart := rfl
  have h3 : ∀ a b, c.books.overlapsOutput a b = c.overlapsOutput a b := fun _ _ => rfl
  have h4 : ∀ a b, c.books.mvmuIdFromAddress a b = c.mvmuIdFromAddress a b := fun _ _ => rfl
  have h5 : c.books.cache = c.cache.books := rfl
  have h6 : c.books.mvmus = c.mvmus.map Mvmu.books := rfl
  have h7 : c.books.config = c.config := rfl
  simp only [h1, h2, h3, h4, h5, h6, h7, blank_length]
  split
  · rfl
  · split
    · rfl
    · split
      · rw [memory_write_books]; rfl
      · split
        · rfl
        · rename_i id _
          rw [List.getElem?_map]
          cases hm : c.mvmus[id.toNat]? with
          | none => rfl
          | some m =>
            simp only [Option.map_some]
            rw [writeToInreg_books]
            cases m.writeToInreg (s % (c.config.mvmuConfig.xbarSize : Int)) d with
            | error => rfl
            | ok m' => simp [Except.map, Core.books, List.map_set]

theorem readFromRegister_books (c : Core) (s l : Int) :
    c.books.readFromRegister s l = ((c.readFromRegister s l).1.map blank, (c.readFromRegister s l).2.books) := by
  unfold Core.readFromRegister
  have h1 : c.books.totalRegisters = c.totalRegisters := rfl
  have h2 : c.books.cacheStart = c.cacheStart := rfl
  have h3 : c.books.outregStart = c.outregStart := rfl
  have h4 : ∀ a b, c.books.mvmuIdFromAddress a b = c.mvmuIdFromAddress a b := fun _ _ => rfl
  have h5 : c.books.cache = c.cache.books := rfl
  have h6 : c.books.mvmus = c.mvmus.map Mvmu.books := rfl
  have h7 : c.books.config = c.config := rfl
  simp only [h1, h2, h3, h4, h5, h6, h7]
  split
  · rfl
  · split
    · rfl
    · split
      · rw [memory_read_books]; rfl
      · split
        · rfl
        · rename_i id _
          rw [List.getElem?_map]
          cases hm : c.mvmus[id.toNat]? with
          | none => rfl
          | some m =>
            simp only [Option.map_some]
            rw [readFromOutreg_books]
            cases m.readFromOutreg (s % (c.config.mvmuConfig.xbarSize : Int)) l with
            | error => rfl
            | ok m' => simp [Except.map, Core.books, List.map_set]

/-- Writes of as many words on cores with the same books. -/
theorem write_same {c c' : Core} (h : c'.books = c.books) (s : Int) {d d' : List I32} (hd : blank d' = blank d) :
    (c'.writeToRegister s d').1 = (c.writeToRegister s d).1 ∧
      (c'.writeToRegister s d').2.books = (c.writeToRegister s d).2.books := by
  have h1 := writeToRegister_books c s d
  have h2 := writeToRegister_books c' s d'
  rw [h, hd, h1] at h2
  injection h2 with h2 h3
  exact ⟨h2.symm, h3.symm⟩

theorem read_same {c c' : Core} (h : c'.books = c.books) (s l : Int) {v v' : List I32} {c1 c1' : Core}
    (h1 : c.readFromRegister s l = (.ok v, c1)) (h1' : c'.readFromRegister s l = (.ok v', c1')) :
    blank v' = blank v ∧ c1'.books = c1.books := by
  have h2 := readFromRegister_books c s l
  have h3 := readFromRegister_books c' s l
  rw [h, h2, h1, h1'] at h3
  simp only [Except.map, Prod.mk.injEq, Except.ok.injEq] at h3
  exact ⟨h3.1.symm, h3.2.symm⟩

/-! ## Operations that do not touch the DRAM -/

theorem andThen_ok {σ α β : Type} {r : Res σ α} {f : σ → α → Res σ β} {b : β} {s : σ}
    (h : Res.andThen r f = (.ok b, s)) : ∃ a s1, r = (.ok a, s1) ∧ f s1 a = (.ok b, s) := by
  unfold Res.andThen at h
  split at h
  · cases h
  · rename_i a ha
    exact ⟨a, r.2, by rw [← ha], h⟩

theorem write_ok_same {c c' : Core} (h : c'.books = c.books) (s : Int) {d d' : List I32} (hd : blank d' = blank d)
    {u u' : Unit} {c1 c1' : Core} (h1 : c.writeToRegister s d = (.ok u, c1)) (h1' : c'.writeToRegister s d' = (.ok u', c1')) :
    c1'.books = c1.books := by
  have := (write_same h s hd).2
  rw [h1, h1'] at this
  exact this

theorem length_of_blank {d d' : List I32} (h : blank d' = blank d) : d'.length = d.length := by
  have := congrArg List.length h
  simpa using this

theorem broadcast2_length {f f' : I32 → I32 → I32} {a a' b b' r r' : List I32} (ha : a'.length = a.length)
    (hb : b'.length = b.length) (h : broadcast2 f a b = .ok r) (h' : broadcast2 f' a' b' = .ok r') :
    r'.length = r.length := by
  have key : ∀ (f : I32 → I32 → I32) (a b r : List I32), broadcast2 f a b = .ok r →
      r.length = if a.length = b.length then a.length else if b.length = 1 then a.length else b.length := by
    intro f a b r h
    unfold broadcast2 at h
    split at h
    · rename_i hl
      injection h with h
      subst h
      simp [hl]
    · rename_i hl
      rw [if_neg hl]
      split at h
      · injection h with h; subst h; simp
      · rename_i hne
        injection h with h
        subst h
        rw [if_neg, List.length_map]
        intro h1
        obtain ⟨y, rfl⟩ := List.length_eq_one_iff.1 h1
        exact hne y rfl
      · cases h
  rw [key _ _ _ _ h, key _ _ _ _ h', ha, hb]

theorem vfuCall_same {c c' : Core} (h : c'.books = c.books) {fl fl' : FloatActs} (op : VfuOp) {a a' : List I32}
    (ha : blank a' = blank a) {b b' : Option (List I32)} (hb : b'.map blank = b.map blank) {v v' : List I32} {c1 c1' : Core}
    (h1 : c.vfuCall fl op a b = (.ok v, c1)) (h1' : c'.vfuCall fl' op a' b' = (.ok v', c1')) :
    blank v' = blank v ∧ c1'.books = c1.books := by
  have hconf : c'.config = c.config := show c'.books.config = c.books.config by rw [h]
  have hvfu : c'.vfu = c.vfu := show c'.books.vfu = c.books.vfu by rw [h]
  have hm : c'.mvmus.map Mvmu.books = c.mvmus.map Mvmu.books := show c'.books.mvmus = c.books.mvmus by rw [h]
  have hca : c'.cache.books = c.cache.books := show c'.books.cache = c.books.cache by rw [h]
  have key : ∀ {c : Core} {fl : FloatActs} {a : List I32} {b : Option (List I32)} {v : List I32} {c1 : Core},
      c.vfuCall fl op a b = (.ok v, c1) → c1 = { c with vfu := c.vfu.update op a.length } ∧
        ∃ r, vfuHandle fl c.config.dataConfig.activationFracBits op a b = .ok r ∧ r.length = v.length := by
    intro c fl a b v c1 h
    unfold Core.vfuCall VfuStats.calculate at h
    have hs : vfuSecond a.length (b.map Operand.arr) = .ok b := by cases b <;> rfl
    simp only [Operand.toArray, hs] at h
    cases hv : vfuHandle fl c.config.dataConfig.activationFracBits op a b with
    | error e => rw [hv] at h; cases h
    | ok r =>
      rw [hv] at h
      injection h with h2 h3
      injection h2 with h2
      exact ⟨h3.symm, r, rfl, by rw [← h2]; simp⟩
  obtain ⟨k1, r, k2, k3⟩ := key h1
  obtain ⟨k1', r', k2', k3'⟩ := key h1'
  have hal := length_of_blank ha
  refine ⟨blank_eq ?_, ?_⟩
  · rw [← k3, ← k3']
    unfold vfuHandle at k2 k2'
    cases hu : op.unary with
    | true =>
      rw [hu] at k2 k2'
      injection k2 with k2
      injection k2' with k2'
      rw [← k2, ← k2', List.length_map, List.length_map, hal]
    | false =>
      rw [hu] at k2 k2'
      simp only [Bool.false_eq_true, if_false] at k2 k2'
      cases b with
      | none => cases k2
      | some b =>
        cases b' with
        | none => cases hb
        | some b' =>
          simp only [Option.map_some, Option.some.injEq] at hb
          dsimp only at k2 k2'
          split at k2
          · cases k2
          · split at k2'
            · cases k2'
            · exact broadcast2_length hal (length_of_blank hb) k2 k2'
  · rw [k1, k1']
    simp only [Core.books]
    rw [hconf, hvfu, hm, hca, hal]

/-! ## Matrix-vector multiplication -/

/-- What one column step counts. -/
def columnBooks (j : Nat) (m : Mvmu) : Mvmu :=
  let mask : Int := (npArange j m.cfg.xbarSize m.cfg.numColumnsPerAdc).length
  { m with
    muxPosSelections := if m.cfg.haveRramXbar then m.muxPosSelections + m.cfg.numRramXbarPerMvmu * m.cfg.numAdcPerXbar
      else m.muxPosSelections
    muxNegSelections := if m.cfg.haveRramXbar then m.muxNegSelections + m.cfg.numRramXbarPerMvmu * m.cfg.numAdcPerXbar
      else m.muxNegSelections
    adcStats := if m.cfg.haveRramXbar then { m.adcStats with
        conversions := m.adcStats.conversions + m.cfg.adcSize
        activeCycles := m.adcStats.activeCycles + m.cfg.adcLat.getD 0 }
      else m.adcStats
    muxSramSelections := if m.cfg.haveSramXbar then m.muxSramSelections + m.cfg.numSramXbarPerMvmu * m.cfg.numAdcPerXbar
      else m.muxSramSelections
    outreg := { m.outreg with stats := (m.outreg.stats.addRead 1 mask).addWrite 1 mask }
    snaOperations := m.snaOperations + m.cfg.snaSize }

theorem rramColumn_books {m m1 : Mvmu} {xo : XbarOut} {j : Nat} {o : List (List Int)} (h : m.rramColumn xo j = .ok (o, m1)) :
    m1.books = { m.books with
      muxPosSelections := if m.cfg.haveRramXbar then m.muxPosSelections + m.cfg.numRramXbarPerMvmu * m.cfg.numAdcPerXbar
        else m.muxPosSelections
      muxNegSelections := if m.cfg.haveRramXbar then m.muxNegSelections + m.cfg.numRramXbarPerMvmu * m.cfg.numAdcPerXbar
        else m.muxNegSelections
      adcStats := if m.cfg.haveRramXbar then { m.books.adcStats with
          conversions := m.adcStats.conversions + m.cfg.adcSize
          activeCycles := m.adcStats.activeCycles + m.cfg.adcLat.getD 0 }
        else m.books.adcStats } := by
  unfold Mvmu.rramColumn at h
  split at h
  · rename_i hr
    simp only [bind, Except.bind] at h
    split at h
    · cases h
    rename_i p hp
    split at h
    · cases h
    rename_i n hn
    split at h
    · cases h
    rename_i out ho
    injection h with h
    injection h with _ h
    unfold muxSelect at hp hn
    split at hp
    · cases hp
    split at hp
    · cases hp
    split at hn
    · cases hn
    injection hp with hp
    injection hn with hn
    unfold adcConvert at ho
    split at ho
    · cases ho
    split at ho
    · cases ho
    rename_i lat hl
    injection ho with ho
    rw [← h, ← hp, ← hn, ← ho]
    simp [Mvmu.books, hr, hl]
  · rename_i hr
    injection h with h
    injection h with _ h
    rw [← h]
    simp [hr, Mvmu.books]

theorem sramColumn_books {m m1 : Mvmu} {xo : XbarOut} {j : Nat} {o : List (List Int)} (h : m.sramColumn xo j = .ok (o, m1)) :
    m1.books = { m.books with
      muxSramSelections := if m.cfg.haveSramXbar then m.muxSramSelections + m.cfg.numSramXbarPerMvmu * m.cfg.numAdcPerXbar
        else m.muxSramSelections } := by
  unfold Mvmu.sramColumn at h
  split at h
  · rename_i hr
    simp only [bind, Except.bind] at h
    split at h
    · cases h
    rename_i p hp
    injection h with h
    injection h with _ h
    unfold muxSelect at hp
    split at hp
    · cases hp
    split at hp
    · cases hp
    injection hp with hp
    rw [← h, ← hp]
    simp [Mvmu.books, hr]
  · rename_i hr
    injection h with h
    injection h with _ h
    rw [← h]
    simp [hr, Mvmu.books]

theorem accumulate_books {m m1 : Mvmu} {out : List (List Int)} {i j : Nat} (h : m.accumulate out i j = .ok m1) :
    m1.books = { m.books with
      outreg := { m.books.outreg with
        stats := (m.outreg.stats.addRead 1 (npArange j m.cfg.xbarSize m.cfg.numColumnsPerAdc).length).addWrite 1
          (npArange j m.cfg.xbarSize m.cfg.numColumnsPerAdc).length }
      snaOperations := m.snaOperations + m.cfg.snaSize } := by
  unfold Mvmu.accumulate at h
  simp only [bind, Except.bind] at h
  split at h
  · cases h
  rename_i cur hc
  split at h
  · cases h
  rename_i sna hs
  split at h
  · cases h
  rename_i out ho
  injection h with h
  unfold OutReg.read at hc
  split at hc
  · cases hc
  injection hc with hc
  unfold snaCalculate at hs
  split at hs
  · cases hs
  split at hs
  · cases hs
  injection hs with hs
  unfold OutReg.write at ho
  split at ho
  · cases ho
  split at ho
  · cases ho
  injection ho with ho
  rw [← h, ← ho, ← hs, ← hc]
  simp only [Mvmu.books]
  congr 2
  exact blank_eq (scatter_length _ _ _)

theorem columnStep_books {i : Nat} {xo : XbarOut} {m m1 : Mvmu} {j : Nat} (h : Mvmu.columnStep i xo m j = .ok m1) :
    m1.books = columnBooks j m.books := by
  unfold Mvmu.columnStep at h
  simp only [bind, Except.bind] at h
  split at h
  · cases h
  rename_i r hr
  split at h
  · cases h
  rename_i s hs
  split at h
  · cases h
  rename_i o ho
  have h1 := rramColumn_books (o := r.1) (m1 := r.2) hr
  have h2 := sramColumn_books (o := s.1) (m1 := s.2) hs
  have h3 := accumulate_books h
  have e1 : r.2.cfg = m.cfg := (congrArg (fun m : Mvmu => m.cfg) h1 :)
  have e2 : s.2.cfg = r.2.cfg := (congrArg (fun m : Mvmu => m.cfg) h2 :)
  have e3 : s.2.outreg.stats = r.2.outreg.stats := (congrArg (fun m : Mvmu => m.outreg.stats) h2 :)
  have e4 : r.2.outreg.stats = m.outreg.stats := (congrArg (fun m : Mvmu => m.outreg.stats) h1 :)
  have e5 : s.2.snaOperations = r.2.snaOperations := (congrArg (fun m : Mvmu => m.snaOperations) h2 :)
  have e6 : r.2.snaOperations = m.snaOperations := (congrArg (fun m : Mvmu => m.snaOperations) h1 :)
  have e7 : r.2.muxSramSelections = m.muxSramSelections := (congrArg (fun m : Mvmu => m.muxSramSelections) h1 :)
  rw [h3, h2, h1, e2, e1, e3, e4, e5, e6, e7]
  rfl

theorem foldlM_books {f : Mvmu → Nat → Except PyErr Mvmu} {g : Nat → Mvmu → Mvmu}
    (h : ∀ m j m1, f m j = .ok m1 → m1.books = g j m.books) (l : List Nat) :
    ∀ {m m1 : Mvmu}, l.foldlM f m = .ok m1 → m1.books = l.foldl (fun m j => g j m) m.books := by
  induction l with
  | nil => intro m m1 hm; injection hm with hm; rw [← hm]; rfl
  | cons j l ih =>
    intro m m1 hm
    rw [List.foldlM_cons] at hm
    simp only [bind, Except.bind] at hm
    split at hm
    · cases hm
    rename_i m2 h2
    rw [ih hm, h _ _ _ h2]
    rfl

/-- What one bit slice counts. -/
def sliceBooks (m : Mvmu) : Mvmu :=
  let m1 : Mvmu := { m with
    inreg := { m.inreg with stats := m.inreg.stats.addRead 1 m.inreg.size }
    dacStats := if m.cfg.haveRramXbar then { m.dacStats with
        conversions := m.dacStats.conversions + m.cfg.xbarSize
        activeCycles := m.dacStats.activeCycles + m.cfg.dacLat.getD 0 }
      else m.dacStats
    rram := { m.rram with mvmOperations :=
      if m.cfg.haveRramXbar then m.rram.mvmOperations + m.cfg.numRramXbarPerMvmu * 2 else m.rram.mvmOperations }
    snhPosSamples := if m.cfg.haveRramXbar then m.snhPosSamples + m.cfg.numRramXbarPerMvmu * m.cfg.xbarSize
      else m.snhPosSamples
    snhNegSamples := if m.cfg.haveRramXbar then m.snhNegSamples + m.cfg.numRramXbarPerMvmu * m.cfg.xbarSize
      else m.snhNegSamples
    sram := { m.sram with macOperations :=
      if m.cfg.haveSramXbar then m.sram.macOperations + m.cfg.numSramXbarPerMvmu * 2 * m.cfg.xbarSize
      else m.sram.macOperations } }
  (List.range m.cfg.numColumnsPerAdc).foldl (fun m j => columnBooks j m) m1

theorem rramSlice_books {m m1 : Mvmu} {noise : Noise} {slice : List I32} {o : List (List ℚ) × List (List ℚ)}
    (h : m.rramSlice noise slice = .ok (o, m1)) :
    m1.books = { m.books with
      dacStats := if m.cfg.haveRramXbar then { m.dacStats with
          conversions := m.dacStats.conversions + m.cfg.xbarSize
          activeCycles := m.dacStats.activeCycles + m.cfg.dacLat.getD 0 }
        else m.dacStats
      rram := { m.books.rram with mvmOperations :=
        if m.cfg.haveRramXbar then m.rram.mvmOperations + m.cfg.numRramXbarPerMvmu * 2 else m.rram.mvmOperations }
      snhPosSamples := if m.cfg.haveRramXbar then m.snhPosSamples + m.cfg.numRramXbarPerMvmu * m.cfg.xbarSize
        else m.snhPosSamples
      snhNegSamples := if m.cfg.haveRramXbar then m.snhNegSamples + m.cfg.numRramXbarPerMvmu * m.cfg.xbarSize
        else m.snhNegSamples } := by
  unfold Mvmu.rramSlice at h
  split at h
  · rename_i hr
    simp only [bind, Except.bind] at h
    split at h
    · cases h
    rename_i v hv
    split at h
    · cases h
    rename_i out ho
    injection h with h
    injection h with _ h
    unfold dacConvert at hv
    split at hv
    · cases hv
    split at hv
    · cases hv
    rename_i lat hl
    injection hv with hv
    unfold RRAMXbar.executeMvm at ho
    split at ho
    · cases ho
    injection ho with ho
    rw [← h, ← hv, ← ho]
    simp [Mvmu.books, hr, hl]
  · rename_i hr
    injection h with h
    injection h with _ h
    rw [← h]
    simp [hr, Mvmu.books]

theorem sramSlice_books {m m1 : Mvmu} {slice : List I32} {o : List (List I32)} (h : m.sramSlice slice = .ok (o, m1)) :
    m1.books = { m.books with
      sram := { m.books.sram with macOperations :=
        if m.cfg.haveSramXbar then m.sram.macOperations + m.cfg.numSramXbarPerMvmu * 2 * m.cfg.xbarSize
        else m.sram.macOperations } } := by
  unfold Mvmu.sramSlice at h
  split at h
  · rename_i hr
    simp only [bind, Except.bind] at h
    split at h
    · cases h
    rename_i out ho
    injection h with h
    injection h with _ h
    unfold SRAMCim.executeMvm at ho
    split at ho
    · cases ho
    injection ho with ho
    rw [← h, ← ho]
    simp [Mvmu.books, hr]
  · rename_i hr
    injection h with h
    injection h with _ h
    rw [← h]
    simp [hr, Mvmu.books]

theorem sliceStep_books {noise : Nat → Noise} {m m1 : Mvmu} {i : Nat} (h : Mvmu.sliceStep noise m i = .ok m1) :
    m1.books = sliceBooks m.books := by
  unfold Mvmu.sliceStep at h
  simp only [bind, Except.bind] at h
  split at h
  · cases h
  rename_i r hr
  split at h
  · cases h
  rename_i s hs
  have h1 := rramSlice_books (o := r.1) (m1 := r.2) hr
  have h2 := sramSlice_books (o := s.1) (m1 := s.2) hs
  have h3 := foldlM_books (f := Mvmu.columnStep i { pos := r.1.1, neg := r.1.2, sram := s.1 }) (g := columnBooks)
    (fun m j m1 => columnStep_books) _ h
  have e1 : r.2.cfg = m.cfg := (congrArg (fun m : Mvmu => m.cfg) h1 :)
  have e2 : r.2.sram.macOperations = m.sram.macOperations := (congrArg (fun m : Mvmu => m.sram.macOperations) h1 :)
  rw [h3, h2, h1, e1, e2]
  unfold sliceBooks
  have hreg : ({ m with inreg := (m.inreg.read m.cfg.dacResolution).2 } : Mvmu).books =
      { m.books with inreg := { m.books.inreg with stats := m.inreg.stats.addRead 1 m.inreg.size } } := by
    simp only [Mvmu.books, InReg.read, blank, List.map_map]
    rfl
  rw [hreg]
  rfl

/-- What `execute_mvm` counts. -/
def mvmBooks (m : Mvmu) : Mvmu :=
  (List.range m.numIterations).foldl (fun m _ => sliceBooks m)
    { m with outreg := { m.outreg with stats := m.outreg.stats.addWrite 1 m.outreg.size } }

theorem executeMvm_books {noise : Nat → Noise} {m m1 : Mvmu} (h : m.executeMvm noise = .ok m1) :
    m1.books = mvmBooks m.books := by
  unfold Mvmu.executeMvm at h
  split at h
  · cases h
  split at h
  · cases h
  rw [foldlM_books (f := Mvmu.sliceStep noise) (g := fun _ => sliceBooks) (fun m j m1 => sliceStep_books) _ h]
  unfold mvmBooks
  have hreg : ({ m with outreg := m.outreg.cleanCells } : Mvmu).books =
      { m.books with outreg := { m.books.outreg with stats := m.outreg.stats.addWrite 1 m.outreg.size } } := by
    simp [Mvmu.books, OutReg.cleanCells, blank]
  rw [hreg]
  rfl

theorem mvmOne_same {c c' : Core} (h : c'.books = c.books) (i : Int) {noise noise' : Nat → Noise} {c1 c1' : Core}
    (h1 : c.mvmOne i noise = (.ok (), c1)) (h1' : c'.mvmOne i noise' = (.ok (), c1')) : c1'.books = c1.books := by
  have key : ∀ {c c1 : Core} {noise : Nat → Noise}, c.mvmOne i noise = (.ok (), c1) →
      c1.books = { c.books with mvmus := c.books.mvmus.set i.toNat (mvmBooks (c.books.mvmus.getD i.toNat (c.books.mvmus.headD (Mvmu.new c.config)))) } := by
    intro c c1 noise h
    unfold Core.mvmOne at h
    split at h
    · cases h
    rename_i m hm
    split at h
    · cases h
    rename_i m' hx
    injection h with _ h
    unfold Core.getMvmu at hm
    split at hm
    · cases hm
    split at hm
    · rename_i m0 hg
      injection hm with hm
      subst hm
      rw [← h]
      simp only [Core.books, List.map_set, executeMvm_books hx]
      have hb : (c.mvmus.map Mvmu.books).getD i.toNat ((c.mvmus.map Mvmu.books).headD (Mvmu.new c.config)) = m0.books := by
        rw [List.getD_eq_getElem?_getD, List.getElem?_map, hg]; rfl
      rw [hb]
    · cases hm
  have hconf : c'.config = c.config := show c'.books.config = c.books.config by rw [h]
  rw [key h1, key h1', h, hconf]

theorem visitMvm_same (xs : List Int) : ∀ {c c' : Core}, c'.books = c.books → ∀ {noise noise' : Nat → Nat → Noise}
    {c1 c1' : Core}, c.visitMvm noise xs = (.ok (), c1) → c'.visitMvm noise' xs = (.ok (), c1') → c1'.books = c1.books := by
  induction xs with
  | nil =>
    intro c c' h noise noise' c1 c1' h1 h1'
    injection h1 with _ h1
    injection h1' with _ h1'
    rw [← h1, ← h1', h]
  | cons x xs ih =>
    intro c c' h noise noise' c1 c1' h1 h1'
    obtain ⟨_, c2, h2, h3⟩ := andThen_ok h1
    obtain ⟨_, c2', h2', h3'⟩ := andThen_ok h1'
    exact ih (mvmOne_same h x h2 h2') h3 h3'

/-- Executed operations change the books in the same way. -/
theorem execute_same {c c' : Core} (h : c'.books = c.books) {fl fl' : FloatActs} {noise noise' : Nat → Nat → Noise}
    (op : CoreOp) {c1 c1' : Core} (h1 : c.execute fl noise op = (.ok (), c1))
    (h1' : c'.execute fl' noise' op = (.ok (), c1')) : c1'.books = c1.books := by
  cases op with
  | set dest imm vec =>
    simp only [Core.execute, Core.visitSet] at h1 h1'
    cases hn : npFull32 vec imm with
    | error e => rw [hn] at h1; cases h1
    | ok d =>
      rw [hn] at h1 h1'
      exact write_ok_same h dest rfl h1 h1'
  | copy dest read vec =>
    simp only [Core.execute, Core.visitCopy] at h1 h1'
    obtain ⟨v, c2, h2, h3⟩ := andThen_ok h1
    obtain ⟨v', c2', h2', h3'⟩ := andThen_ok h1'
    obtain ⟨k1, k2⟩ := read_same h _ _ h2 h2'
    exact write_ok_same k2 dest k1 h3 h3'
  | vfu op dest r1 r2 vec =>
    simp only [Core.execute, Core.visitVfu] at h1 h1'
    obtain ⟨v, c2, h2, h3⟩ := andThen_ok h1
    obtain ⟨v', c2', h2', h3'⟩ := andThen_ok h1'
    obtain ⟨k1, k2⟩ := read_same h _ _ h2 h2'
    cases r2 with
    | some r2 =>
      obtain ⟨w, c3, h4, h5⟩ := andThen_ok h3
      obtain ⟨w', c3', h4', h5'⟩ := andThen_ok h3'
      obtain ⟨k3, k4⟩ := read_same k2 _ _ h4 h4'
      obtain ⟨x, c4, h6, h7⟩ := andThen_ok h5
      obtain ⟨x', c4', h6', h7'⟩ := andThen_ok h5'
      obtain ⟨k5, k6⟩ := vfuCall_same k4 op k1 (b := some w) (b' := some w') (by simp [k3]) h6 h6'
      exact write_ok_same k6 dest k5 h7 h7'
    | none =>
      obtain ⟨x, c4, h6, h7⟩ := andThen_ok h3
      obtain ⟨x', c4', h6', h7'⟩ := andThen_ok h3'
      obtain ⟨k5, k6⟩ := vfuCall_same k2 op k1 (b := none) (b' := none) rfl h6 h6'
      exact write_ok_same k6 dest k5 h7 h7'
  | mvm xs => exact visitMvm_same xs h h1 h1'
  | hlt =>
    injection h1 with _ h1
    injection h1' with _ h1'
    rw [← h1, ← h1', h]
  | load =>
    injection h1 with _ h1
    injection h1' with _ h1'
    rw [← h1, ← h1', h]
  | store =>
    injection h1 with _ h1
    injection h1' with _ h1'
    rw [← h1, ← h1', h]

theorem loadAddress_same {c c' : Core} (h : c'.books = c.books) (read : Int) {a a' : Int} {c1 c1' : Core}
    (h1 : c.loadAddress read = (.ok a, c1)) (h1' : c'.loadAddress read = (.ok a', c1')) : c1'.books = c1.books := by
  obtain ⟨v, c2, h2, h3⟩ := andThen_ok h1
  obtain ⟨v', c2', h2', h3'⟩ := andThen_ok h1'
  obtain ⟨k1, k2⟩ := read_same h _ _ h2 h2'
  cases v with
  | nil => cases h3
  | cons x v =>
    cases v' with
    | nil => cases h3'
    | cons x' v' =>
      injection h3 with _ h3
      injection h3' with _ h3'
      rw [← h3, ← h3', k2]

theorem storeRequest_same {c c' : Core} (h : c'.books = c.books) (dest read w v : Int) {a a' : Int} {d d' : List I32}
    {c1 c1' : Core} (h1 : c.storeRequest dest read w v = (.ok (a, d), c1))
    (h1' : c'.storeRequest dest read w v = (.ok (a', d'), c1')) : blank d' = blank d ∧ c1'.books = c1.books := by
  obtain ⟨x, c2, h2, h3⟩ := andThen_ok h1
  obtain ⟨x', c2', h2', h3'⟩ := andThen_ok h1'
  have k1 := loadAddress_same h dest h2 h2'
  obtain ⟨y, c3, h4, h5⟩ := andThen_ok h3
  obtain ⟨y', c3', h4', h5'⟩ := andThen_ok h3'
  obtain ⟨k2, k3⟩ := read_same k1 _ _ h4 h4'
  split at h5
  · cases h5
  rename_i hn
  rw [if_neg hn] at h5'
  injection h5 with h6 h7
  injection h6 with h6
  injection h6 with _ h6
  injection h5' with h6' h7'
  injection h6' with h6'
  injection h6' with _ h6'
  rw [← h6, ← h6', ← h7, ← h7']
  exact ⟨k2, k3⟩

/-! ## Programs -/

/-- An event of a core without data. -/
def coreEvBooks (e : CoreEv) : CoreOp × List I32 × Core := (e.op, blank e.data, e.after.books)

/-- The loads of the history have got as many words as they have asked for. -/
def loadsFull (log : List CoreEv) : Prop :=
  ∀ e ∈ log, ∀ dest read w v, e.op = .load dest read w v → e.data.length = (w * v).toNat

theorem follows_same {fl fl' : FloatActs} {noise noise' : Nat → Nat → Noise} {c c' : Core} {e e' : CoreEv}
    (h : c'.books = c.books) (hop : e'.op = e.op) (hl : loadsFull [e]) (hl' : loadsFull [e'])
    (h1 : e.follows fl noise c) (h1' : e'.follows fl' noise' c') : coreEvBooks e' = coreEvBooks e := by
  obtain ⟨op, addr, data, after⟩ := e
  obtain ⟨op', addr', data', after'⟩ := e'
  dsimp only at hop
  subst hop
  unfold CoreEv.follows at h1 h1'
  have key : blank data' = blank data ∧ after'.books = after.books := by
    cases op' with
    | load dest read w v =>
      obtain ⟨c1, k1, k2⟩ := h1
      obtain ⟨c1', k1', k2'⟩ := h1'
      have e1 : data.length = (w * v).toNat := hl _ (List.mem_singleton.2 rfl) dest read w v rfl
      have e2 : data'.length = (w * v).toNat := hl' _ (List.mem_singleton.2 rfl) dest read w v rfl
      have hd : blank data' = blank data := blank_eq (by rw [e1, e2])
      refine ⟨hd, ?_⟩
      dsimp only at k2 k2'
      rw [k2, k2']
      exact (write_same (loadAddress_same h read k1 k1') dest hd).2
    | store dest read w v => exact storeRequest_same h dest read w v h1 h1'
    | _ =>
      obtain ⟨k1, -, k2⟩ := h1
      obtain ⟨k1', -, k2'⟩ := h1'
      dsimp only at k2 k2'
      rw [k2, k2']
      exact ⟨rfl, execute_same h _ k1 k1'⟩
  simp only [coreEvBooks, key.1, key.2]

theorem coreRan_same {fl fl' : FloatActs} {noise noise' : Nat → Nat → Nat → Noise} (log : List CoreEv) :
    ∀ {log' : List CoreEv} {n : Nat} {c c' cv cv' : Core} {prog : List CoreOp}, c'.books = c.books →
      loadsFull log → loadsFull log' → coreRan fl noise n c prog log cv [] → coreRan fl' noise' n c' prog log' cv' [] →
      log'.map coreEvBooks = log.map coreEvBooks ∧ cv'.books = cv.books := by
  induction log with
  | nil =>
    intro log' n c c' cv cv' prog h hl hl' h1 h1'
    obtain ⟨rfl, rfl⟩ := h1
    cases log' with
    | nil => obtain ⟨rfl, -⟩ := h1'; exact ⟨rfl, h⟩
    | cons e log' => obtain ⟨rest, h2, -⟩ := h1'; cases h2
  | cons e log ih =>
    intro log' n c c' cv cv' prog h hl hl' h1 h1'
    obtain ⟨rest, h2, h3, h4⟩ := h1
    cases log' with
    | nil => obtain ⟨-, h5⟩ := h1'; rw [h2] at h5; cases h5
    | cons e' log' =>
      obtain ⟨rest', h2', h3', h4'⟩ := h1'
      rw [h2] at h2'
      injection h2' with k1 k2
      subst k2
      have k3 := follows_same h k1.symm (fun x hx => hl x (by simp at hx; simp [hx])) (fun x hx => hl' x (by simp at hx; simp [hx]))
        h3 h3'
      have k4 : e'.after.books = e.after.books := by
        have := congrArg (fun p => p.2.2) k3
        exact this
      rw [← k1] at h4'
      obtain ⟨k5, k6⟩ := ih k4 (fun x hx => hl x (by simp [hx])) (fun x hx => hl' x (by simp [hx])) h4 h4'
      exact ⟨by rw [List.map_cons, List.map_cons, k3, k5], k6⟩

end Ramwich
