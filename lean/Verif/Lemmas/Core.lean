import Verif.Model.Core
import Verif.Spec.Core
import Verif.Lemmas.Vfu
import Verif.Lemmas.Memory

/-! # Refinement of the core's register file and instructions -/
namespace Ramwich

open Spec

/-! ## Address windows -/

theorem inside_unique {S m m' len : Nat} {start : Int} (hl : 0 < len)
    (h : inside start len (m * S) S) (h' : inside start len (m' * S) S) : m = m' := by
  unfold inside at h h'
  obtain ⟨h1, h2⟩ := h
  obtain ⟨h3, h4⟩ := h'
  have e1 : m * S < (m' + 1) * S := by rw [Nat.add_mul]; omega
  have e2 : m' * S < (m + 1) * S := by rw [Nat.add_mul]; omega
  have := Nat.lt_of_mul_lt_mul_right e1
  have := Nat.lt_of_mul_lt_mul_right e2
  omega

theorem find_unique {N : Nat} {P : Nat → Bool} {m : Nat} (hm : m < N) (h : P m = true)
    (hu : ∀ m', m' < N → P m' = true → m' = m) : (List.range N).find? P = some m := by
  cases hf : (List.range N).find? P with
  | none =>
    have := List.find?_eq_none.1 hf m (List.mem_range.2 hm)
    exact absurd h this
  | some m' =>
    have h1 := List.find?_some hf
    have h2 := List.mem_range.1 (List.mem_of_find?_eq_some hf)
    rw [hu m' h2 h1]

theorem mul_le_of_lt {m N S : Nat} (h : m < N) : (m + 1) * S ≤ N * S := Nat.mul_le_mul_right S h

theorem place_cache (p : CoreParams) (start : Int) (len : Nat)
    (h : inside start len (2 * (p.num * p.unit.size)) p.cacheSize) :
    p.place start len = some (.cache (start - 2 * (p.num * p.unit.size)).toNat) := if_pos h

theorem place_input (p : CoreParams) (start : Int) (len m : Nat) (hl : 0 < len) (hm : m < p.num)
    (h : inside start len (m * p.unit.size) p.unit.size) :
    p.place start len = some (.input m (start - m * p.unit.size).toNat) := by
  unfold CoreParams.place
  have hle := mul_le_of_lt (S := p.unit.size) hm
  rw [Nat.add_mul] at hle
  rw [if_neg (by unfold inside at h ⊢; omega)]
  rw [find_unique hm (by simpa using h)
    (fun m' _ h' => inside_unique hl (by simpa using h') h)]

theorem place_output (p : CoreParams) (start : Int) (len m : Nat) (hl : 0 < len) (hm : m < p.num)
    (h : inside start len ((p.num + m) * p.unit.size) p.unit.size) :
    p.place start len = some (.output m (start - (p.num + m) * p.unit.size).toNat) := by
  unfold CoreParams.place
  have hle := mul_le_of_lt (S := p.unit.size) hm
  rw [Nat.add_mul] at hle
  have h0 := h
  unfold inside at h
  rw [Nat.add_mul] at h
  rw [if_neg (by unfold inside; omega)]
  have hnone : (List.range p.num).find? (fun m =>
      decide (inside start len (m * p.unit.size) p.unit.size)) = none := by
    rw [List.find?_eq_none]
    intro m' hm' hc
    have hm' := List.mem_range.1 hm'
    have hle' := mul_le_of_lt (S := p.unit.size) hm'
    rw [Nat.add_mul] at hle'
    have hc : inside start len (m' * p.unit.size) p.unit.size := by simpa using hc
    unfold inside at hc
    omega
  rw [hnone]
  dsimp only
  rw [find_unique hm (by simpa using h0) (fun m' _ h' => by
    have := inside_unique hl (by simpa using h') h0
    omega)]

theorem place_cases (p : CoreParams) (start : Int) (len : Nat) :
    inside start len (2 * (p.num * p.unit.size)) p.cacheSize ∨
    (∃ m, m < p.num ∧ inside start len (m * p.unit.size) p.unit.size) ∨
    (∃ m, m < p.num ∧ inside start len ((p.num + m) * p.unit.size) p.unit.size) ∨
    (p.place start len = none ∧ ¬ inside start len (2 * (p.num * p.unit.size)) p.cacheSize ∧
      (∀ m, m < p.num → ¬ inside start len (m * p.unit.size) p.unit.size) ∧
      (∀ m, m < p.num → ¬ inside start len ((p.num + m) * p.unit.size) p.unit.size)) := by
  by_cases h1 : inside start len (2 * (p.num * p.unit.size)) p.cacheSize
  · exact Or.inl h1
  by_cases h2 : ∃ m, m < p.num ∧ inside start len (m * p.unit.size) p.unit.size
  · exact Or.inr (Or.inl h2)
  by_cases h3 : ∃ m, m < p.num ∧ inside start len ((p.num + m) * p.unit.size) p.unit.size
  · exact Or.inr (Or.inr (Or.inl h3))
  push Not at h2 h3
  refine Or.inr (Or.inr (Or.inr ⟨?_, h1, h2, h3⟩))
  unfold CoreParams.place
  rw [if_neg h1]
  have e1 : (List.range p.num).find? (fun m =>
      decide (inside start len (m * p.unit.size) p.unit.size)) = none := by
    rw [List.find?_eq_none]
    intro m hm
    simpa using h2 m (List.mem_range.1 hm)
  have e2 : (List.range p.num).find? (fun m =>
      decide (inside start len ((p.num + m) * p.unit.size) p.unit.size)) = none := by
    rw [List.find?_eq_none]
    intro m hm
    simpa using h3 m (List.mem_range.1 hm)
  rw [e1, e2]

/-! ## The concrete decoding -/

theorem ediv_window {S m : Nat} {start : Int} (h1 : (m * S : Nat) ≤ start)
    (h2 : start < ((m * S + S : Nat) : Int)) : start / (S : Int) = m ∧ start % (S : Int) = start - m * S := by
  have hS : (0 : Int) < S := by omega
  have hq : start / (S : Int) = m := by
    apply le_antisymm
    · have : start / (S : Int) < m + 1 := by
        rw [Int.ediv_lt_iff_lt_mul hS]
        push_cast at h2
        linarith
      omega
    · rw [Int.le_ediv_iff_mul_le hS]
      push_cast at h1
      linarith
  refine ⟨hq, ?_⟩
  have := Int.mul_ediv_add_emod start S
  rw [hq] at this
  linarith

theorem mvmuId_window (c : Core) {m len : Nat} {start : Int} (hl : 0 < len)
    (h : inside start len (m * c.config.mvmuConfig.xbarSize) c.config.mvmuConfig.xbarSize)
    (hN : 0 < c.config.numMvmusPerCore) :
    c.mvmuIdFromAddress start (start + len) = .ok ((m : Int) % c.config.numMvmusPerCore) := by
  unfold inside at h
  obtain ⟨h1, h2⟩ := h
  have e1 := (ediv_window (m := m) (S := c.config.mvmuConfig.xbarSize) h1 (by omega)).1
  have e2 := (ediv_window (m := m) (S := c.config.mvmuConfig.xbarSize) (start := start + len - 1)
    (by omega) (by omega)).1
  unfold Core.mvmuIdFromAddress
  dsimp only
  rw [if_neg (by omega), e1, e2, if_neg (by simp), if_neg (by omega)]

theorem mvmuId_error (c : Core) {len : Nat} {start : Int} (hl : 0 < len) (h0 : 0 ≤ start)
    (hS : 0 < c.config.mvmuConfig.xbarSize)
    (h : ∀ m : Nat, ¬ inside start len (m * c.config.mvmuConfig.xbarSize) c.config.mvmuConfig.xbarSize) :
    c.mvmuIdFromAddress start (start + len) = .error .indexError := by
  unfold Core.mvmuIdFromAddress
  dsimp only
  set S := c.config.mvmuConfig.xbarSize
  have hS' : (0 : Int) < S := by exact_mod_cast hS
  rw [if_neg (by omega), if_pos]
  intro heq
  have hq : 0 ≤ start / (S : Int) := Int.ediv_nonneg h0 (by omega)
  apply h (start / (S : Int)).toNat
  have e1 := Int.mul_ediv_add_emod start S
  have e2 := Int.emod_nonneg start (by omega : (S : Int) ≠ 0)
  have e3 := Int.mul_ediv_add_emod (start + len - 1) S
  have e4 := Int.emod_lt_of_pos (start + len - 1) hS'
  rw [← heq] at e3
  unfold inside
  have hc : (((start / (S : Int)).toNat * S : Nat) : Int) = S * (start / (S : Int)) := by
    push_cast
    rw [Int.toNat_of_nonneg hq]; ring
  constructor
  · rw [hc]; omega
  · push_cast at hc ⊢
    rw [hc]; omega

/-! ## Refinement -/

/-- The core `c` implements the abstract state `s`. -/
structure CoreRefines (c : Core) (s : CoreState) : Prop where
  pos : 0 < c.outregStart
  len : c.mvmus.length = c.config.numMvmusPerCore
  units : ∀ m u, c.mvmus[m]? = some u →
    u.cfg = c.config.mvmuConfig ∧ u.data = c.config.dataConfig ∧ Refines u (s.units m)
  csize : c.cache.size = c.config.coreConfig.dataMemSize
  clen : c.cache.cells.length = c.config.coreConfig.dataMemSize
  cells : ∀ a, a < c.config.coreConfig.dataMemSize → s.cache a = (c.cache.cells.getD a 0).toInt

/-- Result of a call agrees with the specification: same exception and nothing changed, or success
and refinement. -/
def CoreAgree (c : Core) (r : Res Core Unit) : Except PyErr CoreState → Prop
  | .ok s => r.1 = .ok () ∧ r.2.config = c.config ∧ CoreRefines r.2 s
  | .error e => r.1 = .error e

theorem ofInt_toInt_map (l : List I32) : (l.map BitVec.toInt).map (BitVec.ofInt 32) = l := by
  rw [List.map_map]
  conv_rhs => rw [← List.map_id l]
  apply List.map_congr_left
  intro x _
  simp

theorem writeToInreg_of_call (u : Mvmu) (st : Int) (v : List Int)
    (h : (u.call (.write st v)).1 = .ok []) :
    u.writeToInreg st (v.map (BitVec.ofInt 32)) = .ok (u.call (.write st v)).2 := by
  simp only [Mvmu.call] at h ⊢
  cases hw : u.writeToInreg st (v.map (BitVec.ofInt 32)) with
  | error e => rw [hw] at h; cases h
  | ok u' => rfl

theorem readFromOutreg_of_call (u : Mvmu) (st len : Int) (r : List Int)
    (h : (u.call (.read st len)).1 = .ok r) :
    ∃ v, u.readFromOutreg st len = .ok (v, (u.call (.read st len)).2) ∧ v.map BitVec.toInt = r := by
  simp only [Mvmu.call] at h ⊢
  cases hw : u.readFromOutreg st len with
  | error e => rw [hw] at h; cases h
  | ok u' =>
    rw [hw] at h
    obtain ⟨v, u'⟩ := u'
    injection h with h
    exact ⟨v, rfl, h⟩

/-- Abbreviation for the parameters of a concrete core. -/
def Core.params (c : Core) (fl : FloatActs) : CoreParams :=
  coreParamsOf c.config (fun v => (fl.sig c.config.dataConfig.activationFracBits (BitVec.ofInt 32 v)).toInt)
    (fun v => (fl.tanh c.config.dataConfig.activationFracBits (BitVec.ofInt 32 v)).toInt)

theorem refines_set (c : Core) (s : CoreState) (h : CoreRefines c s) (m : Nat) (u' : Mvmu)
    (t : UnitState) (hm : m < c.config.numMvmusPerCore) (hc : u'.cfg = c.config.mvmuConfig)
    (hd : u'.data = c.config.dataConfig) (hr : Refines u' t) (s' : CoreState)
    (hs : s'.cache = s.cache) (hu : s'.units m = t) (ho : ∀ i, i ≠ m → s'.units i = s.units i) :
    CoreRefines { c with mvmus := c.mvmus.set m u' } s' := by
  refine ⟨h.pos, by simpa using h.len, ?_, h.csize, h.clen, ?_⟩
  · intro i u hi
    simp only [List.getElem?_set] at hi
    by_cases him : m = i
    · subst him
      rw [if_pos rfl, if_pos (by rw [h.len]; exact hm)] at hi
      injection hi with hi
      subst hi
      exact ⟨hc, hd, by rw [hu]; exact hr⟩
    · rw [if_neg him] at hi
      rw [ho i (fun e => him e.symm)]
      exact h.units i u hi
  · intro a ha
    rw [hs]; exact h.cells a ha

theorem writeToRegister_cache (c : Core) (start : Int) (data : List I32) (hl : data ≠ [])
    (hp : 0 < c.outregStart)
    (h : inside start data.length c.cacheStart c.config.coreConfig.dataMemSize) :
    c.writeToRegister start data =
      ((c.cache.write (start - c.cacheStart) data).1,
        { c with cache := (c.cache.write (start - c.cacheStart) data).2 }) := by
  have hpos := List.length_pos_iff.2 hl
  unfold inside at h
  unfold Core.writeToRegister
  dsimp only
  have hov : c.overlapsOutput start (start + data.length) = false := by
    unfold Core.overlapsOutput
    have hcs : c.cacheStart = c.outregStart * 2 := rfl
    simp only [Bool.or_eq_false_iff, Bool.and_eq_false_iff, decide_eq_false_iff_not]
    omega
  rw [if_neg (by unfold Core.totalRegisters; omega), hov, if_neg (by simp), if_pos (by omega)]

theorem writeToRegister_input (c : Core) (start : Int) (data : List I32) (hl : data ≠ []) (m : Nat)
    (hm : m < c.config.numMvmusPerCore) (u : Mvmu) (hu : c.mvmus[m]? = some u)
    (h : inside start data.length (m * c.config.mvmuConfig.xbarSize) c.config.mvmuConfig.xbarSize) :
    c.writeToRegister start data =
      match u.writeToInreg (start - m * c.config.mvmuConfig.xbarSize) data with
      | .error e => (.error e, c)
      | .ok u' => (.ok (), { c with mvmus := c.mvmus.set m u' }) := by
  have hpos := List.length_pos_iff.2 hl
  have hid := mvmuId_window c hpos h (by omega)
  have hle := mul_le_of_lt (S := c.config.mvmuConfig.xbarSize) hm
  rw [Nat.add_mul, Nat.mul_comm c.config.numMvmusPerCore] at hle
  have hmod : (m : Int) % c.config.numMvmusPerCore = m := Int.emod_eq_of_lt (by omega) (by omega)
  have hsm := (ediv_window (start := start) (m := m) (S := c.config.mvmuConfig.xbarSize) h.1
    (by have := h.2; omega)).2
  unfold inside at h
  have hos : c.outregStart = c.config.mvmuConfig.xbarSize * c.config.numMvmusPerCore := rfl
  have hcs : c.cacheStart = c.outregStart * 2 := rfl
  unfold Core.writeToRegister
  dsimp only
  have hov : c.overlapsOutput start (start + data.length) = false := by
    unfold Core.overlapsOutput
    simp only [Bool.or_eq_false_iff, Bool.and_eq_false_iff, decide_eq_false_iff_not]
    omega
  rw [if_neg (by unfold Core.totalRegisters; omega), hov, if_neg (by simp), if_neg (by omega), hid, hmod,
    hsm]
  simp only [Int.toNat_natCast, hu]
  cases u.writeToInreg (start - m * c.config.mvmuConfig.xbarSize) data <;> rfl

theorem writeToRegister_error (c : Core) (start : Int) (data : List I32) (hl : data ≠ [])
    (h1 : ¬ inside start data.length c.cacheStart c.config.coreConfig.dataMemSize)
    (h2 : ∀ m, m < c.config.numMvmusPerCore →
      ¬ inside start data.length (m * c.config.mvmuConfig.xbarSize) c.config.mvmuConfig.xbarSize) :
    c.writeToRegister start data = (.error .indexError, c) := by
  have hpos := List.length_pos_iff.2 hl
  unfold Core.writeToRegister
  dsimp only
  have hos : c.outregStart = c.config.mvmuConfig.xbarSize * c.config.numMvmusPerCore := rfl
  have hcs : c.cacheStart = c.outregStart * 2 := rfl
  by_cases hr : start < 0 ∨ start + data.length > c.totalRegisters
  · rw [if_pos hr]
  rw [if_neg hr]
  by_cases hov : c.overlapsOutput start (start + data.length) = true
  · rw [if_pos hov]
  rw [if_neg hov]
  have hts : c.totalRegisters = c.cacheStart + c.config.coreConfig.dataMemSize := rfl
  rw [if_neg (by intro hge; apply h1; unfold inside; omega)]
  have hstop : start + data.length ≤ c.outregStart := by
    by_contra hlt
    apply hov
    unfold Core.overlapsOutput
    simp only [Bool.or_eq_true, Bool.and_eq_true, decide_eq_true_eq]
    by_contra hn
    have : ¬ (start ≥ c.cacheStart) := by intro hge; apply h1; unfold inside; omega
    omega
  have hS : 0 < c.config.mvmuConfig.xbarSize := by
    rcases Nat.eq_zero_or_pos c.config.mvmuConfig.xbarSize with h0 | h0
    · rw [h0, Nat.zero_mul] at hos; omega
    · exact h0
  have hid := mvmuId_error c (start := start) (len := data.length) hpos (by omega) hS (by
    intro m hin
    by_cases hm : m < c.config.numMvmusPerCore
    · exact h2 m hm hin
    · unfold inside at hin
      have : c.config.numMvmusPerCore * c.config.mvmuConfig.xbarSize
          ≤ m * c.config.mvmuConfig.xbarSize := Nat.mul_le_mul_right _ (by omega)
      rw [Nat.mul_comm] at this
      omega)
  rw [hid]

theorem memory_write_cells (m : Memory) (start : Nat) (data : List I32) (hs : m.size = m.cells.length)
    (h : start + data.length ≤ m.size) (b : Int) :
    ∃ m', m.write start data b = (.ok (), m') ∧ m'.size = m.size ∧ m'.cells.length = m.cells.length ∧
      ∀ a, m'.cells.getD a 0 = if start ≤ a ∧ a < start + data.length then data.getD (a - start) 0
        else m.cells.getD a 0 := by
  refine ⟨_, if_neg (by omega), rfl, ?_, ?_⟩
  · simp only [Int.toNat_natCast]
    rw [pySliceSet_length _ _ _ (by omega)]
  · intro a
    simp only [Int.toNat_natCast]
    rw [pySliceSet_getD _ _ _ _ _ (by omega)]

theorem wrap32_toInt (x : I32) : wrap32 x.toInt = x.toInt := wrap32_fits _ (toInt_range32 x)

theorem getD_map_toInt (l : List I32) (i : Nat) : (l.map BitVec.toInt).getD i 0 = (l.getD i 0).toInt := by
  rw [List.getD_eq_getElem?_getD, List.getD_eq_getElem?_getD, List.getElem?_map]
  cases l[i]? <;> rfl

theorem core_write (c : Core) (fl : FloatActs) (s : CoreState) (h : CoreRefines c s) (start : Int)
    (data : List I32) (hl : data ≠ []) :
    CoreAgree c (c.writeToRegister start data)
      ((c.params fl).write s start (data.map BitVec.toInt)) ∧
    ((c.writeToRegister start data).1 = .ok () ∨
      c.writeToRegister start data = (.error .indexError, c)) := by
  have hpos := List.length_pos_iff.2 hl
  have hcs : c.cacheStart = 2 * (c.config.numMvmusPerCore * c.config.mvmuConfig.xbarSize) := by
    unfold Core.cacheStart Core.outregStart; ring
  have hlen : (data.map BitVec.toInt).length = data.length := by simp
  rcases place_cases (c.params fl) start data.length with hc | ⟨m, hm, hin⟩ | ⟨m, hm, hin⟩ | ⟨hn, n1, n2, n3⟩
  · have hpl := place_cache (c.params fl) start data.length hc
    have hc' : inside start data.length c.cacheStart c.config.coreConfig.dataMemSize := by
      rw [hcs]; exact hc
    rw [writeToRegister_cache c start data hl h.pos hc']
    have hst : start - (c.cacheStart : Int) = ((start - c.cacheStart).toNat : Nat) := by
      unfold inside at hc'; omega
    rw [hst]
    obtain ⟨m', hw, hsz, hle, hcells⟩ := memory_write_cells c.cache (start - c.cacheStart).toNat data
      (by rw [h.csize, h.clen]) (by rw [h.csize]; unfold inside at hc'; omega) 1
    rw [hw]
    refine ⟨?_, Or.inl rfl⟩
    unfold CoreParams.write
    rw [hlen, hpl]
    refine ⟨rfl, rfl, ⟨h.pos, h.len, h.units, by rw [← h.csize, ← hsz], by rw [← h.clen, ← hle], ?_⟩⟩
    intro a ha
    have ha' : a < c.config.coreConfig.dataMemSize := ha
    simp only [hcells a, setBlock, hlen]
    have e : (start - 2 * ((c.params fl).num * (c.params fl).unit.size)).toNat
        = (start - c.cacheStart).toNat := by
      rw [hcs]; push_cast; rfl
    rw [e]
    split
    · rw [getD_map_toInt, wrap32_toInt]
    · exact h.cells a ha'
  · have hpl := place_input (c.params fl) start data.length m hpos hm hin
    have hm' : m < c.mvmus.length := by rw [h.len]; exact hm
    have hu : c.mvmus[m]? = some c.mvmus[m] := List.getElem?_eq_getElem hm'
    obtain ⟨hcfg, hdat, href⟩ := h.units m _ hu
    set u := c.mvmus[m]
    have hin' : inside start data.length (m * c.config.mvmuConfig.xbarSize) c.config.mvmuConfig.xbarSize :=
      hin
    rw [writeToRegister_input c start data hl m hm u hu hin']
    have hag := agree_write u (s.units m) href (start - m * c.config.mvmuConfig.xbarSize)
      (data.map BitVec.toInt)
    rw [hcfg, hdat] at hag
    have hcond : 0 ≤ start - m * c.config.mvmuConfig.xbarSize ∧
        start - m * c.config.mvmuConfig.xbarSize + (data.map BitVec.toInt).length
          ≤ (paramsOf c.config.mvmuConfig c.config.dataConfig).size := by
      unfold inside at hin'
      rw [hlen]
      simp only [paramsOf]
      push_cast at hin'
      omega
    have hstep : (paramsOf c.config.mvmuConfig c.config.dataConfig).step (s.units m)
        (.write (start - m * c.config.mvmuConfig.xbarSize) (data.map BitVec.toInt)) = (.ok [], _) :=
      if_pos hcond
    obtain ⟨ha1, ha2, ha3, ha4⟩ := hag
    rw [hstep] at ha1 ha4
    have hw := writeToInreg_of_call u _ _ ha1
    rw [ofInt_toInt_map] at hw
    rw [hw]
    refine ⟨?_, Or.inl rfl⟩
    unfold CoreParams.write
    rw [hlen, hpl]
    refine ⟨rfl, rfl, refines_set c s h m _ _ hm (ha2.trans hcfg) (ha3.trans hdat) ha4 _ rfl ?_ ?_⟩
    · simp only [if_true]
      congr 1
      funext j
      simp only [setBlock, hlen]
      have e : ((start - m * (c.params fl).unit.size).toNat : Int)
          = start - m * c.config.mvmuConfig.xbarSize := by
        have := hcond.1
        exact Int.toNat_of_nonneg this
      have e' : (start - m * (c.params fl).unit.size).toNat
          = (start - m * c.config.mvmuConfig.xbarSize).toNat := rfl
      rw [e']
      rw [e'] at e
      by_cases hj : (start - m * c.config.mvmuConfig.xbarSize).toNat ≤ j ∧
          j < (start - m * c.config.mvmuConfig.xbarSize).toNat + data.length
      · rw [if_pos hj, if_pos (by omega)]
      · rw [if_neg hj, if_neg (by omega)]
    · intro i hi
      simp only [if_neg hi]
  · have hpl := place_output (c.params fl) start data.length m hpos hm hin
    have herr : c.writeToRegister start data = (.error .indexError, c) := by
      apply writeToRegister_error c start data hl
      · intro hc
        rw [hcs] at hc
        have := (place_cache (c.params fl) start data.length hc).symm.trans hpl
        cases this
      · intro m' hm' hin'
        have := (place_input (c.params fl) start data.length m' hpos hm' hin').symm.trans hpl
        cases this
    refine ⟨?_, Or.inr herr⟩
    unfold CoreParams.write
    rw [hlen, hpl, herr]
    rfl
  · have herr : c.writeToRegister start data = (.error .indexError, c) :=
      writeToRegister_error c start data hl (by rw [hcs]; exact n1) n2
    refine ⟨?_, Or.inr herr⟩
    unfold CoreParams.write
    rw [hlen, hn, herr]
    rfl

/-! ## Reading -/

theorem readFromRegister_cache (c : Core) (start : Int) (len : Nat) (hl : 0 < len)
    (h : inside start len c.cacheStart c.config.coreConfig.dataMemSize) :
    c.readFromRegister start len =
      ((c.cache.read (start - c.cacheStart) len).1,
        { c with cache := (c.cache.read (start - c.cacheStart) len).2 }) := by
  unfold inside at h
  unfold Core.readFromRegister
  have hcs : c.cacheStart = c.outregStart * 2 := rfl
  dsimp only
  rw [if_neg (by unfold Core.totalRegisters; omega), if_neg (by omega), if_pos (by omega)]

theorem readFromRegister_output (c : Core) (start : Int) (len : Nat) (hl : 0 < len) (m : Nat)
    (hm : m < c.config.numMvmusPerCore) (u : Mvmu) (hu : c.mvmus[m]? = some u)
    (h : inside start len ((c.config.numMvmusPerCore + m) * c.config.mvmuConfig.xbarSize)
      c.config.mvmuConfig.xbarSize) :
    c.readFromRegister start len =
      match u.readFromOutreg (start - (c.config.numMvmusPerCore + m) * c.config.mvmuConfig.xbarSize) len with
      | .error e => (.error e, c)
      | .ok (v, u') => (.ok v, { c with mvmus := c.mvmus.set m u' }) := by
  have hid := mvmuId_window c hl h (by omega)
  have hle := mul_le_of_lt (S := c.config.mvmuConfig.xbarSize) hm
  rw [Nat.add_mul, Nat.mul_comm c.config.numMvmusPerCore] at hle
  have hmod : ((c.config.numMvmusPerCore + m : Nat) : Int) % c.config.numMvmusPerCore = m := by
    push_cast
    rw [Int.add_emod_left]
    exact Int.emod_eq_of_lt (by omega) (by omega)
  have hsm := (ediv_window (start := start) (m := c.config.numMvmusPerCore + m)
    (S := c.config.mvmuConfig.xbarSize) h.1 (by have := h.2; omega)).2
  unfold inside at h
  rw [Nat.add_mul, Nat.mul_comm c.config.numMvmusPerCore] at h
  have hos : c.outregStart = c.config.mvmuConfig.xbarSize * c.config.numMvmusPerCore := rfl
  have hcs : c.cacheStart = c.outregStart * 2 := rfl
  unfold Core.readFromRegister
  dsimp only
  rw [if_neg (by unfold Core.totalRegisters; omega), if_neg (by omega), if_neg (by omega), hid, hmod, hsm]
  simp only [Int.toNat_natCast, hu]
  push_cast
  rfl

theorem readFromRegister_error (c : Core) (start : Int) (len : Nat) (hl : 0 < len)
    (h1 : ¬ inside start len c.cacheStart c.config.coreConfig.dataMemSize)
    (h2 : ∀ m, m < c.config.numMvmusPerCore →
      ¬ inside start len ((c.config.numMvmusPerCore + m) * c.config.mvmuConfig.xbarSize)
        c.config.mvmuConfig.xbarSize) :
    c.readFromRegister start len = (.error .indexError, c) := by
  unfold Core.readFromRegister
  dsimp only
  have hos : c.outregStart = c.config.mvmuConfig.xbarSize * c.config.numMvmusPerCore := rfl
  have hcs : c.cacheStart = c.outregStart * 2 := rfl
  by_cases hr : start < 0 ∨ start + len > c.totalRegisters
  · rw [if_pos hr]
  rw [if_neg hr]
  by_cases hi : start < c.outregStart
  · rw [if_pos hi]
  rw [if_neg hi]
  have hts : c.totalRegisters = c.cacheStart + c.config.coreConfig.dataMemSize := rfl
  have hlt : ¬ start ≥ c.cacheStart := by intro hge; apply h1; unfold inside; omega
  rw [if_neg hlt]
  have hS : 0 < c.config.mvmuConfig.xbarSize := by
    rcases Nat.eq_zero_or_pos c.config.mvmuConfig.xbarSize with h0 | h0
    · rw [h0, Nat.zero_mul] at hos; omega
    · exact h0
  have hid := mvmuId_error c (start := start) (len := len) hl (by omega) hS (by
    intro m hin
    by_cases hm : m < c.config.numMvmusPerCore
    · unfold inside at hin
      have := mul_le_of_lt (S := c.config.mvmuConfig.xbarSize) hm
      rw [Nat.add_mul, Nat.mul_comm c.config.numMvmusPerCore] at this
      omega
    · obtain ⟨k, rfl⟩ := Nat.exists_eq_add_of_le (Nat.le_of_not_lt hm)
      by_cases hk : k < c.config.numMvmusPerCore
      · exact h2 k hk hin
      · unfold inside at hin
        rw [Nat.add_mul, Nat.mul_comm c.config.numMvmusPerCore] at hin
        have : c.config.numMvmusPerCore * c.config.mvmuConfig.xbarSize
            ≤ k * c.config.mvmuConfig.xbarSize := Nat.mul_le_mul_right _ (by omega)
        rw [Nat.mul_comm] at this
        omega)
  rw [hid]

theorem core_read (c : Core) (fl : FloatActs) (s : CoreState) (h : CoreRefines c s) (start : Int)
    (len : Nat) (hl : 0 < len) :
    (c.readFromRegister start len).1.map (fun v => v.map BitVec.toInt)
        = (c.params fl).read s start len ∧
    (c.readFromRegister start len).2.config = c.config ∧
    CoreRefines (c.readFromRegister start len).2 s ∧
    ((c.readFromRegister start len).1 = .error .indexError →
      (c.readFromRegister start len).2 = c) := by
  have hcs : c.cacheStart = 2 * (c.config.numMvmusPerCore * c.config.mvmuConfig.xbarSize) := by
    unfold Core.cacheStart Core.outregStart; ring
  rcases place_cases (c.params fl) start len with hc | ⟨m, hm, hin⟩ | ⟨m, hm, hin⟩ | ⟨hn, n1, n2, n3⟩
  · have hpl := place_cache (c.params fl) start len hc
    have hc' : inside start len c.cacheStart c.config.coreConfig.dataMemSize := by
      rw [hcs]; exact hc
    rw [readFromRegister_cache c start len hl hc']
    have hrd : c.cache.read (start - c.cacheStart) len
        = (.ok (pySlice c.cache.cells (start - c.cacheStart) (start - c.cacheStart + len)),
            { c.cache with stats := c.cache.stats.addRead 1 len }) := by
      unfold inside at hc'
      unfold Memory.read
      dsimp only
      rw [if_neg (by rw [h.csize]; omega), if_neg (by omega)]
    rw [hrd]
    have hc0 := hc'
    unfold inside at hc0
    refine ⟨?_, rfl, ⟨h.pos, h.len, h.units, h.csize, h.clen, h.cells⟩, by intro e; cases e⟩
    rw [pySlice_getD _ _ _ 0 (by omega) (by rw [h.clen]; omega) (by omega)]
    unfold CoreParams.read
    rw [hpl]
    simp only [Except.map, List.map_map, Int.toNat_natCast]
    congr 1
    apply List.map_congr_left
    intro i hi
    rw [List.mem_range] at hi
    have e : (start - 2 * ((c.params fl).num * (c.params fl).unit.size)).toNat
        = (start - c.cacheStart).toNat := by
      rw [hcs]; push_cast; rfl
    simp only [Function.comp]
    rw [e, h.cells _ (by omega)]
  · have hpl := place_input (c.params fl) start len m hl hm hin
    have herr : c.readFromRegister start len = (.error .indexError, c) := by
      apply readFromRegister_error c start len hl
      · intro hc
        rw [hcs] at hc
        have := (place_cache (c.params fl) start len hc).symm.trans hpl
        cases this
      · intro m' hm' hin'
        have := (place_output (c.params fl) start len m' hl hm' hin').symm.trans hpl
        cases this
    rw [herr]
    unfold CoreParams.read
    rw [hpl]
    exact ⟨rfl, rfl, h, fun _ => rfl⟩
  · have hpl := place_output (c.params fl) start len m hl hm hin
    have hm' : m < c.mvmus.length := by rw [h.len]; exact hm
    have hu : c.mvmus[m]? = some c.mvmus[m] := List.getElem?_eq_getElem hm'
    obtain ⟨hcfg, hdat, href⟩ := h.units m _ hu
    set u := c.mvmus[m]
    have hin' : inside start len ((c.config.numMvmusPerCore + m) * c.config.mvmuConfig.xbarSize)
      c.config.mvmuConfig.xbarSize := hin
    rw [readFromRegister_output c start len hl m hm u hu hin']
    set st := start - (c.config.numMvmusPerCore + m) * c.config.mvmuConfig.xbarSize with hst
    have hag := agree_read u (s.units m) href st len
    rw [hcfg, hdat] at hag
    have hcond : 0 ≤ st ∧ st + len ≤ (paramsOf c.config.mvmuConfig c.config.dataConfig).size := by
      unfold inside at hin'
      simp only [paramsOf, hst]
      push_cast at hin'
      omega
    have hstep : (paramsOf c.config.mvmuConfig c.config.dataConfig).step (s.units m) (.read st len)
        = (.ok ((List.range (len : Int).toNat).map fun i => (s.units m).outputs (st.toNat + i)
            / 2 ^ c.config.dataConfig.weightFracBits), s.units m) := by
      have h1 : ¬ (len : Int) ≤ 0 := by omega
      exact (if_neg h1).trans (if_pos hcond)
    obtain ⟨ha1, ha2, ha3, ha4⟩ := hag
    rw [hstep] at ha1 ha4
    obtain ⟨v, hw, hv⟩ := readFromOutreg_of_call u _ _ _ ha1
    rw [hw]
    refine ⟨?_, rfl, refines_set c s h m _ _ hm (ha2.trans hcfg) (ha3.trans hdat) ha4 s rfl rfl
      (fun _ _ => rfl), by intro e; cases e⟩
    unfold CoreParams.read
    rw [hpl]
    simp only [Except.map, hv, Int.toNat_natCast]
    rfl
  · have herr : c.readFromRegister start len = (.error .indexError, c) :=
      readFromRegister_error c start len hl (by rw [hcs]; exact n1) n3
    rw [herr]
    unfold CoreParams.read
    rw [hn]
    exact ⟨rfl, rfl, h, fun _ => rfl⟩

end Ramwich
