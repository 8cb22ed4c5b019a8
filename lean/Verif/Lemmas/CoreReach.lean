import Verif.Lemmas.CoreExec

/-! # Every core reached by calls refines an abstract core -/
namespace Ramwich

open Spec

/-- Some abstract state is refined, and the configuration is `cfg`. -/
def CoreOk (cfg : Config) (c : Core) : Prop := c.config = cfg ∧ ∃ s, CoreRefines c s

theorem coreOk_set (cfg : Config) (c : Core) (h : CoreOk cfg c) (m : Nat) (u : Mvmu)
    (hu : c.mvmus[m]? = some u) (a : Except PyErr (List Int) × Mvmu)
    (ha : ∀ s, Refines u s → ∃ b, Agree u a b) (u' : Mvmu) (hu' : a.2 = u') :
    CoreOk cfg { c with mvmus := c.mvmus.set m u' } := by
  obtain ⟨hc, s, hs⟩ := h
  obtain ⟨h1, h2, h3⟩ := hs.units m u hu
  obtain ⟨b, -, e2, e3, e4⟩ := ha _ h3
  have hm : m < c.config.numMvmusPerCore := by
    rw [← hs.len]
    exact (List.getElem?_eq_some_iff.1 hu).1
  refine ⟨hc, { s with units := fun i => if i = m then b.2 else s.units i }, ?_⟩
  rw [hu'] at e2 e3 e4
  exact refines_set c s hs m u' b.2 hm (e2.trans h1) (e3.trans h2) e4 _ rfl (if_pos rfl)
    (fun i hi => if_neg hi)

theorem coreOk_cache (cfg : Config) (c : Core) (h : CoreOk cfg c) (mem : Memory)
    (h1 : mem.size = c.cache.size) (h2 : mem.cells.length = c.cache.cells.length) :
    CoreOk cfg { c with cache := mem } := by
  obtain ⟨hc, s, hs⟩ := h
  exact ⟨hc, { s with cache := fun a => (mem.cells.getD a 0).toInt },
    ⟨hs.pos, hs.len, hs.units, h1.trans hs.csize, h2.trans hs.clen, fun a _ => rfl⟩⟩

theorem coreOk_vfu (cfg : Config) (c : Core) (h : CoreOk cfg c) (v : VfuStats) :
    CoreOk cfg { c with vfu := v } := by
  obtain ⟨hc, s, hs⟩ := h
  exact ⟨hc, s, core_refines_vfu c s hs v⟩

theorem memory_write_shape (m : Memory) (start : Int) (v : List I32) (b : Int)
    (hs : m.size = m.cells.length) :
    (m.write start v b).2.size = m.size ∧ (m.write start v b).2.cells.length = m.cells.length := by
  unfold Memory.write
  dsimp only
  by_cases h : start < 0 ∨ start + v.length > m.size
  · rw [if_pos h]; exact ⟨rfl, rfl⟩
  · rw [if_neg h]
    refine ⟨rfl, ?_⟩
    dsimp only
    rw [pySliceSet_length _ _ _ (by omega)]

theorem memory_read_shape (m : Memory) (start len b : Int) :
    (m.read start len b).2.size = m.size ∧ (m.read start len b).2.cells = m.cells := by
  unfold Memory.read
  dsimp only
  split
  · exact ⟨rfl, rfl⟩
  · split <;> exact ⟨rfl, rfl⟩

theorem coreOk_write (cfg : Config) (c : Core) (h : CoreOk cfg c) (start : Int) (data : List I32) :
    CoreOk cfg (c.writeToRegister start data).2 := by
  unfold Core.writeToRegister
  dsimp only
  split
  · exact h
  split
  · exact h
  split
  · obtain ⟨_, s, hs⟩ := id h
    have := memory_write_shape c.cache (start - c.cacheStart) data 1 (by rw [hs.csize, hs.clen])
    exact coreOk_cache cfg c h _ this.1 this.2
  cases c.mvmuIdFromAddress start (start + data.length) with
  | error e => exact h
  | ok id =>
    simp only
    cases hu : c.mvmus[id.toNat]? with
    | none => exact h
    | some u =>
      simp only
      cases hw : u.writeToInreg (start % (c.config.mvmuConfig.xbarSize : Int)) data with
      | error e => exact h
      | ok u' =>
        refine coreOk_set cfg c h _ u hu (u.call (.write (start % (c.config.mvmuConfig.xbarSize : Int))
          (data.map BitVec.toInt))) (fun s hs => ⟨_, agree_write u s hs _ _⟩) u' ?_
        simp only [Mvmu.call, ofInt_toInt_map, hw, Except.map, keep]

theorem coreOk_read (cfg : Config) (c : Core) (h : CoreOk cfg c) (start len : Int) :
    CoreOk cfg (c.readFromRegister start len).2 := by
  unfold Core.readFromRegister
  dsimp only
  split
  · exact h
  split
  · exact h
  split
  · have := memory_read_shape c.cache (start - c.cacheStart) len 1
    exact coreOk_cache cfg c h _ this.1 (congrArg List.length this.2)
  cases c.mvmuIdFromAddress start (start + len) with
  | error e => exact h
  | ok id =>
    simp only
    cases hu : c.mvmus[id.toNat]? with
    | none => exact h
    | some u =>
      simp only
      cases hw : u.readFromOutreg (start % (c.config.mvmuConfig.xbarSize : Int)) len with
      | error e => exact h
      | ok vu =>
        obtain ⟨v, u'⟩ := vu
        refine coreOk_set cfg c h _ u hu (u.call (.read (start % (c.config.mvmuConfig.xbarSize : Int))
          len)) (fun s hs => ⟨_, agree_read u s hs _ _⟩) u' ?_
        simp only [Mvmu.call, hw, keep]

theorem coreOk_andThen {α β : Type} (cfg : Config) (r : Res Core α) (f : Core → α → Res Core β)
    (hr : CoreOk cfg r.2) (hf : ∀ c a, CoreOk cfg c → CoreOk cfg (f c a).2) :
    CoreOk cfg (Res.andThen r f).2 := by
  unfold Res.andThen
  cases r.1 with
  | error e => exact hr
  | ok a => exact hf _ a hr

theorem getMvmu_some (c : Core) (i : Int) (u : Mvmu) (h : c.getMvmu i = .ok u) :
    0 ≤ i ∧ c.mvmus[i.toNat]? = some u := by
  unfold Core.getMvmu at h
  split at h
  · cases h
  · rename_i hi
    cases hu : c.mvmus[i.toNat]? with
    | none => rw [hu] at h; cases h
    | some v => rw [hu] at h; injection h with h; exact ⟨by omega, by rw [h]⟩

theorem coreOk_mvm (cfg : Config) (he : Electrical cfg.mvmuConfig) (lat dlat : Nat)
    (hlat : Latencies cfg.mvmuConfig lat dlat) (c : Core) (h : CoreOk cfg c)
    (noise : Nat → Nat → Noise) (xbar : List Int) : CoreOk cfg (c.visitMvm noise xbar).2 := by
  induction xbar generalizing c noise with
  | nil => exact h
  | cons i is ih =>
    unfold Core.visitMvm
    apply coreOk_andThen
    · unfold Core.mvmOne
      cases hg : c.getMvmu i with
      | error e => exact h
      | ok u =>
        obtain ⟨-, hu⟩ := getMvmu_some c i u hg
        simp only
        cases hx : u.executeMvm (noise 0) with
        | error e => exact h
        | ok u' =>
          obtain ⟨hc, s, hs⟩ := id h
          obtain ⟨h1, h2, h3⟩ := hs.units _ u hu
          refine coreOk_set cfg c h _ u hu (u.call (.mvm (fun i => (noise 0 i).pos)
            (fun i => (noise 0 i).neg))) (fun s hs => ⟨_, refines_call u s hs (by rw [h1, hc]; exact he)
              lat dlat (by rw [h1, hc]; exact hlat) _⟩) u' ?_
          simp only [Mvmu.call, hx, Except.map, keep]
    · intro c' _ hc'
      exact ih c' hc' _

theorem coreOk_execute (cfg : Config) (fl : FloatActs) (he : Electrical cfg.mvmuConfig) (lat dlat : Nat)
    (hlat : Latencies cfg.mvmuConfig lat dlat) (c : Core) (h : CoreOk cfg c)
    (noise : Nat → Nat → Noise) (op : CoreOp) : CoreOk cfg (c.execute fl noise op).2 := by
  cases op with
  | set dest imm vec =>
    simp only [Core.execute, Core.visitSet]
    cases npFull32 vec imm with
    | error e => exact h
    | ok data => exact coreOk_write cfg c h dest data
  | copy dest read vec =>
    exact coreOk_andThen cfg _ _ (coreOk_read cfg c h _ _) fun c a hc => coreOk_write cfg c hc _ _
  | vfu o dest r1 r2 vec =>
    apply coreOk_andThen cfg _ _ (coreOk_read cfg c h _ _)
    intro c a hc
    cases r2 with
    | none =>
      exact coreOk_andThen cfg _ _ (coreOk_vfu cfg c hc _) fun c a hc => coreOk_write cfg c hc _ _
    | some r2 =>
      apply coreOk_andThen cfg _ _ (coreOk_read cfg c hc _ _)
      intro c b hc
      exact coreOk_andThen cfg _ _ (coreOk_vfu cfg c hc _) fun c a hc => coreOk_write cfg c hc _ _
  | mvm xbar => exact coreOk_mvm cfg he lat dlat hlat c h noise xbar
  | hlt => exact h
  | load => exact h
  | store => exact h

theorem reset_go (cfg : MVMUConfig) (data : DataConfig) (ms : List Mvmu)
    (h : ∀ (m : Nat) u, ms[m]? = some u → u.cfg = cfg ∧ u.data = data ∧ ∃ s, Refines u s) :
    (Core.reset.go ms).2.length = ms.length ∧
    ∀ (m : Nat) u, (Core.reset.go ms).2[m]? = some u → u.cfg = cfg ∧ u.data = data ∧ ∃ s, Refines u s := by
  induction ms with
  | nil => exact ⟨rfl, by intro m u h; cases h⟩
  | cons a as ih =>
    have iha := ih (fun m u hu => h (m + 1) u hu)
    unfold Core.reset.go
    cases hr : a.reset with
    | error e => exact ⟨rfl, h⟩
    | ok a' =>
      simp only
      refine ⟨by simp [iha.1], ?_⟩
      intro m u hu
      cases m with
      | zero =>
        simp only [List.getElem?_cons_zero, Option.some.injEq] at hu
        subst hu
        obtain ⟨h1, h2, s, h3⟩ := h 0 a rfl
        obtain ⟨-, e2, e3, e4⟩ := agree_reset a s h3
        simp only [Mvmu.call, hr, Except.map, keep] at e2 e3 e4
        exact ⟨e2.trans h1, e3.trans h2, _, e4⟩
      | succ m => exact iha.2 m u hu

theorem coreOk_reset (cfg : Config) (c : Core) (h : CoreOk cfg c) : CoreOk cfg c.reset.2 := by
  obtain ⟨hc, s, hs⟩ := h
  have hgo := reset_go c.config.mvmuConfig c.config.dataConfig c.mvmus
    (fun m u hu => ⟨(hs.units m u hu).1, (hs.units m u hu).2.1, _, (hs.units m u hu).2.2⟩)
  refine ⟨hc, ?_⟩
  classical
  refine ⟨{ cache := fun a => (c.cache.reset.cells.getD a 0).toInt
            units := fun m => if hx : ∃ u, (Core.reset.go c.mvmus).2[m]? = some u then
              (hgo.2 m hx.choose hx.choose_spec).2.2.choose else {} },
    ⟨hs.pos, hgo.1.trans hs.len, ?_, hs.csize, ?_, fun a _ => rfl⟩⟩
  · intro m u hu
    refine ⟨(hgo.2 m u hu).1, (hgo.2 m u hu).2.1, ?_⟩
    have hx : ∃ u, (Core.reset.go c.mvmus).2[m]? = some u := ⟨u, hu⟩
    have he : hx.choose = u := Option.some.inj (hx.choose_spec.symm.trans hu)
    simp only [dif_pos hx]
    have := (hgo.2 m hx.choose hx.choose_spec).2.2.choose_spec
    rw [← he]
    convert this
  · simp [Core.reset, Memory.reset, hs.clen]

theorem coreOk_load (cfg : Config) (c : Core) (h : CoreOk cfg c) (i : Int) (w : List (List ℚ)) :
    CoreOk cfg (c.loadWeights i w).2 := by
  unfold Core.loadWeights
  cases hg : c.getMvmu i with
  | error e => exact h
  | ok u =>
    obtain ⟨-, hu⟩ := getMvmu_some c i u hg
    simp only
    cases hx : u.loadWeights w with
    | error e => exact h
    | ok u' =>
      refine coreOk_set cfg c h _ u hu (u.call (.load w)) (fun s hs => ⟨_, agree_load u s hs _⟩) u' ?_
      simp only [Mvmu.call, hx, Except.map, keep]

theorem coreOk_call (cfg : Config) (fl : FloatActs) (he : Electrical cfg.mvmuConfig) (lat dlat : Nat)
    (hlat : Latencies cfg.mvmuConfig lat dlat) (c : Core) (h : CoreOk cfg c) (k : CoreCall) :
    CoreOk cfg (c.call fl k).2 := by
  cases k with
  | write start data => exact coreOk_write cfg c h start data
  | read start len => exact coreOk_read cfg c h start len
  | exec op e => exact coreOk_execute cfg fl he lat dlat hlat c h _ op
  | load i w => exact coreOk_load cfg c h i w
  | reset => exact coreOk_reset cfg c h

/-- Every core reached from a fresh one is well formed. -/
theorem coreOk_after (c c' : Config) (fl : FloatActs) (hs : Simulable c) (h : c.build = .ok c')
    (hp : 0 < c'.mvmuConfig.xbarSize * c'.numMvmusPerCore) (hist : List CoreCall) :
    CoreOk c' ((Core.new c').after fl hist) := by
  have h0 : CoreOk c' (Core.new c') := ⟨rfl, _, core_new c c' hs h hp⟩
  unfold Core.after
  generalize Core.new c' = k at h0
  induction hist generalizing k with
  | nil => exact h0
  | cons a as ih =>
    exact ih _ (coreOk_call c' fl (electrical_of c c' hs h) _ _ (latencies_of c c' hs h) k h0 a)

end Ramwich

/-! ## What register accesses change -/
namespace Ramwich

open Spec

theorem inputAt_eq (c : Core) (s : CoreState) (h : CoreRefines c s) (m i : Nat)
    (hm : m < c.config.numMvmusPerCore) (hi : i < c.config.mvmuConfig.xbarSize) :
    c.inputAt m i = (s.units m).inputs i := by
  unfold Core.inputAt
  have hm' : m < c.mvmus.length := by rw [h.len]; exact hm
  rw [List.getElem?_eq_getElem hm']
  obtain ⟨h1, h2, h3⟩ := h.units m _ (List.getElem?_eq_getElem hm')
  exact (h3.inp i (by rw [h1]; exact hi)).symm

theorem outputAt_eq (c : Core) (s : CoreState) (h : CoreRefines c s) (m i : Nat)
    (hm : m < c.config.numMvmusPerCore) (hi : i < c.config.mvmuConfig.xbarSize) :
    c.outputAt m i = (s.units m).outputs i := by
  unfold Core.outputAt
  have hm' : m < c.mvmus.length := by rw [h.len]; exact hm
  rw [List.getElem?_eq_getElem hm']
  obtain ⟨h1, h2, h3⟩ := h.units m _ (List.getElem?_eq_getElem hm')
  exact (h3.out i (by rw [h1]; exact hi)).symm

theorem cacheAt_eq (c : Core) (s : CoreState) (h : CoreRefines c s) (a : Nat)
    (ha : a < c.config.coreConfig.dataMemSize) : c.cacheAt a = s.cache a := (h.cells a ha).symm

/-- A write into the input window of unit `m`. -/
theorem write_input_effect (c : Core) (s : CoreState) (h : CoreRefines c s) (start : Int)
    (data : List I32) (hl : data ≠ []) (m : Nat) (hm : m < c.config.numMvmusPerCore)
    (hin : inside start data.length (m * c.config.mvmuConfig.xbarSize) c.config.mvmuConfig.xbarSize) :
    ∃ u r, c.mvmus[m]? = some u ∧
      c.writeToRegister start data
        = (.ok (), { c with mvmus := c.mvmus.set m { u with inreg := r } }) ∧
      ∀ i, (r.registers.getD i 0) =
        if (start - m * c.config.mvmuConfig.xbarSize).toNat ≤ i ∧
          i < (start - m * c.config.mvmuConfig.xbarSize).toNat + data.length
        then data.getD (i - (start - m * c.config.mvmuConfig.xbarSize).toNat) 0
        else u.inreg.registers.getD i 0 := by
  have hm' : m < c.mvmus.length := by rw [h.len]; exact hm
  have hu := List.getElem?_eq_getElem hm'
  obtain ⟨h1, h2, h3⟩ := h.units m _ hu
  set u := c.mvmus[m]
  have hin' := hin
  unfold inside at hin'
  have hok := h3.stores.ok
  have hw : u.inreg.write data (start - m * c.config.mvmuConfig.xbarSize) = .ok _ :=
    if_neg (by rw [hok.inSize, h1]; push_cast at hin'; omega)
  refine ⟨u, { u.inreg with
      registers := pySliceSet u.inreg.registers (start - m * c.config.mvmuConfig.xbarSize).toNat data
      stats := u.inreg.stats.addWrite 1 data.length }, hu, ?_, ?_⟩
  · rw [writeToRegister_input c start data hl m hm u hu hin]
    unfold Mvmu.writeToInreg
    rw [hw]
    rfl
  · intro i
    have hlen := hok.inLen
    rw [h1] at hlen
    dsimp only
    rw [pySliceSet_getD _ _ _ _ _ (by rw [hlen]; push_cast at hin'; omega)]

/-- A write into the cache window. -/
theorem write_cache_effect (c : Core) (s : CoreState) (h : CoreRefines c s) (start : Int)
    (data : List I32) (hl : data ≠ [])
    (hin : inside start data.length c.cacheStart c.config.coreConfig.dataMemSize) :
    ∃ mem, c.writeToRegister start data = (.ok (), { c with cache := mem }) ∧
      ∀ a, (mem.cells.getD a 0) =
        if (start - c.cacheStart).toNat ≤ a ∧ a < (start - c.cacheStart).toNat + data.length
        then data.getD (a - (start - c.cacheStart).toNat) 0
        else c.cache.cells.getD a 0 := by
  have hin' := hin
  unfold inside at hin'
  obtain ⟨mem, h1, h2, h3, h4⟩ := memory_write_cells c.cache (start - c.cacheStart).toNat data
    (by rw [h.csize, h.clen]) (by rw [h.csize]; omega) 1
  refine ⟨mem, ?_, h4⟩
  rw [writeToRegister_cache c start data hl h.pos hin]
  rw [Int.toNat_of_nonneg (by omega)] at h1
  rw [h1]

end Ramwich

namespace Ramwich

open Spec

theorem read_frame (k : Core) (start len : Int) (m : Nat) (u u' : Mvmu) (hu : k.mvmus[m]? = some u)
    (hu' : (k.readFromRegister start len).2.mvmus[m]? = some u') :
    { u' with outreg := u.outreg } = u := by
  have hsame : k.mvmus[m]? = some u' → { u' with outreg := u.outreg } = u := by
    intro h
    rw [hu] at h
    injection h with h
    rw [h]
  unfold Core.readFromRegister at hu'
  dsimp only at hu'
  split at hu'
  · exact hsame hu'
  split at hu'
  · exact hsame hu'
  split at hu'
  · exact hsame hu'
  cases hid : k.mvmuIdFromAddress start (start + len) with
  | error e => rw [hid] at hu'; exact hsame hu'
  | ok id =>
    rw [hid] at hu'
    simp only at hu'
    cases hv : k.mvmus[id.toNat]? with
    | none => rw [hv] at hu'; exact hsame hu'
    | some v =>
      rw [hv] at hu'
      simp only at hu'
      cases hr : v.readFromOutreg (start % (k.config.mvmuConfig.xbarSize : Int)) len with
      | error e => rw [hr] at hu'; exact hsame hu'
      | ok vu =>
        obtain ⟨x, v'⟩ := vu
        rw [hr] at hu'
        simp only [List.getElem?_set] at hu'
        by_cases hmm : id.toNat = m
        · rw [if_pos hmm] at hu'
          split at hu'
          · injection hu' with hu'
            subst hu'
            rw [hmm, hu] at hv
            injection hv with hv
            subst hv
            unfold Mvmu.readFromOutreg at hr
            split at hr
            · cases hr
            · cases ho : u.outreg.read (List.map (fun i => (start % (k.config.mvmuConfig.xbarSize : Int)).toNat + i)
                (List.range len.toNat)) with
              | error e =>
                dsimp only at hr
                rw [ho] at hr; cases hr
              | ok vr =>
                dsimp only at hr
                rw [ho] at hr
                injection hr with hr
                injection hr with _ hr
                rw [← hr]
          · cases hu'
        · rw [if_neg hmm] at hu'
          exact hsame hu'

theorem read_cells (k : Core) (start len : Int) :
    (k.readFromRegister start len).2.cache.cells = k.cache.cells := by
  unfold Core.readFromRegister
  dsimp only
  split
  · rfl
  split
  · rfl
  split
  · exact (memory_read_shape k.cache (start - k.cacheStart) len 1).2
  cases k.mvmuIdFromAddress start (start + len) with
  | error e => rfl
  | ok id =>
    simp only
    cases k.mvmus[id.toNat]? with
    | none => rfl
    | some v =>
      simp only
      cases v.readFromOutreg (start % (k.config.mvmuConfig.xbarSize : Int)) len <;> rfl

theorem load_cells (k : Core) (i : Int) (w : List (List ℚ)) :
    (k.loadWeights i w).2.cache.cells = k.cache.cells := by
  unfold Core.loadWeights
  cases k.getMvmu i with
  | error e => rfl
  | ok u => simp only; cases u.loadWeights w <;> rfl

theorem mvm_cells (k : Core) (noise : Nat → Nat → Noise) (xs : List Int) :
    (k.visitMvm noise xs).2.cache.cells = k.cache.cells := by
  induction xs generalizing k noise with
  | nil => rfl
  | cons i is ih =>
    unfold Core.visitMvm
    have h1 : (k.mvmOne i (noise 0)).2.cache.cells = k.cache.cells := by
      unfold Core.mvmOne
      cases k.getMvmu i with
      | error e => rfl
      | ok u => simp only; cases u.executeMvm (noise 0) <;> rfl
    unfold Res.andThen
    cases (k.mvmOne i (noise 0)).1 with
    | error e => exact h1
    | ok a => exact (ih _ _).trans h1

theorem toInt_list_inj (a b : List I32) (h : a.map BitVec.toInt = b.map BitVec.toInt) : a = b := by
  have := congrArg (fun l => l.map (BitVec.ofInt 32)) h
  rwa [ofInt_toInt_map, ofInt_toInt_map] at this

/-- Cores whose abstract states differ only in inputs give the same answers. -/
theorem answers_congr (fl : FloatActs) (later : List CoreCall)
    (hlater : ∀ k ∈ later, (∃ a v, k = .write a v ∧ v ≠ []) ∨ ∃ a n, k = .read a n ∧ 0 < n)
    (k k' : Core) (s s' : CoreState) (h : CoreRefines k s) (h' : CoreRefines k' s')
    (hc : k.config = k'.config) (hcache : s.cache = s'.cache)
    (hout : ∀ i, (s.units i).outputs = (s'.units i).outputs) :
    k.answers fl later = k'.answers fl later := by
  induction later generalizing k k' s s' with
  | nil => rfl
  | cons op ops ih =>
    have ih := ih (fun x hx => hlater x (List.mem_cons_of_mem _ hx))
    unfold Core.answers
    have hpar := params_config k' k fl hc
    rcases hlater op (List.mem_cons_self ..) with ⟨a, v, rfl, hv⟩ | ⟨a, n, rfl, hn⟩
    · obtain ⟨w1, w2⟩ := core_write k fl s h a v hv
      obtain ⟨w1', w2'⟩ := core_write k' fl s' h' a v hv
      rw [hpar] at w1
      unfold CoreParams.write at w1 w1'
      rw [List.length_map] at w1 w1'
      simp only [Core.call]
      have herr : ∀ x y : Core, (x.writeToRegister a v).1 = .error .indexError →
          (y.writeToRegister a v).1 = .error .indexError →
          ((x.writeToRegister a v).1 = .ok () ∨ x.writeToRegister a v = (.error .indexError, x)) →
          ((y.writeToRegister a v).1 = .ok () ∨ y.writeToRegister a v = (.error .indexError, y)) →
          (x.answers fl ops = y.answers fl ops) →
          Except.map (fun _ => ([] : List I32)) (x.writeToRegister a v).1 :: Core.answers (x.writeToRegister a v).2 fl ops
          = Except.map (fun _ => ([] : List I32)) (y.writeToRegister a v).1 :: Core.answers (y.writeToRegister a v).2 fl ops := by
        intro x y hx hy hx' hy' hxy
        rcases hx' with e | e
        · rw [e] at hx; cases hx
        rcases hy' with e' | e'
        · rw [e'] at hy; cases hy
        rw [e, e']
        simp only [hxy]
      cases hp : (k'.params fl).place a v.length with
      | none =>
        rw [hp] at w1 w1'
        exact herr k k' w1 w1' w2 w2' (ih k k' s s' h h' hc hcache hout)
      | some pl =>
        rw [hp] at w1 w1'
        cases pl with
        | output m i => exact herr k k' w1 w1' w2 w2' (ih k k' s s' h h' hc hcache hout)
        | cache i =>
          obtain ⟨e1, e2, e3⟩ := w1
          obtain ⟨f1, f2, f3⟩ := w1'
          rw [e1, f1]
          congr 1
          exact ih _ _ _ _ e3 f3 (e2.trans (hc.trans f2.symm)) (by simp only [hcache]) hout
        | input m i =>
          obtain ⟨e1, e2, e3⟩ := w1
          obtain ⟨f1, f2, f3⟩ := w1'
          rw [e1, f1]
          congr 1
          refine ih _ _ _ _ e3 f3 (e2.trans (hc.trans f2.symm)) hcache ?_
          intro j
          dsimp only
          split
          · exact hout j
          · exact hout j
    · have hn' : n = (n.toNat : Int) := by omega
      rw [hn']
      obtain ⟨w1, w2, w3, w4⟩ := core_read k fl s h a n.toNat (by omega)
      obtain ⟨w1', w2', w3', w4'⟩ := core_read k' fl s' h' a n.toNat (by omega)
      simp only [Core.call]
      congr 1
      · rw [hpar] at w1
        have hrd : (k'.params fl).read s a n.toNat = (k'.params fl).read s' a n.toNat := by
          unfold CoreParams.read
          simp only [hcache, hout]
        have hmap := w1.trans (hrd.trans w1'.symm)
        revert hmap
        cases (k.readFromRegister a n.toNat).1 with
        | error e => cases (k'.readFromRegister a n.toNat).1 with
          | error e' => intro hmap; injection hmap with hmap; rw [hmap]
          | ok v => intro hmap; cases hmap
        | ok v => cases (k'.readFromRegister a n.toNat).1 with
          | error e' => intro hmap; cases hmap
          | ok v' => intro hmap; injection hmap with hmap; rw [toInt_list_inj _ _ hmap]
      · exact ih _ _ _ _ w3 w3' (w2.trans (hc.trans w2'.symm)) hcache hout

/-- Loading weights into the units of a core. -/
theorem core_loads (c c' : Config) (fl : FloatActs) (hs : Simulable c) (hb : c.build = .ok c')
    (hp : 0 < c'.mvmuConfig.xbarSize * c'.numMvmusPerCore) (weights : List (Nat × List (List ℚ)))
    (hw : ∀ w ∈ weights, w.1 < c'.numMvmusPerCore ∧ w.2.length = c'.mvmuConfig.xbarSize ∧
      ∀ row ∈ w.2, row.length = c'.mvmuConfig.xbarSize) :
    ((Core.new c').after fl (weights.map fun w => .load w.1 w.2)).config = c' ∧
    CoreRefines ((Core.new c').after fl (weights.map fun w => .load w.1 w.2))
      (CoreState.loadAll {} weights) := by
  have h0 : (Core.new c').config = c' := rfl
  have hr := core_new c c' hs hb hp
  unfold Core.after
  generalize Core.new c' = k at h0 hr
  generalize ({} : CoreState) = s at hr
  induction weights generalizing k s with
  | nil => exact ⟨h0, hr⟩
  | cons mw ws ih =>
    obtain ⟨m, w⟩ := mw
    obtain ⟨hm, hlen, hrow⟩ := hw (m, w) (List.mem_cons_self ..)
    simp only at hm hlen hrow
    have hml : m < k.mvmus.length := by rw [hr.len, h0]; exact hm
    have hu := List.getElem?_eq_getElem hml
    obtain ⟨h1, h2, h3⟩ := hr.units m _ hu
    obtain ⟨e1, e2, e3, e4⟩ := agree_load k.mvmus[m] _ h3 w
    have hstep : (paramsOf k.mvmus[m].cfg k.mvmus[m].data).step (s.units m) (.load w)
        = (.ok [], { s.units m with weights := fun r j => (w.getD r []).getD j 0 }) :=
      if_pos ⟨by rw [hlen]; show _ = k.mvmus[m].cfg.xbarSize; rw [h1, h0],
        by intro row hrw; rw [hrow row hrw]; show _ = k.mvmus[m].cfg.xbarSize; rw [h1, h0]⟩
    rw [hstep] at e1 e4
    simp only [Mvmu.call] at e1 e2 e3 e4
    cases hl : k.mvmus[m].loadWeights w with
    | error e => rw [hl] at e1; cases e1
    | ok u' =>
      rw [hl] at e2 e3 e4
      have hk : (k.call fl (.load (m : Int) w)).2 = { k with mvmus := k.mvmus.set m u' } := by
        simp only [Core.call, Core.loadWeights, Core.getMvmu]
        rw [if_neg (by omega)]
        simp only [Int.toNat_natCast, hu, hl]
      rw [List.map_cons, List.foldl_cons, hk]
      refine ih (fun w hw' => hw w (List.mem_cons_of_mem _ hw')) { k with mvmus := k.mvmus.set m u' } h0 _ ?_
      exact refines_set k s hr m u' _ (by rw [h0]; exact hm) (e2.trans h1) (e3.trans h2) e4 _ rfl
        (if_pos rfl) (fun i hi => if_neg hi)

end Ramwich
