import Verif.Lemmas.Core
import Verif.Model.CoreApi

/-! # Refinement of the core's instructions -/
namespace Ramwich

open Spec


theorem agree_andThen {α : Type} (c : Core) (r : Res Core α) (f : Core → α → Res Core Unit)
    (g : Except PyErr CoreState) (spec : Except PyErr (List Int)) (k : List Int → Except PyErr CoreState)
    (val : α → List Int)
    (hr : r.1.map val = spec) (hg : g = spec >>= k)
    (hok : ∀ a, r.1 = .ok a → CoreAgree c (f r.2 a) (k (val a))) :
    CoreAgree c (Res.andThen r f) g := by
  unfold Res.andThen
  subst hg
  cases hr1 : r.1 with
  | error e =>
    rw [hr1] at hr
    rw [← hr]
    exact rfl
  | ok a =>
    rw [hr1] at hr
    rw [← hr]
    exact hok a hr1

theorem params_config (c c' : Core) (fl : FloatActs) (h : c'.config = c.config) :
    c'.params fl = c.params fl := by
  unfold Core.params; rw [h]

theorem CoreAgree.of_config {c c' : Core} {r : Res Core Unit} {t : Except PyErr CoreState}
    (h : c'.config = c.config) (ha : CoreAgree c' r t) : CoreAgree c r t := by
  cases t with
  | error e => exact ha
  | ok s => exact ⟨ha.1, ha.2.1.trans h, ha.2.2⟩

theorem core_read_ok_length (c : Core) (fl : FloatActs) (s : CoreState) (h : CoreRefines c s)
    (start : Int) (len : Nat) (hl : 0 < len) (v : List I32)
    (hv : (c.readFromRegister start len).1 = .ok v) : v.length = len := by
  have := (core_read c fl s h start len hl).1
  rw [hv] at this
  unfold CoreParams.read at this
  split at this
  · injection this with this; simpa using congrArg List.length this
  · injection this with this; simpa using congrArg List.length this
  · cases this

theorem core_copy (c : Core) (fl : FloatActs) (s : CoreState) (h : CoreRefines c s) (dest read : Int)
    (len : Nat) (hl : 0 < len) :
    CoreAgree c (c.visitCopy dest read len)
      ((c.params fl).read s read len >>= fun v => (c.params fl).write s dest v) := by
  obtain ⟨h1, h2, h3, h4⟩ := core_read c fl s h read len hl
  apply agree_andThen c _ _ _ _ _ (fun v => v.map BitVec.toInt) h1 rfl
  intro v hv
  apply CoreAgree.of_config h2
  have hlen := core_read_ok_length c fl s h read len hl v hv
  rw [← params_config c _ fl h2]
  exact (core_write _ fl s h3 dest v (by rintro rfl; simp at hlen; omega)).1

theorem core_refines_vfu (c : Core) (s : CoreState) (h : CoreRefines c s) (v : VfuStats) :
    CoreRefines { c with vfu := v } s := ⟨h.pos, h.len, h.units, h.csize, h.clen, h.cells⟩

theorem core_vfuCall (c : Core) (fl : FloatActs) (s : CoreState) (h : CoreRefines c s) (op : VfuOp)
    (dest : Int) (a : List I32) (b : Option (List I32)) (ha : a ≠ [])
    (hb : ∀ b', b = some b' → b'.length = a.length) :
    CoreAgree c (Res.andThen (c.vfuCall fl op a b) fun c v => c.writeToRegister dest v)
      (vfuVector (c.params fl).sig (c.params fl).tanh (c.params fl).actFrac (c.params fl).actWidth op
        (a.map BitVec.toInt) (b.map fun l => l.map BitVec.toInt) >>= fun v =>
          (c.params fl).write s dest v) := by
  have hc := (calculate_arrays c.vfu fl c.config.dataConfig op a b hb).1
  apply agree_andThen c _ _ _ _ _ (fun v => v.map BitVec.toInt) hc rfl
  intro v hv
  have hcfg : (c.vfuCall fl op a b).2.config = c.config := rfl
  have hne : v ≠ [] := by
    have hlen : v.length = a.length := by
      have hv' : (c.vfu.calculate fl c.config.dataConfig op (.arr a) (b.map .arr)).1 = .ok v := hv
      rw [hv'] at hc
      simp only [Except.map, vfuVector] at hc
      split at hc
      · injection hc with hc; simpa using congrArg List.length hc
      · cases b with
        | none => cases hc
        | some b =>
          simp only [Option.map_some] at hc
          split at hc
          · cases hc
          · injection hc with hc
            have hl := hb b rfl
            have := congrArg List.length hc
            simpa [hl] using this
    rintro rfl
    simp only [List.length_nil] at hlen
    exact ha (List.length_eq_zero_iff.1 hlen.symm)
  exact CoreAgree.of_config hcfg
    (core_write (c.vfuCall fl op a b).2 fl s (core_refines_vfu c s h _) dest v hne).1

theorem core_vfu (c : Core) (fl : FloatActs) (s : CoreState) (h : CoreRefines c s) (op : VfuOp)
    (dest r1 : Int) (r2 : Option Int) (len : Nat) (hl : 0 < len) (e : MvmErrors) :
    CoreAgree c (c.visitVfu fl op dest r1 r2 len)
      ((c.params fl).exec e s (.vfu op dest r1 r2 len)) := by
  obtain ⟨h1, h2, h3, h4⟩ := core_read c fl s h r1 len hl
  unfold Core.visitVfu
  apply agree_andThen c _ _ _ _ _ (fun v => v.map BitVec.toInt) h1 rfl
  intro a hav
  have hla := core_read_ok_length c fl s h r1 len hl a hav
  have hane : a ≠ [] := by rintro rfl; simp at hla; omega
  apply CoreAgree.of_config h2
  have hp := params_config c _ fl h2
  cases r2 with
  | none =>
    have := core_vfuCall _ fl s h3 op dest a none hane (by intro _ h; cases h)
    rw [hp] at this
    exact this
  | some r2 =>
    obtain ⟨k1, k2, k3, k4⟩ := core_read _ fl s h3 r2 len hl
    rw [hp] at k1
    apply agree_andThen _ _ _ _ _ (fun b => vfuVector (c.params fl).sig (c.params fl).tanh
      (c.params fl).actFrac (c.params fl).actWidth op (a.map BitVec.toInt) (some b) >>= fun v =>
        (c.params fl).write s dest v) (fun v => v.map BitVec.toInt) k1
    · simp only [Int.toNat_natCast]
      cases (c.params fl).read s r2 len <;> rfl
    · intro b hbv
      have hlb := core_read_ok_length _ fl s h3 r2 len hl b hbv
      have := core_vfuCall _ fl s k3 op dest a (some b) hane (by
        intro b' hb'; injection hb' with hb'; rw [← hb', hlb, hla])
      rw [params_config _ _ fl k2, hp] at this
      exact CoreAgree.of_config k2 this

theorem core_mvmOne (c : Core) (fl : FloatActs) (s : CoreState) (h : CoreRefines c s)
    (he : Electrical c.config.mvmuConfig) (lat dlat : Nat)
    (hlat : Latencies c.config.mvmuConfig lat dlat) (i : Int)
    (ep en : Nat → Nat → Nat → Nat → ℚ) :
    CoreAgree c (c.mvmOne i fun n => { pos := ep n, neg := en n })
      (if 0 ≤ i ∧ i < (c.params fl).num then .ok { s with units := fun m => if m = i.toNat then
          ((c.params fl).unit.step (s.units m) (.mvm ep en)).2 else s.units m }
        else .error .indexError) := by
  unfold Core.mvmOne Core.getMvmu
  have hnum : (c.params fl).num = c.config.numMvmusPerCore := rfl
  by_cases hi : 0 ≤ i ∧ i < (c.params fl).num
  · rw [if_pos hi, if_neg (by rw [h.len]; omega)]
    have hm : i.toNat < c.config.numMvmusPerCore := by omega
    have hm' : i.toNat < c.mvmus.length := by rw [h.len]; exact hm
    have hu : c.mvmus[i.toNat]? = some c.mvmus[i.toNat] := List.getElem?_eq_getElem hm'
    rw [hu]
    obtain ⟨hcfg, hdat, href⟩ := h.units _ _ hu
    set u := c.mvmus[i.toNat]
    obtain ⟨u', hu', hc', hd', hr'⟩ := refines_mvm u _ href (by rw [hcfg]; exact he) lat dlat
      (by rw [hcfg]; exact hlat) ep en
    simp only [hu']
    refine ⟨rfl, rfl, refines_set c s h _ _ _ hm (hc'.trans hcfg) (hd'.trans hdat) hr' _ rfl ?_ ?_⟩
    · simp only [if_true, hcfg, hdat]; rfl
    · intro j hj; simp only [if_neg hj]
  · rw [if_neg hi, if_pos (by rw [h.len]; omega)]
    exact rfl

theorem core_mvm (c : Core) (fl : FloatActs) (s : CoreState) (h : CoreRefines c s)
    (he : Electrical c.config.mvmuConfig) (lat dlat : Nat)
    (hlat : Latencies c.config.mvmuConfig lat dlat) (e : MvmErrors) (xbar : List Int) :
    CoreAgree c (c.visitMvm (noiseOf e) xbar) ((c.params fl).mvms e s xbar) := by
  induction xbar generalizing c s e with
  | nil => exact ⟨rfl, rfl, h⟩
  | cons i is ih =>
    have h1 := core_mvmOne c fl s h he lat dlat hlat i (e.pos 0) (e.neg 0)
    unfold Core.visitMvm CoreParams.mvms
    have hn : noiseOf e 0 = fun n => { pos := e.pos 0 n, neg := e.neg 0 n } := rfl
    rw [hn]
    unfold Res.andThen
    by_cases hi : 0 ≤ i ∧ i < (c.params fl).num
    · rw [if_pos hi] at h1 ⊢
      obtain ⟨e1, e2, e3⟩ := h1
      rw [e1]
      simp only
      apply CoreAgree.of_config e2
      have := ih _ _ e3 (by rw [e2]; exact he) (by rw [e2]; exact hlat)
        { pos := fun n => e.pos (n + 1), neg := fun n => e.neg (n + 1) }
      rw [params_config _ _ fl e2] at this
      exact this
    · rw [if_neg hi] at h1 ⊢
      rw [show (c.mvmOne i fun n => { pos := e.pos 0 n, neg := e.neg 0 n }).1 = .error .indexError from h1]
      exact rfl

/-- One instruction of the concrete core against the specification. -/
theorem core_execute (c : Core) (fl : FloatActs) (s : CoreState) (h : CoreRefines c s)
    (he : Electrical c.config.mvmuConfig) (lat dlat : Nat)
    (hlat : Latencies c.config.mvmuConfig lat dlat) (e : MvmErrors) (op : CoreOp)
    (hop : CoreOp.wellFormed op) :
    CoreAgree c (c.execute fl (noiseOf e) op) ((c.params fl).exec e s op) := by
  cases op with
  | set dest imm vec =>
    obtain ⟨hv, h1, h2⟩ := hop
    have hfull : npFull32 vec imm = .ok (List.replicate vec.toNat (BitVec.ofInt 32 imm)) := by
      unfold npFull32
      rw [if_neg (by omega), if_neg (by omega)]
    simp only [Core.execute, Core.visitSet, hfull]
    have := (core_write c fl s h dest (List.replicate vec.toNat (BitVec.ofInt 32 imm)) (by
      intro h0
      have := congrArg List.length h0
      simp at this
      omega)).1
    simp only [CoreParams.exec]
    rw [List.map_replicate] at this
    have hwr : ∀ n, (c.params fl).write s dest (List.replicate n (BitVec.ofInt 32 imm).toInt)
        = (c.params fl).write s dest (List.replicate n imm) := by
      intro n
      unfold CoreParams.write
      have hset : ∀ f a, setBlock f a (List.replicate n (BitVec.ofInt 32 imm).toInt)
          = setBlock f a (List.replicate n imm) := by
        intro f a
        funext j
        unfold setBlock
        simp only [List.length_replicate]
        split
        · rename_i hj
          rw [List.getD_eq_getElem?_getD, List.getD_eq_getElem?_getD, List.getElem?_replicate,
            List.getElem?_replicate, if_pos (by omega), if_pos (by omega)]
          simp only [Option.getD_some]
          rw [wrap32_toInt, toInt_ofInt32]
        · rfl
      simp only [List.length_replicate, hset]
    rw [hwr] at this
    exact this
  | copy dest read vec =>
    have hv : 0 < vec := hop
    have := core_copy c fl s h dest read vec.toNat (by omega)
    rw [Int.toNat_of_nonneg hv.le] at this
    exact this
  | vfu o dest r1 r2 vec =>
    have hv : 0 < vec := hop
    have := core_vfu c fl s h o dest r1 r2 vec.toNat (by omega) e
    rw [Int.toNat_of_nonneg hv.le] at this
    exact this
  | mvm xbar => exact core_mvm c fl s h he lat dlat hlat e xbar
  | hlt => exact ⟨rfl, rfl, h⟩
  | load => exact absurd hop id
  | store => exact absurd hop id

theorem core_executeAll (c : Core) (fl : FloatActs) (s : CoreState) (h : CoreRefines c s)
    (he : Electrical c.config.mvmuConfig) (lat dlat : Nat)
    (hlat : Latencies c.config.mvmuConfig lat dlat) (ops : List (CoreOp × MvmErrors))
    (hops : ∀ op ∈ ops, CoreOp.wellFormed op.1) :
    CoreAgree c (c.executeAll fl ops) ((c.params fl).execAll s ops) := by
  induction ops generalizing c s with
  | nil => exact ⟨rfl, rfl, h⟩
  | cons oe ops ih =>
    obtain ⟨op, e⟩ := oe
    have h1 := core_execute c fl s h he lat dlat hlat e op (hops _ (List.mem_cons_self ..))
    unfold Core.executeAll CoreParams.execAll Res.andThen
    cases hx : (c.params fl).exec e s op with
    | error err =>
      rw [hx] at h1
      rw [show (c.execute fl (noiseOf e) op).1 = .error err from h1]
      exact rfl
    | ok s' =>
      rw [hx] at h1
      obtain ⟨e1, e2, e3⟩ := h1
      rw [e1]
      apply CoreAgree.of_config e2
      have := ih _ s' e3 (by rw [e2]; exact he) (by rw [e2]; exact hlat)
        (fun o ho => hops o (List.mem_cons_of_mem _ ho))
      rw [params_config _ _ fl e2] at this
      exact this

/-- A fresh core implements the initial abstract state. -/
theorem core_new (c c' : Config) (hs : Simulable c) (h : c.build = .ok c')
    (hp : 0 < c'.mvmuConfig.xbarSize * c'.numMvmusPerCore) : CoreRefines (Core.new c') {} := by
  refine ⟨hp, by simp [Core.new], ?_, rfl, by simp [Core.new, Memory.new], ?_⟩
  · intro m u hu
    simp only [Core.new, List.getElem?_map] at hu
    cases hr : (List.range c'.numMvmusPerCore)[m]? with
    | none => rw [hr] at hu; cases hu
    | some k =>
      rw [hr] at hu
      injection hu with hu
      subst hu
      exact ⟨rfl, rfl, refines_new c c' h hs.rramFlag hs.sramFlag⟩
  · intro a _
    simp only [Core.new, Memory.new, getD_replicate_zero]
    rfl

end Ramwich
