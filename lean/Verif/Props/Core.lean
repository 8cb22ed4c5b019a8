import Verif.Lemmas.CoreReach
import Verif.Props.Demo
import Verif.Props.Vfu

/-! # Properties of the core (C15-C17, C58)

`CoreCall` lists the calls on a core; `(Core.new c').after fl hist` is the core after an arbitrary
history of calls. `inputAt`, `outputAt` and `cacheAt` are the contents of single registers. -/
namespace Ramwich

open Spec

/-- The block lies in the input window of one unit. -/
def inInputs (c : Config) (start : Int) (len : Nat) : Prop :=
  ∃ m, m < c.numMvmusPerCore ∧ inside start len (m * c.mvmuConfig.xbarSize) c.mvmuConfig.xbarSize

/-- The block lies in the output window of unit `m`. -/
def inOutputs (c : Config) (m : Nat) (start : Int) (len : Nat) : Prop :=
  m < c.numMvmusPerCore ∧
    inside start len (c.numMvmusPerCore * c.mvmuConfig.xbarSize + m * c.mvmuConfig.xbarSize)
      c.mvmuConfig.xbarSize

/-- The block lies in the cache window. -/
def inCache (c : Config) (start : Int) (len : Nat) : Prop :=
  inside start len (2 * (c.numMvmusPerCore * c.mvmuConfig.xbarSize)) c.coreConfig.dataMemSize

/-- The value that a write of `data` at `start` leaves in the word with address `a` that held `old`. -/
def overwritten (start : Int) (data : List I32) (a : Nat) (old : Int) : Int :=
  if start ≤ a ∧ (a : Int) < start + data.length then (data.getD (a - start).toNat 0).toInt else old

/-- C15: a non-empty write succeeds exactly when it lies in the input window of one unit or in the
cache window; then it changes exactly the registers it names. Otherwise it raises IndexError and the
core is unchanged, counters included. Output registers, weights and everything else are never
touched. -/
theorem C15_core_write (c c' : Config) (fl : FloatActs) (hs : Simulable c) (hb : c.build = .ok c')
    (hp : 0 < c'.mvmuConfig.xbarSize * c'.numMvmusPerCore) (hist : List CoreCall) (start : Int)
    (data : List I32) (hd : data ≠ []) :
    let k := (Core.new c').after fl hist
    let r := k.writeToRegister start data
    (inInputs c' start data.length ∨ inCache c' start data.length → r.1 = .ok ()) ∧
    (¬ (inInputs c' start data.length ∨ inCache c' start data.length) → r = (.error .indexError, k)) ∧
    (r.1 = .ok () →
      (∀ m i, m < c'.numMvmusPerCore → i < c'.mvmuConfig.xbarSize →
        r.2.inputAt m i = overwritten start data (m * c'.mvmuConfig.xbarSize + i) (k.inputAt m i)) ∧
      (∀ a, a < c'.coreConfig.dataMemSize → r.2.cacheAt a =
        overwritten start data (2 * (c'.numMvmusPerCore * c'.mvmuConfig.xbarSize) + a) (k.cacheAt a)) ∧
      -- apart from input registers, the cache and their counters nothing changes
      r.2.config = k.config ∧ r.2.vfu = k.vfu ∧ r.2.mvmus.length = k.mvmus.length ∧
      (∀ (m : Nat) u u', k.mvmus[m]? = some u → r.2.mvmus[m]? = some u' → { u' with inreg := u.inreg } = u) ∧
      (inInputs c' start data.length → r.2.cache = k.cache) ∧
      (inCache c' start data.length → r.2.mvmus = k.mvmus)) := by
  intro k r
  obtain ⟨hcfg, s, hk⟩ : CoreOk c' k := coreOk_after c c' fl hs hb hp hist
  have hpos := List.length_pos_iff.2 hd
  have hcs : k.cacheStart = 2 * (c'.numMvmusPerCore * c'.mvmuConfig.xbarSize) := by
    unfold Core.cacheStart Core.outregStart; rw [hcfg]; ring
  have hsep : inInputs c' start data.length → ¬ inCache c' start data.length := by
    rintro ⟨m, hm, hin⟩ hc
    unfold inCache inside at *
    have hle := mul_le_of_lt (S := c'.mvmuConfig.xbarSize) hm
    rw [Nat.add_mul] at hle
    omega
  by_cases hi : inInputs c' start data.length
  · obtain ⟨m, hm, hin⟩ := id hi
    obtain ⟨u, rg, hu, hw, hreg⟩ := write_input_effect k s hk start data hd m (by rw [hcfg]; exact hm)
      (by rw [hcfg]; exact hin)
    have hr : r = (.ok (), { k with mvmus := k.mvmus.set m { u with inreg := rg } }) := hw
    have hml : m < k.mvmus.length := (List.getElem?_eq_some_iff.1 hu).1
    rw [hcfg] at hreg
    unfold inside at hin
    have hle := mul_le_of_lt (S := c'.mvmuConfig.xbarSize) hm
    rw [Nat.add_mul] at hle
    refine ⟨fun _ => by rw [hr], fun h => absurd (Or.inl hi) h, fun _ => ⟨?_, ?_, by rw [hr], by rw [hr],
      by rw [hr]; simp, ?_, fun _ => by rw [hr], fun h => absurd h (hsep hi)⟩⟩
    · intro m' i hm' hi'
      rw [hr]
      unfold Core.inputAt overwritten
      simp only [List.getElem?_set]
      by_cases hmm : m = m'
      · subst hmm
        rw [if_pos rfl, if_pos hml, hu]
        simp only [hreg]
        have e : (start - (m : Int) * c'.mvmuConfig.xbarSize).toNat
            = start.toNat - m * c'.mvmuConfig.xbarSize := by
          push_cast at hin; zify; omega
        by_cases hx : start ≤ ((m * c'.mvmuConfig.xbarSize + i : Nat) : Int) ∧
            ((m * c'.mvmuConfig.xbarSize + i : Nat) : Int) < start + data.length
        · rw [if_pos hx, if_pos (by push_cast at hin hx; omega)]
          congr 2
          push_cast at hin hx ⊢
          omega
        · rw [if_neg hx, if_neg (by push_cast at hin hx; omega)]
      · rw [if_neg hmm, if_neg]
        intro hx
        have hlt : m' = m := by
          apply inside_unique (S := c'.mvmuConfig.xbarSize) (start := m' * c'.mvmuConfig.xbarSize + i)
            (len := 1) (by omega)
          · unfold inside; push_cast; omega
          · unfold inside; push_cast at hin hx ⊢; omega
        exact hmm hlt.symm
    · intro a ha
      rw [hr]
      unfold overwritten
      rw [if_neg]
      · rfl
      · push_cast at hin ⊢
        have : (m : Int) * c'.mvmuConfig.xbarSize + c'.mvmuConfig.xbarSize
          ≤ c'.numMvmusPerCore * c'.mvmuConfig.xbarSize := by
            rw [Nat.one_mul] at hle; exact_mod_cast hle
        omega
    · intro m' v v' hv hv'
      rw [hr] at hv'
      simp only [List.getElem?_set] at hv'
      by_cases hmm : m = m'
      · subst hmm
        rw [if_pos rfl, if_pos hml] at hv'
        rw [hu] at hv
        injection hv with hv
        injection hv' with hv'
        rw [← hv', ← hv]
      · rw [if_neg hmm, hv] at hv'
        injection hv' with hv'
        rw [hv']
  · by_cases hc : inCache c' start data.length
    · obtain ⟨mem, hw, hreg⟩ := write_cache_effect k s hk start data hd (by
        rw [hcs, hcfg]; exact hc)
      have hr : r = (.ok (), { k with cache := mem }) := hw
      rw [hcs] at hreg
      have hc' := hc
      unfold inCache inside at hc'
      refine ⟨fun _ => by rw [hr], fun h => absurd (Or.inr hc) h, fun _ => ⟨?_, ?_, by rw [hr],
        by rw [hr], by rw [hr], ?_, fun h => absurd h hi, fun _ => by rw [hr]⟩⟩
      · intro m i hm hi'
        rw [hr]
        unfold overwritten
        have hle := mul_le_of_lt (S := c'.mvmuConfig.xbarSize) hm
        rw [Nat.add_mul] at hle
        rw [if_neg (by push_cast at hc' ⊢; zify at hle; omega)]
        rfl
      · intro a ha
        rw [hr]
        unfold Core.cacheAt overwritten
        simp only [hreg]
        generalize c'.numMvmusPerCore * c'.mvmuConfig.xbarSize = B at *
        by_cases hx : start ≤ ((2 * B + a : Nat) : Int) ∧ ((2 * B + a : Nat) : Int) < start + data.length
        · rw [if_pos hx, if_pos (by push_cast at hc' hx ⊢; omega)]
          congr 2
          push_cast at hc' hx ⊢
          omega
        · rw [if_neg hx, if_neg (by push_cast at hc' hx ⊢; omega)]
      · intro m' v v' hv hv'
        rw [hr] at hv'
        rw [hv] at hv'
        injection hv' with hv'
        rw [hv']
    · have hr : r = (.error .indexError, k) := writeToRegister_error k start data hd
        (by rw [hcs, hcfg]; exact hc)
        (by rw [hcfg]; intro m hm hin; exact hi ⟨m, hm, hin⟩)
      refine ⟨fun h => absurd h (by tauto), fun _ => hr, fun h => ?_⟩
      rw [hr] at h
      cases h

/-- A core with two units of size 4 and 16 words of cache. -/
def demoCore : Config :=
  { demo with numMvmusPerCore := 2, coreConfig := { demo.coreConfig with dataMemSize := 16 } }

def demoCoreBuilt : Config := match demoCore.build with | .ok c => c | .error _ => demoCore

theorem demoCore_build : demoCore.build = .ok demoCoreBuilt := by
  decide +kernel

theorem demoCore_simulable : Simulable demoCore := by
  refine ⟨rfl, rfl, by decide, by decide, fun _ => by decide, fun _ => by decide, ?_, ?_, ?_⟩ <;>
    norm_num [demoCore, demo]

-- units: inputs 0-3 and 4-7, outputs 8-11 and 12-15, cache 16-31
example := C15_core_write demoCore demoCoreBuilt someActs demoCore_simulable demoCore_build
  (by decide +kernel) [.write 4 [1, 2, 3], .load 0 demoWeights, .reset] 5 [7, 8, 9] (by decide)
example : inInputs demoCoreBuilt 5 3 := ⟨1, by decide +kernel, by decide +kernel⟩
example : ((Core.new demoCoreBuilt).writeToRegister 5 [7, 8, 9]).1 = .ok () ∧
    ((Core.new demoCoreBuilt).writeToRegister 2 [7, 8, 9]).1 = .error .indexError ∧
    ((Core.new demoCoreBuilt).writeToRegister 15 [7, 8, 9]).1 = .error .indexError ∧
    ((Core.new demoCoreBuilt).writeToRegister 29 [7, 8, 9]).1 = .ok () ∧
    ((Core.new demoCoreBuilt).writeToRegister 30 [7, 8, 9]).1 = .error .indexError := by
  decide +kernel

/-- The hypothesis that there are matrix-vector units is needed: a core without them cannot write its
first cache word although it can read it. -/
theorem C15_no_units_witness : ∃ c : Core, c.config.numMvmusPerCore = 0 ∧ inCache c.config 0 1 ∧
    (c.writeToRegister 0 [5]).1 = .error .indexError ∧ (c.readFromRegister 0 1).1 = .ok [0] ∧
    (c.writeToRegister 1 [5]).1 = .ok () :=
  ⟨Core.new { demoCoreBuilt with numMvmusPerCore := 0 }, rfl, by unfold inCache; decide +kernel, by decide +kernel,
    by decide +kernel, by decide +kernel⟩

/-- C16: a read of a positive length succeeds exactly when it lies in the output window of one unit
or in the cache window. It returns those registers, output registers divided by `2^weight_frac_bits`
rounding down. It never changes the contents of a register or the weights, and a rejected read
changes nothing at all. -/
theorem C16_core_read (c c' : Config) (fl : FloatActs) (hs : Simulable c) (hb : c.build = .ok c')
    (hp : 0 < c'.mvmuConfig.xbarSize * c'.numMvmusPerCore) (hist : List CoreCall) (start : Int)
    (len : Nat) (hl : 0 < len) :
    let k := (Core.new c').after fl hist
    let r := k.readFromRegister start len
    (∀ m, inOutputs c' m start len → r.1.map (fun v => v.map BitVec.toInt) =
      .ok ((List.range len).map fun i : Nat =>
        k.outputAt m (start - (c'.numMvmusPerCore + m : Nat) * c'.mvmuConfig.xbarSize + i).toNat
          / 2 ^ c.dataConfig.weightFracBits)) ∧
    (inCache c' start len → r.1.map (fun v => v.map BitVec.toInt) =
      .ok ((List.range len).map fun i : Nat =>
        k.cacheAt (start - 2 * (c'.numMvmusPerCore * c'.mvmuConfig.xbarSize : Nat) + i).toNat)) ∧
    (¬ ((∃ m, inOutputs c' m start len) ∨ inCache c' start len) → r = (.error .indexError, k)) ∧
    (∀ m i, m < c'.numMvmusPerCore → i < c'.mvmuConfig.xbarSize →
      r.2.inputAt m i = k.inputAt m i ∧ r.2.outputAt m i = k.outputAt m i) ∧
    (∀ a, a < c'.coreConfig.dataMemSize → r.2.cacheAt a = k.cacheAt a) ∧
    (∀ (m : Nat) u u', k.mvmus[m]? = some u → r.2.mvmus[m]? = some u' →
      { u' with outreg := u.outreg } = u) := by
  intro k r
  obtain ⟨hcfg, s, hk⟩ : CoreOk c' k := coreOk_after c c' fl hs hb hp hist
  obtain ⟨h1, h2, h3, h4⟩ := core_read k fl s hk start len hl
  have hcs : k.cacheStart = 2 * (c'.numMvmusPerCore * c'.mvmuConfig.xbarSize) := by
    unfold Core.cacheStart Core.outregStart; rw [hcfg]; ring
  have hfrac : (k.params fl).unit.frac = c.dataConfig.weightFracBits := by
    show k.config.dataConfig.weightFracBits = _
    rw [hcfg, (build_fields c c' hb).1]
  have hnum : (k.params fl).num = c'.numMvmusPerCore := by
    show k.config.numMvmusPerCore = _; rw [hcfg]
  have hsize : (k.params fl).unit.size = c'.mvmuConfig.xbarSize := by
    show k.config.mvmuConfig.xbarSize = _; rw [hcfg]
  have hcsz : (k.params fl).cacheSize = c'.coreConfig.dataMemSize := by
    show k.config.coreConfig.dataMemSize = _; rw [hcfg]
  refine ⟨?_, ?_, ?_, ?_, ?_, ?_⟩
  · rintro m ⟨hm, hin⟩
    rw [← Nat.add_mul] at hin
    have hpl := place_output (k.params fl) start len m hl (by rw [hnum]; exact hm)
      (by rw [hnum, hsize]; exact hin)
    rw [h1]
    unfold CoreParams.read
    rw [hpl]
    simp only [hfrac, hnum, hsize]
    congr 1
    apply List.map_congr_left
    intro i hi
    have hi' := List.mem_range.1 hi
    unfold inside at hin
    congr 1
    have e : (start - ((c'.numMvmusPerCore + m : Nat) : Int) * c'.mvmuConfig.xbarSize + i).toNat
        = (start - ((c'.numMvmusPerCore : Int) + m) * c'.mvmuConfig.xbarSize).toNat + i := by
      push_cast at hin ⊢
      omega
    rw [e]
    symm
    apply outputAt_eq k s hk
    · rw [hcfg]; exact hm
    · rw [hcfg]; push_cast at hin; omega
  · intro hc
    have hpl := place_cache (k.params fl) start len (by rw [hnum, hsize, hcsz]; exact hc)
    rw [h1]
    unfold CoreParams.read
    rw [hpl]
    simp only [hnum, hsize]
    congr 1
    apply List.map_congr_left
    intro i hi
    have hi' := List.mem_range.1 hi
    unfold inCache inside at hc
    have e : (start - 2 * ((c'.numMvmusPerCore * c'.mvmuConfig.xbarSize : Nat) : Int) + i).toNat
        = (start - 2 * ((c'.numMvmusPerCore : Int) * c'.mvmuConfig.xbarSize)).toNat + i := by
      push_cast at hc ⊢
      omega
    rw [e]
    symm
    apply cacheAt_eq k s hk
    rw [hcfg]
    push_cast at hc
    omega
  · intro h
    apply readFromRegister_error k start len hl
    · rw [hcs, hcfg]; exact fun hc => h (Or.inr hc)
    · rw [hcfg]
      intro m hm hin
      exact h (Or.inl ⟨m, hm, by rw [← Nat.add_mul]; exact hin⟩)
  · intro m i hm hi
    constructor
    · rw [inputAt_eq r.2 s h3 m i (by rw [h2, hcfg]; exact hm) (by rw [h2, hcfg]; exact hi),
        inputAt_eq k s hk m i (by rw [hcfg]; exact hm) (by rw [hcfg]; exact hi)]
    · rw [outputAt_eq r.2 s h3 m i (by rw [h2, hcfg]; exact hm) (by rw [h2, hcfg]; exact hi),
        outputAt_eq k s hk m i (by rw [hcfg]; exact hm) (by rw [hcfg]; exact hi)]
  · intro a ha
    rw [cacheAt_eq r.2 s h3 a (by rw [h2, hcfg]; exact ha), cacheAt_eq k s hk a (by rw [hcfg]; exact ha)]
  · intro m u u' hu hu'
    exact read_frame k start len m u u' hu hu'

example := C16_core_read demoCore demoCoreBuilt someActs demoCore_simulable demoCore_build
  (by decide +kernel) [.write 16 [1, 2, 3], .load 0 demoWeights] 17 2 (by decide)
example : inOutputs demoCoreBuilt 1 13 3 ∧ inCache demoCoreBuilt 17 2 := by
  unfold inOutputs inCache; decide +kernel

/-- What the history of register accesses stored in cache word `a`: the last accepted write to it,
0 if there was none. `base` and `size` are the start and the length of the cache window. -/
def lastInCache (base size : Nat) (hist : List CoreCall) (a : Nat) : Int :=
  hist.foldl (fun v k => match k with
    | .write start data =>
        if inside start data.length base size then overwritten start data (base + a) v else v
    | _ => v) 0

/-- Register accesses, weight loading and MVMs; no instruction that writes registers. -/
def CoreCall.plain : CoreCall → Prop
  | .write _ data => data ≠ []
  | .read .. => True
  | .exec (.mvm _) _ => True
  | .load .. => True
  | _ => False

/-- C17: the cache is a flat memory. After any history of register writes (accepted or not), reads,
weight loads and MVMs, reading cache words returns for every address the last value written there. -/
theorem C17_cache_flat (c c' : Config) (fl : FloatActs) (hs : Simulable c) (hb : c.build = .ok c')
    (hp : 0 < c'.mvmuConfig.xbarSize * c'.numMvmusPerCore) (hist : List CoreCall)
    (hh : ∀ k ∈ hist, k.plain) (start : Int) (len : Nat) (hl : 0 < len) (hc : inCache c' start len) :
    (((Core.new c').after fl hist).readFromRegister start len).1.map (fun v => v.map BitVec.toInt)
      = .ok ((List.range len).map fun i : Nat =>
          lastInCache (2 * (c'.numMvmusPerCore * c'.mvmuConfig.xbarSize)) c'.coreConfig.dataMemSize hist
            (start - 2 * (c'.numMvmusPerCore * c'.mvmuConfig.xbarSize : Nat) + i).toNat) := by
  have h16 := (C16_core_read c c' fl hs hb hp hist start len hl).2.1 hc
  refine h16.trans ?_
  congr 1
  apply List.map_congr_left
  intro i hi
  have hi' := List.mem_range.1 hi
  unfold inCache inside at hc
  generalize ha : (start - 2 * ((c'.numMvmusPerCore * c'.mvmuConfig.xbarSize : Nat) : Int) + i).toNat = a
  have hlt : a < c'.coreConfig.dataMemSize := by push_cast at hc ha; omega
  clear ha hi hi' h16
  induction hist using List.reverseRecOn with
  | nil =>
    show (Core.new c').cacheAt a = 0
    rw [cacheAt_eq (Core.new c') {} (core_new c c' hs hb hp) a hlt]
  | append_singleton ks k ih =>
    have ih := ih (fun k hk => hh k (List.mem_append_left _ hk))
    have hk := hh k (by simp)
    have e1 : (Core.new c').after fl (ks ++ [k]) = (((Core.new c').after fl ks).call fl k).2 := by
      unfold Core.after; rw [List.foldl_append]; rfl
    have e2 : ∀ b n, lastInCache b n (ks ++ [k]) a = (match k with
        | .write start data =>
          if inside start data.length b n then overwritten start data (b + a) (lastInCache b n ks a)
          else lastInCache b n ks a
        | _ => lastInCache b n ks a) := by
      intro b n; unfold lastInCache; rw [List.foldl_append]; cases k <;> rfl
    rw [e1, e2]
    cases k with
    | write st data =>
      have h15 := C15_core_write c c' fl hs hb hp ks st data hk
      simp only [Core.call]
      by_cases hin : inCache c' st data.length
      · have hin' := hin
        unfold inCache at hin'
        rw [if_pos hin', ← ih]
        exact (h15.2.2 (h15.1 (Or.inr hin))).2.1 a hlt
      · have hin' := hin
        unfold inCache at hin'
        rw [if_neg hin', ← ih]
        by_cases hi : inInputs c' st data.length
        · have := (h15.2.2 (h15.1 (Or.inl hi))).2.2.2.2.2.2.1 hi
          unfold Core.cacheAt
          rw [this]
        · rw [h15.2.1 (by tauto)]
    | read st ln =>
      rw [← ih]
      exact congrArg (fun l => (l.getD a 0 : I32).toInt) (read_cells _ st ln)
    | load j w =>
      rw [← ih]
      exact congrArg (fun l => (l.getD a 0 : I32).toInt) (load_cells _ j w)
    | exec op e =>
      cases op with
      | mvm xs =>
        rw [← ih]
        exact congrArg (fun l => (l.getD a 0 : I32).toInt) (mvm_cells _ (noiseOf e) xs)
      | _ => exact absurd hk id
    | reset => exact absurd hk id

example := C17_cache_flat demoCore demoCoreBuilt someActs demoCore_simulable demoCore_build
  (by decide +kernel) [.write 16 [1, 2, 3], .write 17 [8], .write 40 [1], .exec (.mvm [0, 1]) {},
    .read 16 3] (by simp [CoreCall.plain]) 16 3 (by decide) (by unfold inCache; decide +kernel)
example : (List.range 3).map (lastInCache 16 16 [.write 16 [1, 2, 3], .write 17 [8], .write 40 [1]])
    = [1, 8, 3] := by decide +kernel

/-- C17, second part: an input write is invisible to register accesses. Performed before any sequence
of reads and writes, it does not change any of their answers. -/
theorem C17_inputs_invisible (c c' : Config) (fl : FloatActs) (hs : Simulable c) (hb : c.build = .ok c')
    (hp : 0 < c'.mvmuConfig.xbarSize * c'.numMvmusPerCore) (hist : List CoreCall)
    (start : Int) (data : List I32) (hd : data ≠ []) (hin : inInputs c' start data.length)
    (later : List CoreCall)
    (hlater : ∀ k ∈ later, (∃ a v, k = .write a v ∧ v ≠ []) ∨ ∃ a n, k = .read a n ∧ 0 < n) :
    (((Core.new c').after fl hist).writeToRegister start data).2.answers fl later
      = ((Core.new c').after fl hist).answers fl later := by
  obtain ⟨hcfg, s, hk⟩ : CoreOk c' ((Core.new c').after fl hist) := coreOk_after c c' fl hs hb hp hist
  generalize (Core.new c').after fl hist = k at hcfg hk ⊢
  obtain ⟨m, hm, hin⟩ := hin
  have hw := (core_write k fl s hk start data hd).1
  have hpl := place_input (k.params fl) start data.length m (List.length_pos_iff.2 hd)
    (by show m < k.config.numMvmusPerCore; rw [hcfg]; exact hm)
    (by
      show inside start data.length (m * k.config.mvmuConfig.xbarSize) k.config.mvmuConfig.xbarSize
      rw [hcfg]; exact hin)
  unfold CoreParams.write at hw
  rw [List.length_map, hpl] at hw
  obtain ⟨-, e2, e3⟩ := hw
  refine answers_congr fl later hlater _ _ _ _ e3 hk e2 rfl ?_
  intro i
  dsimp only
  split
  · rfl
  · rfl

example := C17_inputs_invisible demoCore demoCoreBuilt someActs demoCore_simulable demoCore_build
  (by decide +kernel) [.write 16 [1, 2, 3]] 5 [7, 8] (by decide) ⟨1, by decide +kernel, by decide +kernel⟩
  [.read 8 4, .write 17 [5], .read 17 2] (by simp)

/-- C58: a core executes its instruction set as the specification says. Starting from any abstract
state that the core implements, after a program of `set`, `copy`, `vfu`, `mvm` and `hlt`
instructions the answers to every later register access are those of the abstract core; if the
program raises, it raises what the specification says. The fresh core implements the state where
everything is zero. -/
theorem C58_core_program (c c' : Config) (fl : FloatActs) (hs : Simulable c) (hb : c.build = .ok c')
    (hp : 0 < c'.mvmuConfig.xbarSize * c'.numMvmusPerCore)
    (weights : List (Nat × List (List ℚ)))
    (hw : ∀ w ∈ weights, w.1 < c'.numMvmusPerCore ∧ w.2.length = c'.mvmuConfig.xbarSize ∧
      ∀ row ∈ w.2, row.length = c'.mvmuConfig.xbarSize)
    (prog : List (CoreOp × MvmErrors)) (hprog : ∀ op ∈ prog, CoreOp.wellFormed op.1) :
    let k := (Core.new c').after fl (weights.map fun w => .load w.1 w.2)
    let r := k.executeAll fl prog
    let p := coreParamsOf c' (fun v => (fl.sig c.dataConfig.activationFracBits (BitVec.ofInt 32 v)).toInt)
      (fun v => (fl.tanh c.dataConfig.activationFracBits (BitVec.ofInt 32 v)).toInt)
    match p.execAll (CoreState.loadAll {} weights) prog with
    | .error e => r.1 = .error e
    | .ok s => r.1 = .ok () ∧
        ∀ (start : Int) (len : Nat), 0 < len →
          (r.2.readFromRegister start len).1.map (fun v => v.map BitVec.toInt) = p.read s start len := by
  intro k r p
  obtain ⟨hkc, hk⟩ := core_loads c c' fl hs hb hp weights hw
  have hpar : k.params fl = p := by
    show coreParamsOf k.config _ _ = coreParamsOf c' _ _
    rw [hkc, (build_fields c c' hb).1]
  have hx := core_executeAll k fl _ hk (by rw [hkc]; exact electrical_of c c' hs hb) _ _
    (by rw [hkc]; exact latencies_of c c' hs hb) prog hprog
  rw [hpar] at hx
  cases hspec : p.execAll (CoreState.loadAll {} weights) prog with
  | error e =>
    rw [hspec] at hx
    exact hx
  | ok s =>
    rw [hspec] at hx
    obtain ⟨h1, h2, h3⟩ := hx
    refine ⟨h1, fun start len hl => ?_⟩
    have := (core_read r.2 fl s h3 start len hl).1
    rw [params_config k r.2 fl h2, hpar] at this
    exact this

/-- A small program: load inputs, multiply, move the result, add, saturate through ReLU. -/
def demoProg : List (CoreOp × MvmErrors) :=
  [(.set 16 3 4, {}), (.copy 0 16 4, {}), (.mvm [0], {}), (.copy 20 8 4, {}),
   (.vfu .add 24 16 (some 20) 4, {}), (.vfu .relu 28 24 none 4, {}), (.hlt, {})]

example := C58_core_program demoCore demoCoreBuilt someActs demoCore_simulable demoCore_build
  (by decide +kernel) [(0, demoWeights), (1, demoWeights)] (by decide +kernel) demoProg (by decide)
example : ((((Core.new demoCoreBuilt).after someActs [.load 0 demoWeights]).executeAll someActs
    demoProg).2.readFromRegister 20 12).1.map (fun v => v.map BitVec.toInt)
      = .ok [2, 0, 0, 4, 5, 3, 3, 7, 5, 3, 3, 7] := by decide +kernel

end Ramwich
