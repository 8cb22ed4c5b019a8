import Verif.Spec.StaticCheck
import Verif.Lemmas.CoreReach

/-! # The check of a core program is sound -/
namespace Ramwich

open Spec

/-- The registers of `K` have the contents that `K` says. -/
def Knows (p : CoreParams) (K : Known) (σ : CoreState) : Prop :=
  ∀ e ∈ K, inside e.1 1 (2 * (p.num * p.unit.size)) p.cacheSize ∧
    σ.cache (e.1 - 2 * (p.num * p.unit.size)).toNat = e.2

theorem knows_nil (p : CoreParams) (σ : CoreState) : Knows p [] σ := fun e h => by cases h

theorem forget_mem {K : Known} {start len : Int} {e : Int × Int} (h : e ∈ K.forget start len) :
    e ∈ K ∧ (e.1 < start ∨ start + len ≤ e.1) := by
  unfold Known.forget at h
  obtain ⟨h1, h2⟩ := List.mem_filter.1 h
  exact ⟨h1, of_decide_eq_true h2⟩

theorem place_cache_inside {p : CoreParams} {start : Int} {len a : Nat} (h : p.place start len = some (.cache a)) :
    inside start len (2 * (p.num * p.unit.size)) p.cacheSize ∧ a = (start - 2 * (p.num * p.unit.size)).toNat := by
  unfold CoreParams.place at h
  split at h
  · rename_i h1
    injection h with h
    injection h with h
    exact ⟨h1, h.symm⟩
  · split at h
    · cases h
    · split at h <;> cases h

/-- Writing a window that is allowed. -/
theorem write_allowed {p : CoreParams} {dest len : Int} (h : p.canWrite dest len = true) (σ : CoreState) {v : List Int}
    (hv : (v.length : Int) = len) : ∃ σ', p.write σ dest v = .ok σ' ∧
      (∀ K : Known, Knows p K σ → Knows p (K.forget dest len) σ') ∧
      (inside dest v.length (2 * (p.num * p.unit.size)) p.cacheSize → ∀ i < v.length,
        σ'.cache (dest + i - 2 * (p.num * p.unit.size)).toNat = wrap32 (v.getD i 0)) ∧
      (¬inside dest v.length (2 * (p.num * p.unit.size)) p.cacheSize → σ'.cache = σ.cache) := by
  unfold CoreParams.canWrite at h
  rw [Bool.and_eq_true] at h
  obtain ⟨h0, h1⟩ := h
  have hlen : len.toNat = v.length := by omega
  rw [hlen] at h1
  unfold CoreParams.write
  cases hp : p.place dest v.length with
  | none => rw [hp] at h1; cases h1
  | some q =>
    cases q with
    | output m a => rw [hp] at h1; cases h1
    | cache a =>
      obtain ⟨hin, ha⟩ := place_cache_inside hp
      refine ⟨_, rfl, ?_, ?_, ?_⟩
      · intro K hK e he
        obtain ⟨e1, e2⟩ := forget_mem he
        obtain ⟨k1, k2⟩ := hK e e1
        refine ⟨k1, ?_⟩
        show setBlock σ.cache a v _ = e.2
        unfold setBlock
        rw [if_neg, k2]
        unfold inside at hin k1
        omega
      · intro _ i hi
        show setBlock σ.cache a v _ = _
        unfold setBlock
        unfold inside at hin
        rw [if_pos (by omega)]
        congr 2
        omega
      · intro hno; exact absurd hin hno
    | input m a =>
      refine ⟨_, rfl, ?_, ?_, fun _ => rfl⟩
      · intro K hK e he
        exact hK e (forget_mem he).1
      · intro hin
        rw [place_cache p dest v.length hin] at hp
        cases hp

/-- Reading a window that is allowed. -/
theorem read_allowed {p : CoreParams} {start len : Int} (h : p.canRead start len = true) (σ : CoreState) :
    ∃ v, p.read σ start len.toNat = .ok v ∧ (v.length : Int) = len := by
  unfold CoreParams.canRead at h
  rw [Bool.and_eq_true] at h
  obtain ⟨h0, h1⟩ := h
  have h0 : 0 < len := of_decide_eq_true h0
  unfold CoreParams.read
  cases hp : p.place start len.toNat with
  | none => rw [hp] at h1; cases h1
  | some q =>
    cases q with
    | input m a => rw [hp] at h1; cases h1
    | cache a => exact ⟨_, rfl, by simp; omega⟩
    | output m a => exact ⟨_, rfl, by simp; omega⟩

theorem lookup_mem {K : Known} {r v : Int} (h : K.lookup r = some v) : (r, v) ∈ K := by
  induction K with
  | nil => cases h
  | cons e K ih =>
    obtain ⟨a, b⟩ := e
    simp only [List.lookup_cons] at h
    split at h
    · rename_i he
      injection h with h
      have he : r = a := by simpa using he
      subst he; subst h
      exact List.mem_cons_self ..
    · exact List.mem_cons_of_mem _ (ih h)

theorem params_place {p q : CoreParams} (h1 : p.num = q.num) (h2 : p.unit.size = q.unit.size)
    (h3 : p.cacheSize = q.cacheSize) (a : Int) (n : Nat) : p.place a n = q.place a n := by
  unfold CoreParams.place
  rw [h1, h2, h3]

theorem trace_ne_nil (p : CoreParams) (ops : List CoreOp) : ∀ K, p.trace K ops ≠ some [] := by
  induction ops with
  | nil => intro K h; cases h
  | cons op ops ih =>
    intro K h
    cases op <;> simp only [CoreParams.trace] at h
    case hlt => cases h
    case load =>
      split at h
      · cases h
      · split at h
        · obtain ⟨_, _, h⟩ := Option.map_eq_some_iff.1 h; cases h
        · cases h
    case store =>
      split at h
      · cases h
      · split at h
        · obtain ⟨_, _, h⟩ := Option.map_eq_some_iff.1 h; cases h
        · cases h
    all_goals
      split at h
      · exact ih _ h
      · cases h

/-- State of a core about which `K` is known. -/
structure CoreKnown (cfg : Config) (fl : FloatActs) (K : Known) (c : Core) : Prop where
  config : c.config = cfg
  state : ∃ σ, CoreRefines c σ ∧ Knows (c.params fl) K σ

/-- The parameters are those of the configuration; activation functions do not matter. -/
structure ParamsOf (cfg : Config) (p : CoreParams) : Prop where
  num : p.num = cfg.numMvmusPerCore
  size : p.unit.size = cfg.mvmuConfig.xbarSize
  cache : p.cacheSize = cfg.coreConfig.dataMemSize

theorem ParamsOf.eqs {cfg : Config} {p : CoreParams} (h : ParamsOf cfg p) {c : Core} (hc : c.config = cfg)
    (fl : FloatActs) : p.num = (c.params fl).num ∧ p.unit.size = (c.params fl).unit.size ∧
      p.cacheSize = (c.params fl).cacheSize := by
  refine ⟨?_, ?_, ?_⟩
  · rw [h.num, ← hc]; rfl
  · rw [h.size, ← hc]; rfl
  · rw [h.cache, ← hc]; rfl

theorem canRead_eq {p q : CoreParams} (h : p.num = q.num ∧ p.unit.size = q.unit.size ∧ p.cacheSize = q.cacheSize)
    (a n : Int) : p.canRead a n = q.canRead a n := by
  unfold CoreParams.canRead; rw [params_place h.1 h.2.1 h.2.2]

theorem canWrite_eq {p q : CoreParams} (h : p.num = q.num ∧ p.unit.size = q.unit.size ∧ p.cacheSize = q.cacheSize)
    (a n : Int) : p.canWrite a n = q.canWrite a n := by
  unfold CoreParams.canWrite; rw [params_place h.1 h.2.1 h.2.2]

theorem learn_eq {p q : CoreParams} (h : p.num = q.num ∧ p.unit.size = q.unit.size ∧ p.cacheSize = q.cacheSize)
    (K : Known) (a b n : Int) : p.learn K a b n = q.learn K a b n := by
  unfold CoreParams.learn; rw [h.1, h.2.1, h.2.2]

theorem wrap32_of_fits {v : Int} (h : fits32 v) : wrap32 v = v := by
  unfold fits32 at h
  unfold wrap32
  rw [Int.bmod_eq_of_le] <;> omega

theorem mvms_cache (p : CoreParams) (xs : List Int) : ∀ (e : MvmErrors) (σ : CoreState), (∀ i ∈ xs, 0 ≤ i ∧ i < p.num) →
    ∃ σ', p.mvms e σ xs = .ok σ' ∧ σ'.cache = σ.cache := by
  induction xs with
  | nil => intro e σ _; exact ⟨σ, rfl, rfl⟩
  | cons i is ih =>
    intro e σ h
    unfold CoreParams.mvms
    rw [if_pos (h i (List.mem_cons_self ..))]
    obtain ⟨σ', h1, h2⟩ := ih { pos := fun n => e.pos (n + 1), neg := fun n => e.neg (n + 1) }
      { σ with units := fun m => if m = i.toNat then (p.unit.step (σ.units m) (.mvm (e.pos 0) (e.neg 0))).2
              else σ.units m } (fun j hj => h j (List.mem_cons_of_mem _ hj))
    exact ⟨σ', h1, h2⟩

theorem noiseOf_surj (noise : Nat → Nat → Noise) : ∃ e, noiseOf e = noise :=
  ⟨{ pos := fun n i => (noise n i).pos, neg := fun n i => (noise n i).neg }, rfl⟩

theorem agree_ok {c : Core} {r : Res Core Unit} {x : Except PyErr CoreState} {σ : CoreState} (h : CoreAgree c r x)
    (hx : x = .ok σ) : ∃ c', r = (.ok (), c') ∧ c'.config = c.config ∧ CoreRefines c' σ := by
  subst hx
  obtain ⟨h1, h2, h3⟩ := h
  exact ⟨r.2, by rw [← h1], h2, h3⟩

/-- The operations between two accesses to the DRAM. -/
theorem trace_plain {cfg : Config} {p : CoreParams} (hp : ParamsOf cfg p) (he : Electrical cfg.mvmuConfig) {lat dlat : Nat}
    (hlat : Latencies cfg.mvmuConfig lat dlat) {fl : FloatActs} (noise : Nat → Nat → Noise) {K : Known} {c : Core}
    (hc : CoreKnown cfg fl K c) {op : CoreOp} {ops : List CoreOp} {evs : List MemEv}
    (h : p.trace K (op :: ops) = some evs) (hop : match op with | .load .. | .store .. | .hlt => False | _ => True) :
    ∃ K' c', c.execute fl noise op = (.ok (), c') ∧ CoreKnown cfg fl K' c' ∧ p.trace K' ops = some evs := by
  obtain ⟨hcfg, σ, hσ, hK⟩ := hc
  have hpe := hp.eqs hcfg fl
  obtain ⟨e, rfl⟩ := noiseOf_surj noise
  have hex := fun hw => core_execute c fl σ hσ (by rw [hcfg]; exact he) lat dlat (by rw [hcfg]; exact hlat) e op hw
  have finish : ∀ (K' : Known) (σ' : CoreState), (c.params fl).exec e σ op = .ok σ' → CoreOp.wellFormed op →
      Knows (c.params fl) K' σ' → p.trace K' ops = some evs →
      ∃ K' c', c.execute fl (noiseOf e) op = (.ok (), c') ∧ CoreKnown cfg fl K' c' ∧ p.trace K' ops = some evs := by
    intro K' σ' h1 h2 h3 h4
    obtain ⟨c', k1, k2, k3⟩ := agree_ok (hex h2) h1
    refine ⟨K', c', k1, ⟨k2.trans hcfg, σ', k3, ?_⟩, h4⟩
    rw [params_config c c' fl k2]
    exact h3
  cases op with
  | load => exact hop.elim
  | store => exact hop.elim
  | hlt => exact hop.elim
  | set dest imm vec =>
    simp only [CoreParams.trace] at h
    split at h
    · rename_i hw
      obtain ⟨hw, hf⟩ := hw
      rw [canWrite_eq hpe] at hw
      have hvec : 0 < vec := by
        unfold CoreParams.canWrite at hw
        rw [Bool.and_eq_true] at hw
        exact of_decide_eq_true hw.1
      obtain ⟨σ', h1, h2, h3, h4⟩ := write_allowed hw σ (v := List.replicate vec.toNat imm) (by simp; omega)
      rw [List.length_replicate] at h3 h4
      refine finish _ σ' h1 ⟨hvec, by unfold fits32 at hf; omega, by unfold fits32 at hf; omega⟩ ?_ h
      rw [learn_eq hpe]
      unfold CoreParams.learn
      split
      · rename_i hin
        intro x hx
        rcases List.mem_append.1 hx with hx | hx
        · obtain ⟨i, hi, rfl⟩ := List.mem_map.1 hx
          have hi := List.mem_range.1 hi
          refine ⟨by unfold inside at hin ⊢; dsimp only; omega, ?_⟩
          dsimp only
          rw [h3 hin i hi, List.getD_eq_getElem?_getD, List.getElem?_replicate, if_pos hi]
          exact wrap32_of_fits hf
        · exact h2 K hK x hx
      · rename_i hin
        intro x hx
        obtain ⟨k1, k2⟩ := hK x hx
        refine ⟨k1, ?_⟩
        rw [h4 hin, k2]
    · cases h
  | copy dest read vec =>
    simp only [CoreParams.trace] at h
    split at h
    · rename_i hw
      obtain ⟨hr, hw⟩ := hw
      rw [canWrite_eq hpe] at hw
      rw [canRead_eq hpe] at hr
      obtain ⟨v, r1, r2⟩ := read_allowed hr σ
      obtain ⟨σ', h1, h2, -, -⟩ := write_allowed hw σ r2
      have hvec : 0 < vec := by
        unfold CoreParams.canWrite at hw
        rw [Bool.and_eq_true] at hw
        exact of_decide_eq_true hw.1
      refine finish _ σ' ?_ hvec (h2 K hK) h
      show ((c.params fl).read σ read vec.toNat >>= fun v => (c.params fl).write σ dest v) = _
      rw [r1]
      exact h1
    · cases h
  | vfu o dest r1 r2 vec =>
    simp only [CoreParams.trace] at h
    split at h
    · rename_i hw
      obtain ⟨hr, hw⟩ := hw
      rw [canWrite_eq hpe] at hw
      unfold CoreParams.vfuReads at hr
      rw [Bool.and_eq_true, Bool.and_eq_true] at hr
      obtain ⟨⟨hr1, hr2⟩, hd⟩ := hr
      have hd : o ≠ .div := of_decide_eq_true hd
      rw [canRead_eq hpe] at hr1
      obtain ⟨a, a1, a2⟩ := read_allowed hr1 σ
      have hvec : 0 < vec := by
        unfold CoreParams.canWrite at hw
        rw [Bool.and_eq_true] at hw
        exact of_decide_eq_true hw.1
      have key : ∃ b v, (match r2 with
          | none => (Except.ok none : Except PyErr (Option (List Int)))
          | some r2 => ((c.params fl).read σ r2 vec.toNat).map some) = .ok b ∧
          vfuVector (c.params fl).sig (c.params fl).tanh (c.params fl).actFrac (c.params fl).actWidth o a b = .ok v ∧
          (v.length : Int) = vec := by
        cases r2 with
        | none =>
          dsimp only at hr2
          refine ⟨none, _, rfl, by unfold vfuVector; rw [if_pos hr2], by simpa using a2⟩
        | some r2 =>
          dsimp only at hr2 ⊢
          rw [canRead_eq hpe] at hr2
          obtain ⟨b, b1, b2⟩ := read_allowed hr2 σ
          rw [b1]
          refine ⟨some b, ?_⟩
          unfold vfuVector
          by_cases hu : vfuIsUnary o = true
          · exact ⟨_, rfl, by rw [if_pos hu], by simpa using a2⟩
          · refine ⟨_, rfl, by rw [if_neg hu]; dsimp only; rw [if_neg (fun h => hd h.1)], ?_⟩
            simp
            omega
      obtain ⟨b, v, k1, k2, k3⟩ := key
      obtain ⟨σ', h1, h2, -, -⟩ := write_allowed hw σ k3
      refine finish _ σ' ?_ hvec (h2 K hK) h
      simp only [CoreParams.exec]
      rw [a1]
      cases r2 with
      | none =>
        injection k1 with k1
        subst k1
        simp only [bind, Except.bind]
        rw [k2]
        exact h1
      | some r2 =>
        dsimp only at k1
        simp only [bind, Except.bind]
        rw [k1]
        simp only
        rw [k2]
        exact h1
    · cases h
  | mvm xbar =>
    simp only [CoreParams.trace] at h
    split at h
    · rename_i hx
      rw [hpe.1] at hx
      obtain ⟨σ', h1, h2⟩ := mvms_cache (c.params fl) xbar e σ hx
      refine finish K σ' h1 trivial ?_ h
      intro x hx
      rw [h2]
      exact hK x hx
    · cases h

theorem readFromRegister_known {cfg : Config} {fl : FloatActs} {K : Known} {c : Core} (hc : CoreKnown cfg fl K c)
    {r a : Int} (h : K.lookup r = some a) :
    ∃ c1, c.loadAddress r = (.ok a, c1) ∧ CoreKnown cfg fl K c1 := by
  obtain ⟨hcfg, σ, hσ, hK⟩ := hc
  obtain ⟨k1, k2⟩ := hK _ (lookup_mem h)
  dsimp only at k1 k2
  obtain ⟨h1, h2, h3, -⟩ := core_read c fl σ hσ r 1 (by omega)
  have hpl : (c.params fl).place r 1 = _ := place_cache _ r 1 k1
  unfold CoreParams.read at h1
  rw [hpl] at h1
  simp only [List.range_one, List.map_cons, List.map_nil, Nat.add_zero] at h1
  cases hr : (c.readFromRegister r 1) with
  | mk res c1 =>
    simp only [Nat.cast_one, hr] at h1 h2 h3
    cases res with
    | error e => cases h1
    | ok v =>
      simp only [Except.map] at h1
      injection h1 with h1
      cases v with
      | nil => cases h1
      | cons x v =>
        simp only [List.map_cons, List.cons.injEq] at h1
        refine ⟨c1, ?_, ⟨h2.trans hcfg, σ, h3, ?_⟩⟩
        · unfold Core.loadAddress Res.andThen
          simp only [hr]
          rw [h1.1, k2]
        · rw [params_config c c1 fl h2]; exact hK

/-- A load of a checked program. -/
theorem trace_load {cfg : Config} {p : CoreParams} (hp : ParamsOf cfg p) {fl : FloatActs} {K : Known} {c : Core}
    (hc : CoreKnown cfg fl K c) {dest read width vec : Int} {ops : List CoreOp} {evs : List MemEv}
    (h : p.trace K (.load dest read width vec :: ops) = some evs) :
    ∃ (a n : Nat) (c1 : Core) (K' : Known) (rest : List MemEv), evs = .read a n :: rest ∧ (n : Int) = width * vec ∧
      0 < width ∧ 0 < vec ∧ c.loadAddress read = (.ok (a : Int), c1) ∧ p.trace K' ops = some rest ∧
      ∀ data : List I32, data.length = n → ∃ c2, c1.loadFinish dest data = (.ok (), c2) ∧ CoreKnown cfg fl K' c2 := by
  simp only [CoreParams.trace] at h
  split at h
  · cases h
  rename_i a hl
  split at h
  · rename_i hx
    obtain ⟨ha, hw, hv, hx⟩ := hx
    obtain ⟨rest, h1, h2⟩ := Option.map_eq_some_iff.1 h
    obtain ⟨c1, k1, k2⟩ := readFromRegister_known hc hl
    have hpos : 0 < width * vec := Int.mul_pos hw hv
    refine ⟨a.toNat, (width * vec).toNat, c1, _, rest, h2.symm, by omega, hw, hv, ?_, h1, ?_⟩
    · rw [k1, Int.toNat_of_nonneg ha]
    · intro data hd
      obtain ⟨hcfg, σ, hσ, hK⟩ := k2
      have hpe := hp.eqs hcfg fl
      rw [canWrite_eq hpe] at hx
      obtain ⟨σ', w1, w2, -, -⟩ := write_allowed hx σ (v := data.map BitVec.toInt) (by rw [List.length_map]; omega)
      obtain ⟨c2, j1, j2, j3⟩ := agree_ok (core_write c1 fl σ hσ dest data (by
        rintro rfl; simp at hd; omega)).1 w1
      refine ⟨c2, j1, j2.trans hcfg, σ', j3, ?_⟩
      rw [params_config c1 c2 fl j2]
      exact w2 K hK
  · cases h

/-- A store of a checked program. -/
theorem trace_store {cfg : Config} {p : CoreParams} (hp : ParamsOf cfg p) {fl : FloatActs} {K : Known} {c : Core}
    (hc : CoreKnown cfg fl K c) {dest read width vec : Int} {ops : List CoreOp} {evs : List MemEv}
    (h : p.trace K (.store dest read width vec :: ops) = some evs) :
    ∃ (a n : Nat) (c1 : Core) (data : List I32) (rest : List MemEv), evs = .write a n :: rest ∧ (n : Int) = width * vec ∧
      0 < width ∧ 0 < vec ∧ c.storeRequest dest read width vec = (.ok ((a : Int), data), c1) ∧ data.length = n ∧
      CoreKnown cfg fl K c1 ∧ p.trace K ops = some rest := by
  simp only [CoreParams.trace] at h
  split at h
  · cases h
  rename_i a hl
  split at h
  · rename_i hx
    obtain ⟨ha, hw, hv, hx⟩ := hx
    obtain ⟨rest, h1, h2⟩ := Option.map_eq_some_iff.1 h
    obtain ⟨c1, k1, hcfg, σ, hσ, hK⟩ := readFromRegister_known hc hl
    have hpos : 0 < width * vec := Int.mul_pos hw hv
    have hpe := hp.eqs hcfg fl
    rw [canRead_eq hpe] at hx
    obtain ⟨v, r1, r2⟩ := read_allowed hx σ
    obtain ⟨j1, j2, j3, -⟩ := core_read c1 fl σ hσ read (width * vec).toNat (by omega)
    rw [r1] at j1
    rw [Int.toNat_of_nonneg hpos.le] at j1 j2 j3
    cases hr : c1.readFromRegister read (width * vec) with
    | mk res c2 =>
      rw [hr] at j1 j2 j3
      dsimp only at j1 j2 j3
      cases res with
      | error e => cases j1
      | ok data =>
        simp only [Except.map] at j1
        injection j1 with j1
        refine ⟨a.toNat, (width * vec).toNat, c2, data, rest, h2.symm, by omega, hw, hv, ?_, ?_,
          ⟨j2.trans hcfg, σ, j3, ?_⟩, h1⟩
        · unfold Core.storeRequest Res.andThen
          rw [k1]
          dsimp only
          rw [hr]
          dsimp only
          rw [if_neg (by omega), Int.toNat_of_nonneg ha]
        · rw [← j1, List.length_map] at r2; omega
        · rw [params_config c1 c2 fl j2]; exact hK
  · cases h

end Ramwich
