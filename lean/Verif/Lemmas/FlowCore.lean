import Verif.Lemmas.SysHist
import Verif.Lemmas.CoreReach
import Verif.Spec.Dataflow

/-! # The history of a core and its equations -/
namespace Ramwich

open Spec

/-- The stores of a history: address and values. -/
def storesOf (log : List CoreEv) : List (Nat × List Int) :=
  log.filterMap fun e => match e.op with
    | .store .. => some (e.addr.toNat, e.data.map BitVec.toInt)
    | _ => none

theorem read_singleton {c : Core} (fl : FloatActs) {s : CoreState} (h : CoreRefines c s) {r : Int} {a : Int} {c1 : Core}
    (hr : c.loadAddress r = (.ok a, c1)) :
    (c.params fl).read s r 1 = .ok [a] ∧ c1.config = c.config ∧ CoreRefines c1 s := by
  unfold Core.loadAddress Res.andThen at hr
  obtain ⟨h1, h2, h3, -⟩ := core_read c fl s h r 1 (by decide)
  cases hx : (c.readFromRegister r 1).1 with
  | error e => rw [hx] at hr; cases hr
  | ok v =>
    rw [hx] at hr
    rw [show ((1 : Nat) : Int) = 1 from rfl] at h1 h2 h3
    rw [hx] at h1
    have hl := core_read_ok_length c fl s h r 1 (by decide) v (by rw [show ((1 : Nat) : Int) = 1 from rfl]; exact hx)
    match v, hl with
    | [x], _ =>
      dsimp only at hr
      injection hr with hr1 hr2
      injection hr1 with hr1
      subst hr1 hr2
      exact ⟨h1.symm, h2, h3⟩

/-- A core that has executed its program, finding the words of `mem` in its loads, has done what `flow` says. -/
theorem flow_of_ran {cfg : Config} (fl : FloatActs) (he : Electrical cfg.mvmuConfig) (lat dlat : Nat)
    (hlat : Latencies cfg.mvmuConfig lat dlat) (noise : Nat → Nat → Nat → Noise) (mem : Nat → Int)
    (c0 : Core) (prog0 : List CoreOp) (log : List CoreEv) :
    ∀ (l0 : List CoreEv) (c : Core) (prog : List CoreOp) (s : CoreState) (cF : Core),
    c.config = cfg → CoreRefines c s → coreRan fl noise 0 c0 prog0 l0 c prog →
    coreRan fl noise l0.length c prog log cF [] → (∀ op ∈ upToHlt prog, CoreOp.positive op) →
    (∀ e ∈ log, ∀ dest read w v, e.op = .load dest read w v →
      e.data.map BitVec.toInt = wordsAt mem e.addr.toNat (w * v).toNat) →
    (∀ l1 e l2 dest read w v, l0 ++ log = l1 ++ e :: l2 → e.op = .load dest read w v → ∀ cv rest c1,
      coreRan fl noise 0 c0 prog0 l1 cv rest → cv.loadAddress read = (.ok e.addr, c1) →
      (c1.loadFinish dest e.data).1 = .ok ()) →
    ∃ s', (c.params fl).flow mem (fun n => errorsOf (noise n)) l0.length s prog = .ok (s', storesOf log) ∧
      cF.config = cfg ∧ CoreRefines cF s' := by
  induction log with
  | nil =>
    intro l0 c prog s cF hc hr _ h _ _ _
    obtain ⟨rfl, rfl⟩ := h
    exact ⟨s, rfl, hc, hr⟩
  | cons e log ih =>
    intro l0 c prog s cF hc hr h0 h hpos hdata hok
    obtain ⟨rest, rfl, hf, hrest⟩ := h
    have hsnoc := coreRan_snoc l0 0 c0 prog0 c e rest h0 (by rw [Nat.zero_add]; exact hf)
    have hlen : (l0 ++ [e]).length = l0.length + 1 := by simp
    have hmine := hpos e.op (by unfold upToHlt; split <;> simp)
    have next : ∀ s1, e.after.config = cfg → CoreRefines e.after s1 → e.op ≠ .hlt →
        ∃ s', (e.after.params fl).flow mem (fun n => errorsOf (noise n)) (l0.length + 1) s1 rest
          = .ok (s', storesOf log) ∧ cF.config = cfg ∧ CoreRefines cF s' := by
      intro s1 h1 h2 hne
      rw [if_neg hne] at hsnoc hrest
      have := ih (l0 ++ [e]) e.after rest s1 cF h1 h2 hsnoc (by rw [hlen]; exact hrest) (by
        intro op hop
        refine hpos op ?_
        unfold upToHlt
        rw [if_neg (by cases ho : e.op <;> simp [isHlt]; exact hne ho)]
        exact List.mem_cons_of_mem _ hop)
        (fun e' he' => hdata e' (List.mem_cons_of_mem _ he'))
        (fun l1 e' l2 dest read w v hl => hok l1 e' l2 dest read w v (by rw [← hl]; simp))
      rw [hlen] at this
      exact this
    have exec : ∀ (hw : CoreOp.wellFormed e.op), e.op ≠ .hlt →
        (c.execute fl (noise l0.length) e.op = (.ok (), e.after)) →
        ∃ s1, (c.params fl).exec (errorsOf (noise l0.length)) s e.op = .ok s1 ∧
          ∃ s', (c.params fl).flow mem (fun n => errorsOf (noise n)) (l0.length + 1) s1 rest
            = .ok (s', storesOf log) ∧ cF.config = cfg ∧ CoreRefines cF s' := by
      intro hw hne hx
      have hag := core_execute c fl s hr (by rw [hc]; exact he) lat dlat (by rw [hc]; exact hlat)
        (errorsOf (noise l0.length)) e.op hw
      rw [show noiseOf (errorsOf (noise l0.length)) = noise l0.length from rfl, hx] at hag
      cases hspec : (c.params fl).exec (errorsOf (noise l0.length)) s e.op with
      | error err => rw [hspec] at hag; cases hag
      | ok s1 =>
        rw [hspec] at hag
        obtain ⟨-, g2, g3⟩ := hag
        dsimp only at g2 g3
        refine ⟨s1, rfl, ?_⟩
        have := next s1 (g2.trans hc) g3 hne
        rw [params_config c e.after fl g2] at this
        exact this
    have hstores : storesOf (e :: log) = (match e.op with
        | .store .. => [(e.addr.toNat, e.data.map BitVec.toInt)]
        | _ => []) ++ storesOf log := by
      unfold storesOf
      rw [List.filterMap_cons]
      cases e.op <;> rfl
    rw [hstores]
    obtain ⟨op, addr, data, after⟩ := e
    dsimp only at *
    unfold CoreEv.follows at hf
    cases op with
    | hlt =>
      rw [if_pos rfl] at hrest
      cases log with
      | cons e' log => obtain ⟨r, hr, -⟩ := hrest; cases hr
      | nil =>
        obtain ⟨rfl, -⟩ := hrest
        obtain ⟨h1, -⟩ := hf
        injection h1 with _ h1
        dsimp only at h1
        subst h1
        exact ⟨s, rfl, hc, hr⟩
    | load dest read w v =>
      obtain ⟨c1, h1, h2⟩ := hf
      dsimp only at h1 h2
      obtain ⟨g1, g2, g3⟩ := read_singleton fl hr h1
      have hfin := hok l0 ⟨.load dest read w v, addr, data, after⟩ log dest read w v rfl rfl c _ c1 h0 h1
      dsimp only at hfin
      have hd := hdata _ (List.mem_cons_self ..) dest read w v rfl
      dsimp only at hd
      have hwv : 0 < w * v := Int.mul_pos hmine.1 hmine.2
      have hne : data ≠ [] := by
        rintro rfl
        have := congrArg List.length hd
        simp [wordsAt] at this
        omega
      have hag := (core_write c1 fl s g3 dest data hne).1
      unfold Core.loadFinish at hfin h2
      rw [params_config c c1 fl g2] at hag
      unfold CoreParams.flow
      rw [g1]
      show ∃ s', ((c.params fl).write s dest (wordsAt mem addr.toNat (w * v).toNat) >>= _) = _ ∧ _
      rw [← hd]
      cases hspec : (c.params fl).write s dest (data.map BitVec.toInt) with
      | error err =>
        rw [hspec] at hag
        rw [show (c1.writeToRegister dest data).1 = .error err from hag] at hfin
        cases hfin
      | ok s1 =>
        rw [hspec] at hag
        obtain ⟨-, g4, g5⟩ := hag
        rw [← h2] at g4 g5
        have := next s1 (g4.trans (g2.trans hc)) g5 (by simp)
        rw [params_config c after fl (g4.trans g2)] at this
        exact this
    | store dest read w v =>
      unfold Core.storeRequest Res.andThen at hf
      dsimp only at hf
      cases ha : (c.loadAddress dest) with
      | mk ra c1 =>
      rw [ha] at hf
      cases ra with
      | error err => cases hf
      | ok a =>
      dsimp only at hf
      obtain ⟨g1, g2, g3⟩ := read_singleton fl hr ha
      have hwv : 0 < w * v := Int.mul_pos hmine.1 hmine.2
      obtain ⟨k1, k2, k3, -⟩ := core_read c1 fl s g3 read (w * v).toNat (by omega)
      rw [Int.toNat_of_nonneg hwv.le] at k1 k2 k3
      cases hv : (c1.readFromRegister read (w * v)).1 with
      | error err => rw [hv] at hf; cases hf
      | ok x =>
      rw [hv] at hf k1
      dsimp only at hf
      rw [if_neg (by have := hmine.1; have := hmine.2; omega)] at hf
      injection hf with hf1 hf2
      injection hf1 with hf1
      injection hf1 with hf1 hf3
      subst hf1 hf2 hf3
      rw [params_config c c1 fl g2] at k1
      unfold CoreParams.flow
      obtain ⟨s', n1, n2⟩ := next s (k2.trans (g2.trans hc)) k3 (by simp)
      rw [params_config c _ fl (k2.trans g2)] at n1
      refine ⟨s', ?_, n2⟩
      rw [g1]
      show ((c.params fl).read s read (w * v).toNat >>= _) = _
      rw [← k1]
      show ((c.params fl).flow mem _ (l0.length + 1) s rest >>= _) = _
      rw [n1]
      rfl
    | set dest imm vec =>
      obtain ⟨s1, h1, s', h2, h3⟩ := exec hmine (by simp) hf.1
      refine ⟨s', ?_, h3⟩
      unfold CoreParams.flow
      rw [h1]
      exact h2
    | copy dest read vec =>
      obtain ⟨s1, h1, s', h2, h3⟩ := exec hmine (by simp) hf.1
      refine ⟨s', ?_, h3⟩
      unfold CoreParams.flow
      rw [h1]
      exact h2
    | vfu o dest r1 r2 vec =>
      obtain ⟨s1, h1, s', h2, h3⟩ := exec hmine (by simp) hf.1
      refine ⟨s', ?_, h3⟩
      unfold CoreParams.flow
      rw [h1]
      exact h2
    | mvm xs =>
      obtain ⟨s1, h1, s', h2, h3⟩ := exec hmine (by simp) hf.1
      refine ⟨s', ?_, h3⟩
      unfold CoreParams.flow
      rw [h1]
      exact h2

end Ramwich
