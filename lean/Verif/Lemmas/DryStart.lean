import Verif.Lemmas.DryRun

/-! # From the check to a complete run -/
namespace Ramwich

open Pipeline (upd)
open Spec

variable {cfg : SysCfg} {cc : Config} {p : CoreParams}

theorem dry_run (hi : Instant cfg) (hpp : ParamsOf cc p) (he : Electrical cc.mvmuConfig) {lat dlat : Nat}
    (hlat : Latencies cc.mvmuConfig lat dlat) {size : Nat} {mask0 : Nat → Nat} (ms : List DryMove) :
    ∀ {d d' : List DryTile} {s : Sys}, SysRel cfg cc p size mask0 d s → dryRun size d ms = some d' →
      ∃ s', Reaches cfg s s' ∧ SysRel cfg cc p size mask0 d' s' := by
  induction ms with
  | nil =>
    intro d d' s h hr
    injection hr with hr
    subst hr
    exact ⟨s, .refl _ _, h⟩
  | cons m ms ih =>
    intro d d' s h hr
    simp only [dryRun] at hr
    cases hm : dryStep size d m with
    | none => rw [hm] at hr; cases hr
    | some d1 =>
      rw [hm] at hr
      have h1 : ∃ s1, Reaches cfg s s1 ∧ SysRel cfg cc p size mask0 d1 s1 := by
        cases m with
        | tile t => exact dry_tile hi h hm
        | core t k =>
          simp only [dryStep] at hm
          cases hx : d[t]? with
          | none => rw [hx] at hm; cases hm
          | some x =>
            rw [hx] at hm
            dsimp only at hm
            cases hc : x.coreMove size k with
            | none => rw [hc] at hm; cases hm
            | some x' =>
              rw [hc] at hm
              injection hm with hm
              rw [← hm]
              exact dry_core hi hpp he hlat h hx hc
      obtain ⟨s1, r1, k1⟩ := h1
      obtain ⟨s2, r2, k2⟩ := ih k1 hr
      exact ⟨s2, r1.trans r2, k2⟩

theorem mapM_some {α β : Type} (f : α → Option β) (l : List α) : ∀ {r : List β}, l.mapM f = some r →
    r.length = l.length ∧ ∀ (t : Nat) y, r[t]? = some y → ∃ x, l[t]? = some x ∧ f x = some y := by
  induction l with
  | nil =>
    intro r h
    simp only [List.mapM_nil, Option.pure_def, Option.some.injEq] at h
    subst h
    exact ⟨rfl, fun t y h => by simp at h⟩
  | cons a l ih =>
    intro r h
    simp only [List.mapM_cons, Option.pure_def, Option.bind_eq_bind, Option.bind_eq_some_iff, Option.some.injEq] at h
    obtain ⟨y, h1, ys, h2, rfl⟩ := h
    obtain ⟨k1, k2⟩ := ih h2
    refine ⟨by simp [k1], fun t z hz => ?_⟩
    cases t with
    | zero =>
      simp only [List.getElem?_cons_zero, Option.some.injEq] at hz
      subst hz
      exact ⟨a, rfl, h1⟩
    | succ t => exact k2 t z hz

theorem range_some {n t x : Nat} (h : (List.range n)[t]? = some x) : x = t ∧ t < n := by
  obtain ⟨h1, h2⟩ := List.getElem?_eq_some_iff.1 h
  rw [List.getElem_range] at h2
  rw [List.length_range] at h1
  exact ⟨h2.symm, h1⟩

theorem dry_start {size : Nat} {valid : Nat → Nat} {i : SysInit} (h0 : i.ok)
    (hsz : ∀ t < cfg.net.tiles, (i.mem t).size = size)
    (hv : ∀ t < cfg.net.tiles, ∀ a, (i.valid t).getD a false = (valid t).testBit a)
    (hc : ∀ t < cfg.net.tiles, ∀ k < cfg.cores, CoreOk cc (i.core t k)) {d : List DryTile}
    (hd : dryStart p cfg.net.tiles cfg.cores valid i.prog i.ops = some d) :
    SysRel cfg cc p size valid d i.start := by
  obtain ⟨h1, h2⟩ := mapM_some _ _ hd
  rw [List.length_range] at h1
  have hx : ∀ (t : Nat) x, d[t]? = some x → t < cfg.net.tiles ∧ ∃ cs, ((List.range cfg.cores).mapM fun k => p.trace [] (i.prog t k)) =
      some cs ∧ x = { valid := valid t, cores := cs, ops := i.ops t } := by
    intro t x hx
    obtain ⟨t', h3, h4⟩ := h2 t x hx
    obtain ⟨rfl, ht⟩ := range_some h3
    simp only [Option.pure_def, Option.bind_eq_bind, Option.bind_eq_some_iff, Option.some.injEq] at h4
    obtain ⟨cs, h4, rfl⟩ := h4
    exact ⟨ht, cs, h4, rfl⟩
  refine ⟨h1, rfl, ?_, ?_⟩
  · intro t x hxt
    obtain ⟨ht, cs, h3, rfl⟩ := hx t x hxt
    obtain ⟨k1, k2⟩ := mapM_some _ _ h3
    rw [List.length_range] at k1
    refine ⟨⟨rfl, rfl, rfl, rfl, rfl, rfl, rfl, rfl, hsz t ht, ?_, ?_, ?_, ?_, fun a h => h, ?_, ?_⟩, k1, ?_, rfl, rfl, ?_⟩
    · exact (h0 t).1.trans (hsz t ht)
    · exact (h0 t).2.trans (hsz t ht)
    · exact fun a _ => hv t ht a
    · intro a ha
      dsimp only at ha
      rw [← hv t ht a] at ha
      by_contra hlt
      have hlen : (i.valid t).length = size := (h0 t).2.trans (hsz t ht)
      rw [List.getD_eq_getElem?_getD, List.getElem?_eq_none (by omega)] at ha
      cases ha
    · intro x hx; cases hx
    · intro w hw; cases hw
    · intro k evs hk
      dsimp only at hk
      obtain ⟨k', j1, j2⟩ := k2 k evs hk
      obtain ⟨rfl, hkc⟩ := range_some j1
      obtain ⟨e1, σ, e2⟩ := hc t ht k' hkc
      exact .inr ⟨rfl, [], ⟨e1, σ, e2, knows_nil _ _⟩, j2⟩
    · intro h; cases h
  · have ho : outsOf d = fun _ => [] := by
      funext t
      unfold outsOf
      cases h : d[t]? with
      | none => rfl
      | some x => obtain ⟨-, cs, -, rfl⟩ := hx t x h; rfl
    have hu : upsOf d = fun _ => true := by
      funext t
      unfold upsOf
      cases h : d[t]? with
      | none => rfl
      | some x => obtain ⟨-, cs, -, rfl⟩ := hx t x h; rfl
    rw [ho, hu]
    refine ⟨rfl, fun _ => rfl, fun _ => rfl, fun _ => rfl, fun _ _ => rfl, fun _ => rfl, fun _ => rfl, ?_⟩
    intro t q hq
    cases hq

theorem dry_end {size : Nat} {valid : Nat → Nat} {i : SysInit} {d : List DryTile} {s : Sys}
    (h : SysRel cfg cc p size valid d s) (hd : dryDone d) (hv : ∀ t < cfg.net.tiles, ∀ a, (i.valid t).getD a false =
      (valid t).testBit a) :
    finished cfg s ∧ s.stuck cfg = true ∧ singleAssignment cfg i s := by
  have hx : ∀ t < cfg.net.tiles, ∃ x, d[t]? = some x ∧ TileRel cfg cc p size (valid t) x (s.tile t) ∧ x.ops = [] ∧
      x.out = [] ∧ ∀ k < cfg.cores, ((s.tile t).core k).phase = .halted := by
    intro t ht
    rw [← h.len] at ht
    have hx := List.getElem?_eq_getElem ht
    obtain ⟨d1, d2, d3⟩ := hd _ (List.mem_of_getElem? hx)
    have hT := h.tile t _ hx
    refine ⟨_, hx, hT, d1, d2, fun k hk => ?_⟩
    rw [← hT.len] at hk
    have hk' := List.getElem?_eq_getElem hk
    rcases hT.cores k _ hk' with ⟨-, e⟩ | ⟨-, K, -, e⟩
    · exact e
    · rw [d3 _ (List.mem_of_getElem? hk')] at e
      exact absurd e (trace_ne_nil p _ K)
  refine ⟨⟨h.crashed, fun t ht => ?_⟩, ?_, ?_⟩
  · obtain ⟨x, h1, h2, h3, h4, h5⟩ := hx t ht
    exact ⟨h2.phase, h2.ops.trans h3, fun k hk => .inl (h5 k hk)⟩
  · unfold Sys.stuck
    rw [List.all_eq_true]
    intro t ht
    obtain ⟨x, h1, h2, h3, h4, h5⟩ := hx t (List.mem_range.1 ht)
    have hq : s.net.queue t = [] := by
      have := h.net.queue t
      rw [outsOf_some h1, h4] at this
      exact List.map_eq_nil_iff.1 this
    have hth : s.net.thread cfg.net t = none := by
      unfold Net.thread
      split
      · rfl
      · rw [h.net.sender t]
        dsimp only
        rw [hq]
    have htk : s.net.take t = none := by
      unfold Net.take
      rw [h.net.reader t]
    have hts : s.tileStuck cfg t = true := by
      unfold Sys.tileStuck
      rw [h2.phase]
      dsimp only
      rw [h2.ops, h3]
      rfl
    rw [h2.ctrl.queue, h2.ctrl.handed, h2.ctrl.bus, hth, htk, hts]
    simp only [List.isEmpty_nil, Option.isNone_none, Bool.and_self, Bool.true_and, List.all_eq_true]
    intro k hk
    unfold CoreSt.stuck
    rw [h5 k (List.mem_range.1 hk)]
  · intro t ht w hw a ha
    obtain ⟨x, h1, h2, -⟩ := hx t ht
    obtain ⟨k1, k2, k3⟩ := h2.ctrl.writes w hw a ha
    refine ⟨fun hva => ?_, fun w' hw' ha' => by rw [k3 w' hw' ha']⟩
    rw [hv t ht a, k2] at hva
    cases hva

/-- All latencies set to 0. -/
def SysCfg.instant (cfg : SysCfg) : SysCfg :=
  { cfg with
    net := { cfg.net with nodes := 1, intraLat := some 0, interLat := some 0 }
    edramLat := 0, dataMemLat := 0, execLat := fun _ => .ok 0 }

theorem instant_ok (cfg : SysCfg) : Instant cfg.instant := ⟨rfl, rfl, fun _ => rfl, rfl, rfl, rfl⟩

theorem instant_same (cfg : SysCfg) : sameMachine cfg.instant cfg := ⟨rfl, rfl, rfl, rfl⟩

/-- An accepted program has a complete run. -/
theorem accepted_run {c : Config} (hs : Simulable c) (hb : c.build = .ok cc)
    (hp : 0 < cc.mvmuConfig.xbarSize * cc.numMvmusPerCore) (sig tanh : Int → Int) {size : Nat} {valid : Nat → Nat}
    {moves : List DryMove} {i : SysInit} (h0 : i.ok) (hsz : ∀ t < cfg.net.tiles, (i.mem t).size = size)
    (hv : ∀ t < cfg.net.tiles, ∀ a, (i.valid t).getD a false = (valid t).testBit a)
    (hc : ∀ t < cfg.net.tiles, ∀ k < cfg.cores, ∃ fl hist, i.core t k = (Core.new cc).after fl hist)
    (ha : accepted (coreParamsOf cc sig tanh) size cfg.net.tiles cfg.cores valid i.prog i.ops moves) :
    ∃ as F, i.start.run cfg.instant as = some F ∧ finished cfg.instant F ∧ atRest cfg.instant F ∧
      singleAssignment cfg.instant i F := by
  unfold accepted at ha
  cases hd : dryStart (coreParamsOf cc sig tanh) cfg.net.tiles cfg.cores valid i.prog i.ops with
  | none => rw [hd] at ha; exact ha.elim
  | some d =>
    rw [hd] at ha
    simp only [Option.bind_some] at ha
    cases hr : dryRun size d moves with
    | none => rw [hr] at ha; exact ha.elim
    | some d' =>
      rw [hr] at ha
      dsimp only at ha
      have h1 : SysRel cfg.instant cc (coreParamsOf cc sig tanh) size valid d i.start :=
        dry_start (cfg := cfg.instant) h0 hsz hv (fun t ht k hk => by
          obtain ⟨fl, hist, e⟩ := hc t ht k hk
          rw [e]
          exact coreOk_after c cc fl hs hb hp hist) hd
      obtain ⟨F, ⟨as, r⟩, k⟩ := dry_run (instant_ok cfg) ⟨rfl, rfl, rfl⟩ (electrical_of c cc hs hb)
        (latencies_of c cc hs hb) moves h1 hr
      obtain ⟨e1, e2, e3⟩ := dry_end (i := i) k ha hv
      exact ⟨as, F, r, e1, atRest_of_stuck e2, e3⟩

end Ramwich
