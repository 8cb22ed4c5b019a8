import Verif.Lemmas.TimedSysAbs

/-! # When a node with pipelines comes to rest -/
namespace Ramwich

open Pipeline

/-- Stage `i` of a pipeline that cannot move, if it has accepted no hlt and the next buffer is empty. -/
theorem stage_empty {α : Type} {hlt : α → Bool} {n : Nat} {prog : List α} {s : State α} (h : Inv hlt n prog s)
    (hst : ∀ t, ¬ Step hlt n s t) {i : Nat} (hi : i < n) (hb : i + 1 < n → s.buf (i + 1) = [])
    (hh : ∀ op ∈ s.accepted i, hlt op = false) : s.ctl i = .idle ∧ s.buf i = [] := by
  have hc : s.ctl i = .idle := by
    cases hc : s.ctl i with
    | idle => rfl
    | got op => exact absurd (Step.start s i hi op hc) (hst _)
    | busy op => exact absurd (Step.finish s i hi op hc) (hst _)
    | putting op => exact absurd (Step.putIn s i hi op hc (by rw [hb (h.last i op hc)]; exact Nat.zero_lt_one)) (hst _)
    | after op =>
      cases ho : hlt op with
      | true => exact absurd (Step.stop s i hi op hc ho) (hst _)
      | false => exact absurd (Step.again s i hi op hc ho) (hst _)
    | stopped =>
      obtain ⟨pre, op, h1, h2, -⟩ := h.stop i hi hc
      rw [hh op (by rw [h1]; simp)] at h2
      cases h2
  refine ⟨hc, ?_⟩
  cases hb' : s.buf i with
  | nil => rfl
  | cons op rest => exact absurd (Step.take s i hi op rest hc hb') (hst _)

/-- A pipeline with three stages that cannot move and has executed no hlt has executed its whole program. -/
theorem stuck_all {α : Type} {hlt : α → Bool} {prog : List α} {s : State α} (h : Inv hlt 3 prog s)
    (hst : ∀ t, ¬ Step hlt 3 s t) (hh : ∀ op ∈ s.accepted 2, hlt op = false) :
    s.accepted 2 = prog := by
  obtain ⟨c2, b2⟩ := stage_empty h hst (i := 2) (by omega) (by omega) hh
  have hc1 : s.ctl 1 ≠ .idle → ∃ op, s.ctl 1 = .stopped ∧ s.accepted 1 = s.accepted 2 ∧ op ∈ s.accepted 1 ∧ hlt op = true := by
    intro hne
    cases hc : s.ctl 1 with
    | idle => exact absurd hc hne
    | got op => exact absurd (Step.start s 1 (by omega) op hc) (hst _)
    | busy op => exact absurd (Step.finish s 1 (by omega) op hc) (hst _)
    | putting op => exact absurd (Step.putIn s 1 (by omega) op hc (by rw [b2]; exact Nat.zero_lt_one)) (hst _)
    | after op =>
      cases ho : hlt op with
      | true => exact absurd (Step.stop s 1 (by omega) op hc ho) (hst _)
      | false => exact absurd (Step.again s 1 (by omega) op hc ho) (hst _)
    | stopped =>
      obtain ⟨pre, op, h1, h2, -⟩ := h.stop 1 (by omega) hc
      have := h.link 1 (by omega)
      rw [c2, b2, hc] at this
      exact ⟨op, rfl, by simpa [Ctl.taken, Ctl.held] using this, by rw [h1]; simp, h2⟩
  have c1 : s.ctl 1 = .idle := by
    by_contra hne
    obtain ⟨op, -, h2, h3, h4⟩ := hc1 hne
    rw [hh op (h2 ▸ h3)] at h4
    cases h4
  have l1 := h.link 1 (by omega)
  rw [c2, b2, c1] at l1
  have l1 : s.accepted 1 = s.accepted 2 := by simpa [Ctl.taken, Ctl.held] using l1
  obtain ⟨-, b1⟩ := stage_empty h hst (i := 1) (by omega) (fun _ => b2) (by rw [l1]; exact hh)
  have c0 : s.ctl 0 = .idle := by
    cases hc : s.ctl 0 with
    | idle => rfl
    | got op => exact absurd (Step.start s 0 (by omega) op hc) (hst _)
    | busy op => exact absurd (Step.finish s 0 (by omega) op hc) (hst _)
    | putting op => exact absurd (Step.putIn s 0 (by omega) op hc (by rw [b1]; exact Nat.zero_lt_one)) (hst _)
    | after op =>
      cases ho : hlt op with
      | true => exact absurd (Step.stop s 0 (by omega) op hc ho) (hst _)
      | false => exact absurd (Step.again s 0 (by omega) op hc ho) (hst _)
    | stopped =>
      obtain ⟨pre, op, h1, h2, -⟩ := h.stop 0 (by omega) hc
      have l0 := h.link 0 (by omega)
      rw [c1, b1, hc] at l0
      have l0 : s.accepted 0 = s.accepted 1 := by simpa [Ctl.taken, Ctl.held] using l0
      rw [hh op (by rw [← l1, ← l0, h1]; simp)] at h2
      cases h2
  have l0 := h.link 0 (by omega)
  rw [c1, b1, c0] at l0
  have l0 : s.accepted 0 = s.accepted 1 := by simpa [Ctl.taken, Ctl.held] using l0
  obtain ⟨-, b0⟩ := stage_empty h hst (i := 0) (by omega) (fun _ => b1) (by rw [l0, l1]; exact hh)
  have f0 : s.feed = [] := by
    cases hf : s.feed with
    | nil => rfl
    | cons op rest => exact absurd (Step.feedIn s op rest hf (by rw [b0]; exact Nat.zero_lt_one)) (hst _)
  have hp := h.feed
  rw [c0, b0, f0] at hp
  rw [← l1, ← l0]
  simpa [Ctl.taken] using hp.symm

/-- A pipeline with three stages that cannot move and has executed a hlt has signalled completion. -/
theorem stuck_done {α : Type} {hlt : α → Bool} {prog : List α} {s : State α} (h : Inv hlt 3 prog s)
    (hst : ∀ t, ¬ Step hlt 3 s t) (hh : ∃ op ∈ s.accepted 2, hlt op = true) : s.done = true := by
  rcases stuck_cases (by omega) h hst with hd | ⟨i, hi, -, hc, -, -⟩
  · exact hd
  · obtain ⟨op, h1, h2⟩ := hh
    have : op ∈ s.accepted i := (h.prefix_le (i := i) (j := 2) (by omega) (by omega)).subset h1
    rw [h.quiet i hi (Or.inl hc) op this] at h2
    cases h2

/-- `coreStart` is always possible. -/
theorem coreStart_some (cfg : SysCfg) (s : Sys) (t k : Nat) (op : CoreOp) (rest : List CoreOp)
    (hc : (s.tile t).ctrl.crashed = none) : ∃ s', s.coreStart cfg t k op rest = some s' := by
  have simple : ∀ op : CoreOp, ∃ s',
      (match ((s.tile t).core k).core.execute cfg.fl
          (cfg.noise t k ((s.tile t).core k).log.length) op with
        | (.error e, _) => some (s.crash e)
        | (.ok (), c) =>
          match badDelay (cfg.execLat op) with
          | some e => some (s.crash e)
          | none => some (s.setCore t k {
              core := c
              prog := if op = .hlt then [] else rest
              phase := if op = .hlt then .halting else .timing
              log := ((s.tile t).core k).log ++ [⟨op, 0, [], c⟩] })) = some s' := by
    intro op
    split
    · exact ⟨_, rfl⟩
    · split <;> exact ⟨_, rfl⟩
  cases op with
  | load dest read width vec =>
    unfold Sys.coreStart
    dsimp only
    split
    · exact ⟨_, rfl⟩
    · unfold Sys.ctrlAct Ctrl.act
      simp only [hc, Option.isSome_none, Bool.false_eq_true, if_false, Option.map_some]
      exact ⟨_, rfl⟩
  | store dest read width vec =>
    unfold Sys.coreStart
    dsimp only
    split
    · exact ⟨_, rfl⟩
    · split <;> exact ⟨_, rfl⟩
  | set => exact simple _
  | copy => exact simple _
  | vfu => exact simple _
  | mvm => exact simple _
  | hlt => exact simple .hlt

/-- The execution stage can finish its operation as far as the pipeline is concerned. -/
theorem finish_some {l : StageLat} {prog : List CoreOp} {p : Timed CoreOp} (h : TInv isHlt 3 l.lat prog 0 p)
    {op : CoreOp} (hb : p.st.ctl 2 = .busy op) : ∃ p', p.finish 3 2 = some p' := by
  have hd := ((h.stage 2 (by omega)).running op hb).1
  unfold Timed.finish Timed.due
  have : p.deadline 2 = none := hd
  rw [hb, this]
  exact ⟨_, rfl⟩

section
variable {cfg : SysCfg} {l : StageLat} {i : SysInit} {s : TSys}

/-- Nothing can happen at the current time, and no `timeout` of a core is pending that the core waits for. -/
structure TSys.Stalled (cfg : SysCfg) (l : StageLat) (s : TSys) : Prop where
  acts : ∀ a, a ≠ .tick → s.act cfg l a = none
  exec : ∀ t k d op, cfg.hasCore t k = true → (s.pipe t k).st.ctl 2 = .busy op → s.due t k = some d → s.now ≤ d →
    (∃ id addr dest read width vec, ((s.sys.tile t).core k).phase = .loadWait id addr dest read width vec) ∨
    ∃ id, ((s.sys.tile t).core k).phase = .storeWait id
  stages : ∀ t k, cfg.hasCore t k = true → ∀ j, j < 2 → ∀ op, (s.pipe t k).st.ctl j ≠ .busy op

theorem TSys.still.stalled (hs : s.still cfg l) : s.Stalled cfg l :=
  ⟨hs.acts, fun t k d op hk _ hd => (by rw [hs.exec t k hk] at hd; cases hd), hs.stages⟩

theorem still_pipe (hs : s.Stalled cfg l) (hc : s.sys.crashed = none) {t k : Nat} (hk : cfg.hasCore t k = true) (a : PAct)
    (h1 : a ≠ .start 2) (h2 : a ≠ .finish 2) : (s.pipe t k).move isHlt 3 l.lat a = none := by
  have := hs.acts (.pipe t k a) (by simp)
  unfold TSys.act at this
  simp only [hc, Option.isSome_none, Bool.false_eq_true, if_false, hk, if_true] at this
  unfold TSys.pipeAct at this
  split at this
  · exact absurd rfl h1
  · exact absurd rfl h2
  · simpa using this

theorem still_exec (hs : s.Stalled cfg l) (hc : s.sys.crashed = none) {t k : Nat} (hk : cfg.hasCore t k = true)
    (hcc : (s.sys.tile t).ctrl.crashed = none) (op : CoreOp) : (s.pipe t k).st.ctl 2 ≠ .got op := by
  intro hg
  have := hs.acts (.exec t k) (by simp)
  unfold TSys.act at this
  simp only [hc, Option.isSome_none, Bool.false_eq_true, if_false, hk, if_true] at this
  unfold TSys.exec at this
  obtain ⟨s', hs'⟩ := coreStart_some cfg s.sys t k op [] hcc
  have h2 : ∃ p, (s.pipe t k).start l.lat 2 = some p := by
    unfold Timed.start
    rw [hg]
    exact ⟨_, rfl⟩
  obtain ⟨p, hp⟩ := h2
  rw [hg, hp] at this
  dsimp only at this
  rw [hs'] at this
  cases this

theorem still_no_step (hs : s.Stalled cfg l) (hc : s.sys.crashed = none) {t k : Nat} (hk : cfg.hasCore t k = true)
    (hcc : (s.sys.tile t).ctrl.crashed = none) (hb : ∀ op, (s.pipe t k).st.ctl 2 ≠ .busy op) :
    ∀ u, ¬ Step isHlt 3 (s.pipe t k).st u := by
  intro u h
  have hm := still_pipe hs hc hk
  cases h with
  | feedIn op rest h1 h2 =>
    have := hm .feedIn (by simp) (by simp)
    simp [Timed.move, Timed.feedIn, h1, h2] at this
  | take i hi op rest h1 h2 =>
    have := hm (.take i) (by simp) (by simp)
    simp [Timed.move, Timed.take, h1, h2, hi] at this
  | start i hi op h1 =>
    by_cases h2 : i = 2
    · subst h2; exact still_exec hs hc hk hcc op h1
    · have := hm (.start i) (by simpa using h2) (by simp)
      simp [Timed.move, Timed.start, h1, hi] at this
  | finish i hi op h1 =>
    by_cases h2 : i = 2
    · subst h2; exact hb op h1
    · exact hs.stages t k hk i (by omega) op h1
  | putIn i hi op h1 h2 =>
    have := hm (.putIn i) (by simp) (by simp)
    simp [Timed.move, Timed.putIn, h1, h2, hi] at this
  | again i hi op h1 h2 =>
    have := hm (.next i) (by simp) (by simp)
    simp [Timed.move, Timed.next, h1, h2, hi] at this
  | stop i hi op h1 h2 =>
    have := hm (.next i) (by simp) (by simp)
    simp [Timed.move, Timed.next, h1, h2, hi] at this
  | monitor h1 h2 =>
    have := hm .monitor (by simp) (by simp)
    simp [Timed.move, Timed.monitor, h1, h2] at this
  | signal h1 h2 =>
    have := hm .signal (by simp) (by simp)
    simp [Timed.move, Timed.signal, h1, h2] at this

theorem still_fin (hs : s.Stalled cfg l) (hc : s.sys.crashed = none) {t k : Nat} (hk : cfg.hasCore t k = true) :
    s.mid cfg t k = none ∧ s.fin cfg t k = none ∧ s.ret cfg t k = none := by
  have h1 := hs.acts (.mid t k) (by simp)
  have h2 := hs.acts (.fin t k) (by simp)
  have h3 := hs.acts (.ret t k) (by simp)
  unfold TSys.act at h1 h2 h3
  simp only [hc, Option.isSome_none, Bool.false_eq_true, if_false, hk, if_true] at h1 h2 h3
  exact ⟨h1, h2, h3⟩

/-- A core of a node at rest cannot do anything without its pipeline either. -/
theorem still_core (h : TSI cfg l i s) (hs : s.Stalled cfg l) (hc : s.sys.crashed = none) {t k : Nat}
    (hk : cfg.hasCore t k = true) (hcc : (s.sys.tile t).ctrl.crashed = none) :
    (s.plain i).coreStep cfg t k = none := by
  have ok := h.core hc t k hk
  have hp := h.tinv hk
  have hdue := fun d op => hs.exec t k d op hk
  obtain ⟨hmid, hfin, hret⟩ := still_fin hs hc hk
  have step : ((s.sys.tile t).core k).phase ≠ .ready → s.sys.coreStep cfg t k = none →
      (s.plain i).coreStep cfg t k = none := by
    intro h1 h2
    rw [plain_eq, withProg_coreStep cfg _ s.sys t k h1, h2]
    rfl
  cases hph : ((s.sys.tile t).core k).phase with
  | ready =>
    have hnb : ∀ op, (s.pipe t k).st.ctl 2 ≠ .busy op := by
      intro op ho
      have := ok.busy op ho
      rw [hph] at this
      exact running_ready this
    have hfree := ok.free hnb
    rw [hph] at hfree
    have hno : ((s.pipe t k).st.accepted 2).any isHlt = false := by
      by_contra hne
      rw [Bool.not_eq_false] at hne
      rw [if_pos hne] at hfree
      rcases hfree with h | h <;> cases h
    have hall := stuck_all hp.inv (still_no_step hs hc hk hcc hnb) fun op ho => by
      have := List.any_eq_false.1 hno op ho
      simpa using this
    unfold Sys.coreStep
    have e1 : (((s.plain i).tile t).core k).phase = .ready := hph
    have e2 : (((s.plain i).tile t).core k).prog = [] := by
      change leftOf _ _ = []
      unfold leftOf
      rw [hall]
      simp
    simp only [e1, e2]
  | timing =>
    obtain ⟨op, ho⟩ := ok.isBusy (by rw [hph]; simp) (by rw [hph]; simp) (by rw [hph]; simp)
    have := ok.busy op ho
    rw [hph] at this
    obtain ⟨-, d, -, -, h1, h2⟩ := running_timing this
    have := hdue _ op ho h1 h2
    rw [hph] at this
    simp at this
  | loadGot dest data =>
    obtain ⟨op, ho⟩ := ok.isBusy (by rw [hph]; simp) (by rw [hph]; simp) (by rw [hph]; simp)
    have := ok.busy op ho
    rw [hph] at this
    obtain ⟨_, _, _, -, _, _, -, -, -, -, -, h1, h2⟩ := running_loadGot this
    have := hdue _ op ho h1 h2
    rw [hph] at this
    simp at this
  | storeDelay addr data rows =>
    obtain ⟨op, ho⟩ := ok.isBusy (by rw [hph]; simp) (by rw [hph]; simp) (by rw [hph]; simp)
    have := ok.busy op ho
    rw [hph] at this
    obtain ⟨_, _, _, _, -, -, -, h1, h2⟩ := running_storeDelay this
    have := hdue _ op ho h1 h2
    rw [hph] at this
    simp at this
  | loadWait id addr dest read width vec =>
    refine step (by rw [hph]; simp) ?_
    unfold TSys.mid at hmid
    rw [hph] at hmid
    simpa using hmid
  | storeWait id =>
    obtain ⟨op, ho⟩ := ok.isBusy (by rw [hph]; simp) (by rw [hph]; simp) (by rw [hph]; simp)
    obtain ⟨p', hp'⟩ := finish_some hp ho
    refine step (by rw [hph]; simp) ?_
    unfold TSys.fin at hfin
    rw [hph, hp'] at hfin
    cases hcs : s.sys.coreStep cfg t k with
    | none => rfl
    | some x => rw [hcs] at hfin; cases hfin
  | halting =>
    exfalso
    by_cases hb : ∃ op, (s.pipe t k).st.ctl 2 = .busy op
    · obtain ⟨op, ho⟩ := hb
      have := ok.busy op ho
      rw [hph] at this
      obtain ⟨-, d, -, -, h1, h2⟩ := running_halting this
      have := hdue _ op ho h1 h2
      rw [hph] at this
      simp at this
    · have hnb : ∀ op, (s.pipe t k).st.ctl 2 ≠ .busy op := fun op ho => hb ⟨op, ho⟩
      have hfree := ok.free hnb
      rw [hph] at hfree
      have hany : ((s.pipe t k).st.accepted 2).any isHlt = true := by
        by_contra hne
        rw [if_neg hne] at hfree
        cases hfree
      have hd := stuck_done hp.inv (still_no_step hs hc hk hcc hnb) (List.any_eq_true.1 hany)
      unfold TSys.ret at hret
      rw [hph, hd] at hret
      simp only [if_true, Option.map_eq_none_iff] at hret
      unfold Sys.coreStep at hret
      simp only [hph] at hret
      cases hret
  | halted =>
    refine step (by rw [hph]; simp) ?_
    unfold Sys.coreStep
    simp only [hph]

/-- At rest, the node without pipelines is at rest, but for the clocks. -/
theorem still_plain (h : TSI cfg l i s) (hs : s.Stalled cfg l)
    (hal : s.sys.crashed = none → ∀ t, (s.sys.tile t).ctrl.crashed = none) (a : SysAct)
    (ha : ∀ t, a ≠ .ctrl t .tick) : (s.plain i).act cfg a = none := by
  cases hc : s.sys.crashed with
  | some e =>
    unfold Sys.act
    have : (s.plain i).crashed = some e := hc
    simp [this]
  | none =>
    by_cases hcore : ∃ t k, a = .core t k
    · obtain ⟨t, k, rfl⟩ := hcore
      unfold Sys.act
      have : (s.plain i).crashed = none := hc
      simp only [this, Option.isSome_none, Bool.false_eq_true, if_false]
      split
      · rename_i hlt
        exact still_core h hs hc (by unfold SysCfg.hasCore; simp [hlt.1, hlt.2]) (hal hc t)
      · rfl
    · rw [plain_eq, withProg_act cfg _ _ a fun t k he => hcore ⟨t, k, he⟩]
      have h1 := hs.acts (.other a) (by simp)
      unfold TSys.act at h1
      simp only [hc, Option.isSome_none, Bool.false_eq_true, if_false] at h1
      split at h1
      · exact absurd ⟨_, _, rfl⟩ hcore
      · exact absurd rfl (ha _)
      · rw [Option.map_eq_none_iff] at h1
        rw [h1]
        rfl

end

/-! ## Sums -/

theorem sum_le_total {L : List CoreOp} (g : CoreOp → Int) (f : Nat → Nat)
    (h : ∀ n op, L[n]? = some op → g op ≤ f n) : (L.map g).sum ≤ (total f L.length : Nat) := by
  induction L using List.reverseRecOn with
  | nil => simp [total]
  | append_singleton L op ih =>
    have h1 := ih fun n op' ho => h n op' (by
      rw [List.getElem?_append_left (List.getElem?_eq_some_iff.1 ho).1]
      exact ho)
    have h2 := h L.length op (by simp)
    simp only [List.map_append, List.sum_append, List.map_cons, List.map_nil, List.sum_cons, List.sum_nil,
      List.length_append, List.length_singleton, total]
    push_cast
    omega

theorem total_le_sum {L : List CoreOp} (g : CoreOp → Int) (f : Nat → Nat)
    (h : ∀ n op, L[n]? = some op → (f n : Int) ≤ g op) : (total f L.length : Nat) ≤ (L.map g).sum := by
  induction L using List.reverseRecOn with
  | nil => simp [total]
  | append_singleton L op ih =>
    have h1 := ih fun n op' ho => h n op' (by
      rw [List.getElem?_append_left (List.getElem?_eq_some_iff.1 ho).1]
      exact ho)
    have h2 := h L.length op (by simp)
    simp only [List.map_append, List.sum_append, List.map_cons, List.map_nil, List.sum_cons, List.sum_nil,
      List.length_append, List.length_singleton, total]
    push_cast
    omega

end Ramwich
