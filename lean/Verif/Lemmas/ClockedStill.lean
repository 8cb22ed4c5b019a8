import Verif.Lemmas.ClockedRest
import Verif.Lemmas.SysOneReader

/-! # The node with one clock: at rest, the node without clock is at rest -/
namespace Ramwich

open Spec Pipeline

section
variable {cfg : SysCfg} {l : StageLat} {f f' : FSys} {i : SysInit}

theorem act_core_some {a : TAct} {ts : TSys} (hc : f.ts.sys.crashed = none) (h1 : a ≠ .tick) (h2 : ∀ b, a ≠ .other b)
    (h : f.ts.act cfg l a = some ts) : ∃ f', f.act cfg l (.t a) = some f' := by
  unfold FSys.act
  rw [if_neg (by rw [hc]; simp)]
  dsimp only
  split
  · exact absurd rfl h1
  · exact absurd rfl (h2 _)
  · rw [h]; exact ⟨_, rfl⟩

theorem later_phase {n : Nat} (hl : Later f f' n) (t : Nat) : (f'.ts.sys.tile t).phase = (f.ts.sys.tile t).phase := by
  obtain ⟨m, e⟩ := hl.tile t
  rw [e]

theorem later_corePhase {n : Nat} (hl : Later f f' n) (t k : Nat) :
    ((f'.ts.sys.tile t).core k).phase = ((f.ts.sys.tile t).core k).phase := by
  obtain ⟨m, e⟩ := hl.tile t
  rw [e]

theorem later_st {n : Nat} (hl : Later f f' n) (t k : Nat) : (f'.ts.pipe t k).st = (f.ts.pipe t k).st := by
  obtain ⟨m, e⟩ := hl.pipe t k
  rw [e]

theorem later_deadline {n : Nat} (hl : Later f f' n) (t k : Nat) : (f'.ts.pipe t k).deadline = (f.ts.pipe t k).deadline := by
  obtain ⟨m, e⟩ := hl.pipe t k
  rw [e]

/-- No router waits for a `timeout`. -/
theorem rest_other (h0 : ∀ t, GoodStart (i.mem t) (i.valid t)) (h : FInv cfg l i f) (hc : f.ts.sys.crashed = none)
    (hr : clockedRest cfg l f) (b : SysAct) : f.ts.act cfg l (.other b) = none := by
  by_contra hne
  obtain ⟨ts, hts⟩ := Option.ne_none_iff_exists'.1 hne
  obtain ⟨-, hb1, hb2, sys, hsys, -⟩ := tsAct_other hts
  have hno : ∀ {g : FSys} {sys' : Sys}, g.ts.sys.crashed = none →
      (∀ a, idleAct a = false → g.act cfg l a = none) → g.ts.sys.act cfg b = some sys' → (∃ k, g.netPart cfg b = some k) → False := by
    intro g sys' hg hg' h1 h2
    obtain ⟨k, h2⟩ := h2
    obtain ⟨f', hf⟩ := other_some' (l := l) hg hb1 hb2 h1 h2
    rw [hg' _ rfl] at hf
    cases hf
  cases hk : f.netPart cfg b with
  | some k => exact hno hc (fun a ha => rest_act hr ha) hsys ⟨k, hk⟩
  | none =>
    unfold FSys.netPart at hk
    cases b with
    | core t k => exact hb1 _ _ rfl
    | ctrl t a => cases hk
    | thread t =>
      simp only [Sys.netOf, NetClock.step] at hk
      cases hs : f.ts.sys.net.sender t with
      | flying p bb =>
        obtain ⟨_, -, -, hle⟩ := (h.times.router t).flying p bb hs
        obtain ⟨f', n, hl, hn, hI, hc', hx⟩ := rest_when h0 h hc hr (d := f.clk.flight t) hle
        unfold Sys.act at hsys
        rw [if_neg (by rw [hc]; simp)] at hsys
        dsimp only at hsys
        unfold Sys.netAct at hsys
        rw [Option.map_eq_some_iff] at hsys
        obtain ⟨m, hm, -⟩ := hsys
        obtain ⟨s', hs'⟩ := netAct_act (cfg := cfg) (s := f'.ts.sys) (a := .thread t) id (by rw [hl.net]; exact hm)
        refine hno (g := f') (sys' := s') hc' hx ?_ ?_
        · unfold Sys.act
          rw [if_neg (by rw [hc']; simp)]
          exact hs'
        · unfold FSys.netPart Sys.netOf NetClock.step
          dsimp only
          rw [hl.net, hs]
          dsimp only
          rw [if_pos (by rw [hl.flight, hn])]
          exact ⟨_, rfl⟩
      | _ => rw [hs] at hk; cases hk
    | take t =>
      simp only [Sys.netOf, NetClock.step] at hk
      cases hs : f.ts.sys.net.reader t <;> rw [hs] at hk <;> cases hk
    | tile t =>
      unfold Sys.act at hsys
      rw [if_neg (by rw [hc]; simp)] at hsys
      dsimp only at hsys
      split at hsys
      swap
      · cases hsys
      rename_i ht
      have hT := h.tile hc t ht
      simp only [Sys.netOf] at hk
      unfold Sys.tileStep at hsys
      dsimp only at hsys
      cases hp : (f.ts.sys.tile t).phase with
      | adding target rows =>
        rw [hp] at hsys
        dsimp only at hsys
        have hT' := hT.time
        unfold PhaseTime at hT'
        rw [show (f.tv t).phase = _ from hp] at hT'
        obtain ⟨_, _, _, _, -, -, _, tm, _, -, -, -, -, -, n, -, -, -, had⟩ := hT'
        have had : f.clk.adds t = [tm + n * cfg.dataMemLat.toNat] := had
        obtain ⟨f', n', hl, hn, hI, hc', hx⟩ := rest_when h0 h hc hr (d := tm + n * cfg.dataMemLat.toNat)
          ((h.adds t).ge _ (by rw [had]; simp))
        unfold Sys.netAct at hsys
        rw [Option.map_eq_some_iff] at hsys
        obtain ⟨m, hm, -⟩ := hsys
        obtain ⟨s', hs'⟩ := netAct_act (cfg := cfg) (s := f'.ts.sys) (a := .added t)
          (fun s' => s'.setPhase t (.sending target rows)) (by rw [hl.net]; exact hm)
        refine hno (g := f') (sys' := s') hc' hx ?_ ?_
        · unfold Sys.act
          rw [if_neg (by rw [hc']; simp)]
          dsimp only
          rw [if_pos ht]
          unfold Sys.tileStep
          dsimp only
          rw [later_phase hl, hp]
          exact hs'
        · unfold FSys.netPart Sys.netOf
          dsimp only
          rw [later_phase hl, hp]
          unfold NetClock.step
          dsimp only
          rw [hl.adds, had]
          dsimp only
          rw [if_pos hn.symm]
          exact ⟨_, rfl⟩
      | haltRouter =>
        rw [hp] at hsys hk
        dsimp only at hsys hk
        cases hst : f.ts.sys.net.stopper t with
        | stopped => rw [hst] at hk; cases hk
        | checking =>
          rw [hst] at hsys hk
          dsimp only at hsys hk
          simp only [NetClock.step] at hk
          rw [hst] at hk
          dsimp only at hk
          split at hk
          · cases hk
          rename_i hck
          unfold Sys.netAct at hsys
          rw [Option.map_eq_some_iff] at hsys
          obtain ⟨m, hm, -⟩ := hsys
          have hq : f.ts.sys.net.queue t = [] := by
            obtain ⟨-, -, hm⟩ := net_act_cases hm
            simp only [Net.stopStep, hst] at hm
            by_contra hq
            rw [if_neg hq] at hm
            cases hm
          have hle : f.ts.now ≤ f.clk.check t := by
            rcases (h.times.halt t).check hst with h1 | h1
            · exact h1.1.ge
            · have := h1.1; omega
          obtain ⟨f', n', hl, hn, hI, hc', hx⟩ := rest_when h0 h hc hr hle
          obtain ⟨s', hs'⟩ := netAct_act (cfg := cfg) (s := f'.ts.sys) (a := .stopStep t) id (by rw [hl.net]; exact hm)
          refine hno (g := f') (sys' := s') hc' hx ?_ ?_
          · unfold Sys.act
            rw [if_neg (by rw [hc']; simp)]
            dsimp only
            rw [if_pos ht]
            unfold Sys.tileStep
            dsimp only
            rw [later_phase hl, hp]
            dsimp only
            rw [hl.net, hst]
            exact hs'
          · unfold FSys.netPart Sys.netOf
            dsimp only
            rw [later_phase hl, hp]
            dsimp only
            rw [hl.net, hst]
            unfold NetClock.step
            dsimp only
            rw [hst]
            dsimp only
            rw [if_pos (by rw [hl.check t hq, hn])]
            exact ⟨_, rfl⟩
        | emptied =>
          rw [hst] at hk; simp only [NetClock.step, hst] at hk
          split at hk <;> cases hk
        | _ => rw [hst] at hk; simp [NetClock.step, hst] at hk
      | sending target rows =>
        rw [hp] at hk
        cases rows with
        | nil => cases hk
        | cons row rows =>
          dsimp only at hk
          by_cases hd : cfg.dataMemLat < 0
          · rw [if_pos hd] at hk; cases hk
          · rw [if_neg hd] at hk; cases hk
      | recving addr source width vec got =>
        rw [hp] at hk
        dsimp only at hk
        by_cases hd : (got.length : Int) < vec
        · rw [if_pos hd] at hk; cases hk
        · rw [if_neg hd] at hk; cases hk
      | recvWait addr source width vec got =>
        rw [hp] at hk
        dsimp only at hk
        cases hrd : f.ts.sys.net.reader t <;> rw [hrd] at hk <;> cases hk
      | haltCores =>
        rw [hp] at hk
        dsimp only at hk
        by_cases hd : f.ts.sys.coresHalted cfg t = true
        · cases hst : f.ts.sys.net.stopper t <;> rw [hst] at hk <;> first | (cases hk; done) | (dsimp only at hk; rw [if_pos hd] at hk; cases hk)
        · cases hst : f.ts.sys.net.stopper t <;> rw [hst] at hk <;> first | (cases hk; done) | (dsimp only at hk; rw [if_neg hd] at hk; cases hk)
      | _ => rw [hp] at hk; cases hk

theorem rest_coreAct (hc : f.ts.sys.crashed = none)
    (hr : ∀ a, idleAct a = false → f.act cfg l a = none) {a : TAct} (h1 : a ≠ .tick) (h2 : ∀ b, a ≠ .other b) :
    f.ts.act cfg l a = none := by
  by_contra hne
  obtain ⟨ts, hts⟩ := Option.ne_none_iff_exists'.1 hne
  obtain ⟨f', hf⟩ := act_core_some hc h1 h2 hts
  rw [hr _ (by cases a <;> first | rfl | exact absurd rfl h1)] at hf
  cases hf

/-- At rest no `timeout` of a core is pending. -/
theorem rest_stalled (h0 : ∀ t, GoodStart (i.mem t) (i.valid t)) (h : FInv cfg l i f) (hc : f.ts.sys.crashed = none)
    (hr : clockedRest cfg l f) : f.ts.Stalled cfg l := by
  obtain ⟨hI, hV⟩ := h.both h0
  refine ⟨fun a ha => ?_, fun t k d op hk hb hd hle => ?_, fun t k hk j hj op hb => ?_⟩
  · by_cases ho : ∃ b, a = .other b
    · obtain ⟨b, rfl⟩ := ho
      exact rest_other h0 h hc hr b
    · exact rest_coreAct hc (fun a ha => rest_act hr ha) ha fun b e => ho ⟨b, e⟩
  · obtain ⟨f', n, hl, hn, hI', hc', hx⟩ := rest_when h0 h hc hr hle
    obtain ⟨hT', hV'⟩ := hI'.both h0
    have hcc : (f'.ts.sys.tile t).ctrl.crashed = none := (hV'.alive hc').2 t
    have hb' : (f'.ts.pipe t k).st.ctl 2 = .busy op := by rw [later_st hl]; exact hb
    obtain ⟨p', hp'⟩ := finish_some (hT'.tinv hk) hb'
    have hexp : f'.ts.expired t k = true := by unfold TSys.expired; rw [hl.due, hd, hn]; simp
    have hph := later_corePhase hl t k
    have hfin := rest_coreAct hc' hx (a := .fin t k) (by simp) (by simp)
    have hmid := rest_coreAct hc' hx (a := .mid t k) (by simp) (by simp)
    unfold TSys.act at hfin hmid
    simp only [hc', Option.isSome_none, Bool.false_eq_true, if_false, hk, if_true] at hfin hmid
    unfold TSys.fin at hfin
    unfold TSys.mid at hmid
    rw [hph] at hfin hmid
    have hrun := (hI.core hc t k hk).busy op hb
    cases hq : ((f.ts.sys.tile t).core k).phase with
    | loadWait => simp
    | storeWait => simp
    | ready => rw [hq] at hrun; exact absurd hrun running_ready
    | halted => rw [hq] at hrun; exact absurd hrun running_halted
    | timing =>
      exfalso
      rw [hq] at hfin hph
      obtain ⟨s', hs'⟩ : ∃ s', f'.ts.sys.coreStep cfg t k = some s' := by
        unfold Sys.coreStep
        simp only [hph]
        exact ⟨_, rfl⟩
      simp [hexp, hp', hs'] at hfin
    | halting =>
      exfalso
      rw [hq] at hfin
      simp [hexp, hp'] at hfin
    | loadGot dest data =>
      exfalso
      rw [hq] at hfin hph
      obtain ⟨s', hs'⟩ : ∃ s', f'.ts.sys.coreStep cfg t k = some s' := by
        unfold Sys.coreStep
        simp only [hph]
        split <;> exact ⟨_, rfl⟩
      simp [hexp, hp', hs'] at hfin
    | storeDelay addr data rows =>
      exfalso
      rw [hq] at hmid hph
      rw [if_pos hexp] at hmid
      unfold Sys.coreStep at hmid
      simp only [hph, Option.map_eq_none_iff] at hmid
      obtain ⟨s', hs'⟩ := ctrlAct_act (cfg := cfg) (s := f'.ts.sys) (t := t) (a := .submit k addr (.write data rows))
        (fun s' => s'.setCore t k { (f'.ts.sys.tile t).core k with phase := .storeWait (f'.ts.sys.tile t).ctrl.submitted.length })
        (by unfold Ctrl.act; rw [if_neg (by rw [hcc]; simp)]; rfl)
      rw [hs'] at hmid
      cases hmid
  · obtain ⟨h1, h2⟩ := ((hI.tinv hk).stage j (by omega)).running op hb
    have hlat : ∃ d, (f.ts.pipe t k).deadline j = some d := by
      rw [h1]
      unfold StageLat.lat
      rcases Nat.lt_or_ge j 1 with hj' | hj'
      · obtain rfl : j = 0 := by omega
        exact ⟨_, rfl⟩
      · obtain rfl : j = 1 := by omega
        exact ⟨_, rfl⟩
    obtain ⟨d, hd⟩ := hlat
    have hle := h2 d hd
    rw [hI.pnow t k hk] at hle
    obtain ⟨f', n, hl, hn, hI', hc', hx⟩ := rest_when h0 h hc hr hle
    obtain ⟨hT', -⟩ := hI'.both h0
    have hact := rest_coreAct hc' hx (a := .pipe t k (.finish j)) (by simp) (by simp)
    unfold TSys.act at hact
    simp only [hc', Option.isSome_none, Bool.false_eq_true, if_false, hk, if_true] at hact
    unfold TSys.pipeAct at hact
    split at hact
    · rename_i e; cases e
    · rename_i e; cases e; omega
    · simp only [Timed.move, show j < 3 by omega, if_true, Option.map_eq_none_iff] at hact
      unfold Timed.finish at hact
      rw [later_st hl, hb] at hact
      dsimp only at hact
      rw [if_pos] at hact
      · cases hact
      · unfold Timed.due
        rw [later_deadline hl, hd]
        simp [hT'.pnow t k hk, hn]

/-- At rest nothing is on the bus of a controller. -/
theorem rest_bus (h0 : ∀ t, GoodStart (i.mem t) (i.valid t)) (h : FInv cfg l i f) (hc : f.ts.sys.crashed = none)
    (hr : clockedRest cfg l f) {t : Nat} (ht : t < cfg.net.tiles) : (f.ts.sys.tile t).ctrl.bus = [] := by
  obtain ⟨hI, hV⟩ := h.both h0
  have hcc : (f.ts.sys.tile t).ctrl.crashed = none := (hV.alive hc).2 t
  have hno : ∀ {g : FSys}, g.ts.sys.crashed = none → (∀ a, idleAct a = false → g.act cfg l a = none) →
      ∀ a : CtrlAct, (a = .grant ∨ a = .complete) → (g.ts.sys.tile t).ctrl.act cfg.edramLat a = none := by
    intro g hg hx a ha
    by_contra hne
    obtain ⟨sys, hs⟩ := ctrlAct_act (s := g.ts.sys) (cfg := cfg) id (Option.isSome_iff_ne_none.2 hne)
    have h1 : g.ts.sys.act cfg (.ctrl t a) = some sys := by
      unfold Sys.act
      rw [if_neg (by rw [hg]; simp)]
      rcases ha with rfl | rfl <;> (dsimp only; rw [if_pos ht]; exact hs)
    obtain ⟨f', hf⟩ := other_some' (f := g) (l := l) hg (by simp) (by rcases ha with rfl | rfl <;> simp) h1
      (k := g.clk) rfl
    rw [hx _ rfl] at hf
    cases hf
  have hci := ctrlInv_of (h0 t) (hV.tile t).ctrl
  by_contra hne
  obtain ⟨r, rest, hb⟩ := List.exists_cons_of_ne_nil hne
  cases hdl : (f.ts.sys.tile t).ctrl.deadline with
  | none =>
    have hg := hno hc (fun a ha => rest_act hr ha) .grant (by simp)
    unfold Ctrl.act at hg
    simp only [hcc, Option.isSome_none, Bool.false_eq_true, if_false] at hg
    simp only [Ctrl.grant, hb, hdl] at hg
    split at hg <;> cases hg
  | some d =>
    obtain ⟨_, _, -, hle, -⟩ := hci.time.serving d hdl
    have hle : (f.ts.sys.tile t).ctrl.now ≤ d := hle
    rw [hI.cnow hc t ht] at hle
    obtain ⟨f', n, hl, hn, hI', hc', hx⟩ := rest_when h0 h hc hr hle
    obtain ⟨hT', hV'⟩ := hI'.both h0
    have hcm := hno hc' hx .complete (by simp)
    have hnow := hT'.cnow hc' t ht
    rw [hn] at hnow
    obtain ⟨m, e⟩ := hl.tile t
    rw [e] at hcm hnow
    have hnow : m = d := hnow
    unfold Ctrl.act at hcm
    simp only [hcc, Option.isSome_none, Bool.false_eq_true, if_false] at hcm
    unfold Ctrl.complete at hcm
    simp only [hb, hdl, hnow, ne_eq, not_true_eq_false, if_false] at hcm
    split at hcm
    · split at hcm <;> cases hcm
    · split at hcm <;> cases hcm

theorem plain_run (h0 : ∀ t, GoodStart (i.mem t) (i.valid t)) (h : FInv cfg l i f) :
    ∃ as, i.start.run cfg as = some (f.ts.plain i) := by
  obtain ⟨bs, hb⟩ := h.run
  exact (tsys_run h0 bs (tsi_start cfg l i) ⟨[], rfl⟩ hb).2

/-- If nothing can happen and nothing is on a bus, the node without clock and pipelines is as it is at rest. -/
theorem resting_of_stalled (h0 : ∀ t, GoodStart (i.mem t) (i.valid t)) (h : FInv cfg l i f) (hc : f.ts.sys.crashed = none)
    (hs : f.ts.Stalled cfg l) (hb : ∀ t, t < cfg.net.tiles → (f.ts.sys.tile t).ctrl.bus = []) :
    Resting cfg i (f.ts.plain i) := by
  obtain ⟨hI, hinv⟩ := h.both h0
  obtain ⟨as, hrun⟩ := plain_run h0 h
  have hc' : (f.ts.plain i).crashed = none := hc
  have hnone := still_plain hI hs fun hc => (hinv.alive hc).2
  have hst : ∀ a s', (f.ts.plain i).act cfg a = some s' → ∃ t, a = .ctrl t .tick := by
    intro a s' ha
    by_contra hne
    rw [hnone a fun t e => hne ⟨t, e⟩] at ha
    cases ha
  refine ⟨hinv, tileWaits_run as _ hrun, tileEnd_run as _ hrun, sentInOrder_run as _ hrun,
    addingOk_run as _ hrun hc', hc', hst, ?_⟩
  intro t ht
  have hall := hinv.tile t
  have hci := ctrlInv_of (h0 t) hall.ctrl
  have hcr := (hinv.alive hc').2 t
  have hw := tileWaits_run as _ hrun t
  have hbus : ((f.ts.plain i).tile t).ctrl.bus = [] := hb t ht
  by_cases hrn : ((f.ts.plain i).tile t).ctrl.running = true
  · apply line_of_idle
    by_contra hni
    have hal : ((f.ts.plain i).tile t).ctrl.handlerAlive = true := by
      obtain ⟨cs, hcs⟩ := hall.ctrl
      rw [← alive_run _ _ _ _ cs _ hcs]; exact hrn
    have hno : ∀ a : CtrlAct, a.internal = true → a ≠ .tick → ((f.ts.plain i).tile t).ctrl.act cfg.edramLat a = none := by
      intro a ha hne
      cases h : ((f.ts.plain i).tile t).ctrl.act cfg.edramLat a with
      | none => rfl
      | some c =>
        obtain ⟨s', hs'⟩ := act_ctrl_isSome hc' ht ha h
        obtain ⟨t', ht'⟩ := hst _ _ hs'
        injection ht' with _ h2
        exact absurd h2 hne
    rcases not_idle_cases _ hal hni with ⟨r, rest, h1, h2⟩ | ⟨r, h1⟩ | ⟨r, rest, h1, h2, h3⟩
    · have := hno .pick rfl (by simp)
      rw [ctrl_act_alive hcr] at this
      simp [Ctrl.pick, h1, h2, hal] at this
    · have := hno .dispatch rfl (by simp)
      rw [ctrl_act_alive hcr] at this
      simp only [Ctrl.dispatch, h1, hal] at this
      split at this <;> cases this
    · rw [hbus] at h3; cases h3
  · have hrn : ((f.ts.plain i).tile t).ctrl.running = false := by simpa using hrn
    have hh := hall.halting ((hw.off hrn).symm)
    refine (answered_all hci.line (answered_of_halting hall hh ?_)).1
    intro id hid
    have hsv := hall.service
    rw [hrn] at hsv
    cases hp : ((f.ts.plain i).tile t).phase <;> rw [hp] at hid hsv <;>
      first | (cases hid; done) | exact absurd (hsv rfl) (by simp)

/-- At rest, the node without clock and pipelines is as it is at rest. -/
theorem rest_resting (h0 : ∀ t, GoodStart (i.mem t) (i.valid t)) (h : FInv cfg l i f) (hc : f.ts.sys.crashed = none)
    (hr : clockedRest cfg l f) : Resting cfg i (f.ts.plain i) :=
  resting_of_stalled h0 h hc (rest_stalled h0 h hc hr) fun _ ht => rest_bus h0 h hc hr ht

/-- A state as at rest is stuck. -/
theorem stuck_of_resting (h0 : ∀ t, GoodStart (i.mem t) (i.valid t)) {s : Sys} (h : Resting cfg i s) :
    s.stuck cfg = true := by
  unfold Sys.stuck
  rw [List.all_eq_true]
  intro t ht
  rw [List.mem_range] at ht
  have hl := h.line t ht
  have hnc := (h.inv.alive h.alive).1
  have hcr := (h.inv.alive h.alive).2 t
  unfold Ctrl.line at hl
  simp only [List.append_eq_nil_iff] at hl
  have hnet : ∀ na g, s.netAct cfg na g = none → na.tile = t → s.net.act cfg.net na = none := by
    intro na g hh _
    unfold Sys.netAct at hh
    simpa using hh
  have hth : s.net.thread cfg.net t = none := by
    have := rest_none h (a := .thread t) (by simp)
    rw [act_thread_eq h.alive] at this
    have := hnet _ _ this rfl
    unfold Net.act at this
    rwa [if_neg (by rw [hnc]; simp [NetAct.tile, ht])] at this
  have htk : s.net.take t = none := by
    have := rest_none h (a := .take t) (by simp)
    rw [act_take_eq h.alive] at this
    have := hnet _ _ this rfl
    unfold Net.act at this
    rwa [if_neg (by rw [hnc]; simp [NetAct.tile, ht])] at this
  simp only [Bool.and_eq_true, List.all_eq_true, List.mem_range]
  refine ⟨⟨⟨⟨⟨⟨?_, ?_⟩, ?_⟩, ?_⟩, ?_⟩, ?_⟩, ?_⟩
  · simp [hl]
  · simpa using hl.1.2
  · simp [hl]
  · simp [hth]
  · simp [htk]
  · have hn : s.tileStep cfg t = none := by
      rw [← act_tile_eq h.alive ht]
      exact rest_none h (by simp)
    unfold Sys.tileStuck
    rcases tile_rest h0 h ht with ⟨h1, h2⟩ | ⟨_, _, _, _, _, h1, h2⟩ | ⟨_, _, _, _, _, h1, h2, h3⟩ | ⟨h1, h2⟩ | ⟨h1, p, h2⟩
    · simp [h1, h2]
    · simp [h1, h2]
    · simp [h1, h2]
    · simp [h1, h2]
    · rw [h1]
      dsimp only
      unfold Sys.tileStep at hn
      simp only [h1] at hn
      split at hn
      · obtain ⟨s', hs'⟩ := ctrlAct_act (cfg := cfg) (s := s) (t := t) (a := .stop) (fun s' => s'.logPhase t .halted .ready) (by
          unfold Ctrl.act
          rw [if_neg (by rw [hcr]; simp)]
          dsimp only [Ctrl.stop]
          split
          · rfl
          · split <;> rfl)
        rw [hs'] at hn
        cases hn
      · rename_i hne
        have := hnet _ _ hn rfl
        unfold Net.act at this
        rw [if_neg (by rw [hnc]; simp [NetAct.tile, ht])] at this
        simp only [Bool.and_eq_true, decide_eq_true_eq, Option.isNone_iff_eq_none]
        exact ⟨hne, this⟩
  · intro k hk
    unfold CoreSt.stuck
    rcases core_rest h0 h ht hk with ⟨h1, h2⟩ | h1 | ⟨_, _, _, _, _, _, h1, h2⟩
    · simp [h1, h2]
    · simp [h1]
    · simp [h1, h2]

/-- At rest, the node without clock and pipelines is at rest. -/
theorem rest_plain (h0 : ∀ t, GoodStart (i.mem t) (i.valid t)) (h : FInv cfg l i f) (hc : f.ts.sys.crashed = none)
    (hr : clockedRest cfg l f) : atRest cfg (f.ts.plain i) :=
  atRest_of_stuck (stuck_of_resting h0 (rest_resting h0 h hc hr))

end
end Ramwich
