import Verif.Spec.ClockedRest
import Verif.Lemmas.ClockedTileAll
import Verif.Lemmas.TimedSysEnd

/-! # The node with one clock: something can always happen -/
namespace Ramwich

open Spec Pipeline

section
variable {cfg : SysCfg} {l : StageLat} {f f' : FSys} {i : SysInit}

theorem ctrlAct_act {s : Sys} {t : Nat} {a : CtrlAct} (g : Sys → Sys) (h : ((s.tile t).ctrl.act cfg.edramLat a).isSome = true) :
    ∃ s', s.ctrlAct cfg t a g = some s' := by
  obtain ⟨c, hc⟩ := Option.isSome_iff_exists.1 h
  unfold Sys.ctrlAct
  rw [hc]
  exact ⟨_, rfl⟩

/-- An action of a controller, of a send thread or of a pending `get` that is possible now. -/
theorem other_some' {b : SysAct} {sys : Sys} {k : NetClock} (hc : f.ts.sys.crashed = none)
    (hb1 : ∀ t k, b ≠ .core t k) (hb2 : ∀ t, b ≠ .ctrl t .tick)
    (h1 : f.ts.sys.act cfg b = some sys) (h2 : f.netPart cfg b = some k) : ∃ f', f.act cfg l (.t (.other b)) = some f' := by
  have h3 : f.ts.act cfg l (.other b) = some { f.ts with sys := sys } := by
    unfold TSys.act
    rw [if_neg (by rw [hc]; simp)]
    dsimp only
    split
    · exact absurd rfl (hb1 _ _)
    · exact absurd rfl (hb2 _)
    · rw [h1]; rfl
  unfold FSys.act
  rw [if_neg (by rw [hc]; simp)]
  dsimp only
  unfold FSys.other
  rw [h3, h2]
  dsimp only
  split
  · exact ⟨_, rfl⟩
  · cases b <;> exact ⟨_, rfl⟩

theorem netAct_act {s : Sys} {a : NetAct} {n : Net} (g : Sys → Sys) (h : s.net.act cfg.net a = some n) :
    ∃ s', s.netAct cfg a g = some s' := by
  unfold Sys.netAct
  rw [h]
  exact ⟨_, rfl⟩

/-- A tile process that can act now does. -/
theorem tile_some {t : Nat} {sys : Sys} {k : NetClock} (hc : f.ts.sys.crashed = none) (ht : t < cfg.net.tiles)
    (h1 : f.ts.sys.tileStep cfg t = some sys) (h2 : f.netPart cfg (.tile t) = some k) :
    ∃ f', f.act cfg l (.t (.other (.tile t))) = some f' := by
  refine other_some' hc (by simp) (by simp) (sys := sys) ?_ h2
  unfold Sys.act
  rw [if_neg (by rw [hc]; simp)]
  dsimp only
  rw [if_pos ht, h1]

/-- The node has not crashed, and it is in a state in which no action but the passing of time is possible. -/
structure Idle (cfg : SysCfg) (l : StageLat) (f : FSys) : Prop where
  acts : ∀ a, a ≠ .t .tick → f.act cfg l a = none

theorem Idle.coreAct (h : Idle cfg l f) (hc : f.ts.sys.crashed = none) {a : TAct} (h1 : a ≠ .tick) (h2 : ∀ b, a ≠ .other b) :
    f.ts.act cfg l a = none := by
  have := h.acts (.t a) (by simpa using h1)
  unfold FSys.act at this
  rw [if_neg (by rw [hc]; simp)] at this
  dsimp only at this
  split at this
  · exact absurd rfl h1
  · exact absurd rfl (h2 _)
  · simpa using this

theorem idle_ctrl (h0 : ∀ t, GoodStart (i.mem t) (i.valid t)) (h : FInv cfg l i f) (hc : f.ts.sys.crashed = none)
    (hi : Idle cfg l f) {t : Nat} (ht : t < cfg.net.tiles) : (f.ts.sys.tile t).ctrl.quiescent = true := by
  obtain ⟨hI, hV⟩ := h.both h0
  have hcc : (f.ts.sys.tile t).ctrl.crashed = none := (hV.alive hc).2 t
  have hno : ∀ a : CtrlAct, (a = .pick ∨ a = .dispatch ∨ a = .grant ∨ a = .complete) →
      (f.ts.sys.tile t).ctrl.act cfg.edramLat a = none := by
    intro a ha
    by_contra hne
    obtain ⟨sys, hs⟩ := ctrlAct_act (s := f.ts.sys) (cfg := cfg) id (Option.isSome_iff_ne_none.2 hne)
    have h1 : f.ts.sys.act cfg (.ctrl t a) = some sys := by
      unfold Sys.act
      rw [if_neg (by rw [hc]; simp)]
      rcases ha with rfl | rfl | rfl | rfl <;> (dsimp only; rw [if_pos ht]; exact hs)
    obtain ⟨f', hf⟩ := other_some' (f := f) (l := l) hc (by simp) (by rcases ha with rfl | rfl | rfl | rfl <;> simp) h1
      (k := f.clk) rfl
    rw [hi.acts _ (by simp)] at hf
    cases hf
  have hci := ctrlInv_of (h0 t) (hV.tile t).ctrl
  have hser : ∀ d, (f.ts.sys.tile t).ctrl.deadline = some d → (f.ts.sys.tile t).ctrl.now ≤ d := fun d hd => by
    obtain ⟨_, _, -, hle, -⟩ := hci.time.serving d hd
    exact hle
  clear hci
  have hp := hno .pick (by simp)
  have hd := hno .dispatch (by simp)
  have hg := hno .grant (by simp)
  have hcm := hno .complete (by simp)
  unfold Ctrl.act at hp hd hg hcm
  simp only [hcc, Option.isSome_none, Bool.false_eq_true, if_false] at hp hd hg hcm
  clear hno
  generalize (f.ts.sys.tile t).ctrl = c at *
  unfold Ctrl.quiescent
  rw [Bool.and_eq_true]
  constructor
  · cases ha : c.handlerAlive with
    | false => rfl
    | true =>
      cases hh : c.handed with
      | some r =>
        exfalso
        simp only [Ctrl.dispatch, hh, ha] at hd
        split at hd <;> cases hd
      | none =>
        cases hq : c.queue with
        | nil => rfl
        | cons r rest => simp [Ctrl.pick, ha, hh, hq] at hp
  · cases hb : c.bus with
    | nil => rfl
    | cons r rest =>
      cases hdl : c.deadline with
      | none =>
        exfalso
        simp only [Ctrl.grant, hb, hdl] at hg
        split at hg <;> cases hg
      | some d =>
        have hle := hser d hdl
        simp only [decide_eq_true_eq]
        by_contra hlt
        have hdn : d = c.now := by omega
        unfold Ctrl.complete at hcm
        simp only [hb, hdl, hdn, ne_eq, not_true_eq_false, if_false] at hcm
        split at hcm
        · split at hcm <;> cases hcm
        · split at hcm <;> cases hcm

theorem idle_core (h0 : ∀ t, GoodStart (i.mem t) (i.valid t)) (h : FInv cfg l i f) (hc : f.ts.sys.crashed = none)
    (hi : Idle cfg l f) {t k : Nat} (hk : cfg.hasCore t k = true) : f.ts.coreQuiet cfg l t k = true := by
  obtain ⟨hI, hV⟩ := h.both h0
  have hcc : (f.ts.sys.tile t).ctrl.crashed = none := (hV.alive hc).2 t
  have h1 := hi.coreAct hc (a := .exec t k) (by simp) (by simp)
  have h2 := hi.coreAct hc (a := .mid t k) (by simp) (by simp)
  have h3 := hi.coreAct hc (a := .fin t k) (by simp) (by simp)
  have h4 := hi.coreAct hc (a := .ret t k) (by simp) (by simp)
  unfold TSys.act at h1 h2 h3 h4
  simp only [hc, Option.isSome_none, Bool.false_eq_true, if_false, hk, if_true] at h1 h2 h3 h4
  have hp : ∀ a : PAct, a ≠ .start 2 → a ≠ .finish 2 → (f.ts.pipe t k).move isHlt 3 l.lat a = none := by
    intro a e1 e2
    have := hi.coreAct hc (a := .pipe t k a) (by simp) (by simp)
    unfold TSys.act at this
    simp only [hc, Option.isSome_none, Bool.false_eq_true, if_false, hk, if_true] at this
    unfold TSys.pipeAct at this
    split at this
    · exact absurd rfl e1
    · exact absurd rfl e2
    · simpa using this
  have hst : ∀ j, j < 3 → (f.ts.pipe t k).start l.lat j = none := by
    intro j hj
    by_cases h2j : j = 2
    · subst h2j
      cases hs : (f.ts.pipe t k).start l.lat 2 with
      | none => rfl
      | some p =>
        exfalso
        unfold TSys.exec at h1
        rw [hs] at h1
        unfold Timed.start at hs
        split at hs
        · rename_i op hg
          rw [hg] at h1
          obtain ⟨s', hs'⟩ := coreStart_some cfg f.ts.sys t k op [] hcc
          dsimp only at h1
          rw [hs'] at h1
          cases h1
        · cases hs
    · have := hp (.start j) (by simpa using h2j) (by simp)
      simpa [Timed.move, hj] using this
  unfold TSys.coreQuiet
  rw [h1, h2, h3, h4]
  unfold Timed.quiet
  simp only [Bool.and_eq_true, List.all_eq_true, List.mem_range, Option.isNone_iff_eq_none]
  refine ⟨⟨⟨⟨⟨⟨⟨?_, ?_⟩, ?_⟩, fun j hj => ?_⟩, trivial⟩, trivial⟩, trivial⟩, trivial⟩
  · simpa [Timed.move] using hp .feedIn (by simp) (by simp)
  · simpa [Timed.move] using hp .monitor (by simp) (by simp)
  · simpa [Timed.move] using hp .signal (by simp) (by simp)
  · have e1 := hp (.take j) (by simp) (by simp)
    have e2 := hst j hj
    have e4 := hp (.putIn j) (by simp) (by simp)
    have e5 := hp (.next j) (by simp) (by simp)
    simp only [Timed.move, hj, if_true] at e1 e4 e5
    have e3 : (f.ts.pipe t k).finish 3 j = none ∨ (f.ts.pipe t k).deadline j = none := by
      by_cases h2j : j = 2
      · subst h2j
        by_cases hb : ∃ op, (f.ts.pipe t k).st.ctl 2 = .busy op
        · obtain ⟨op, hb⟩ := hb
          exact .inr (((hI.tinv hk).stage 2 (by omega)).running op hb).1
        · left
          unfold Timed.finish
          split
          · rename_i op hb'; exact absurd ⟨op, hb'⟩ hb
          · rfl
      · left
        have := hp (.finish j) (by simp) (by simpa using h2j)
        simpa [Timed.move, hj] using this
    unfold Timed.stageQuiet
    rw [e1, e2, e4, e5]
    rcases e3 with e3 | e3 <;> rw [e3] <;> simp

theorem idle_netAct (hc : f.ts.sys.crashed = none) (hi : Idle cfg l f) {na : NetAct} {b : SysAct}
    (hb : (∃ t, b = .thread t ∧ na = .thread t) ∨ ∃ t, b = .take t ∧ na = .take t) :
    f.clk.ready cfg.net cfg.dataMemLat f.ts.sys.net f.ts.now na = false := by
  by_contra hne
  rw [Bool.not_eq_false] at hne
  unfold NetClock.ready at hne
  rw [Bool.and_eq_true] at hne
  obtain ⟨n, hn⟩ := Option.isSome_iff_exists.1 hne.1
  obtain ⟨k, hk⟩ := Option.isSome_iff_exists.1 hne.2
  obtain ⟨sys, hs⟩ := netAct_act (s := f.ts.sys) id hn
  have h1 : f.ts.sys.act cfg b = some sys := by
    unfold Sys.act
    rw [if_neg (by rw [hc]; simp)]
    rcases hb with ⟨t, rfl, rfl⟩ | ⟨t, rfl, rfl⟩ <;> exact hs
  have h2 : f.netPart cfg b = some k := by
    unfold FSys.netPart Sys.netOf
    rcases hb with ⟨t, rfl, rfl⟩ | ⟨t, rfl, rfl⟩ <;> exact hk
  obtain ⟨f', hf⟩ := other_some' (f := f) (l := l) hc (by rcases hb with ⟨t, rfl, rfl⟩ | ⟨t, rfl, rfl⟩ <;> simp)
    (by rcases hb with ⟨t, rfl, rfl⟩ | ⟨t, rfl, rfl⟩ <;> simp) h1 h2
  rw [hi.acts _ (by simp)] at hf
  cases hf

theorem idle_tileNet (hc : f.ts.sys.crashed = none) (hi : Idle cfg l f) {t : Nat} (ht : t < cfg.net.tiles) {na : NetAct}
    (h1 : ∀ n, f.ts.sys.net.act cfg.net na = some n → ∃ sys, f.ts.sys.tileStep cfg t = some sys)
    (h2 : f.ts.sys.netOf cfg (.tile t) = some na) :
    f.clk.ready cfg.net cfg.dataMemLat f.ts.sys.net f.ts.now na = false := by
  by_contra hne
  rw [Bool.not_eq_false] at hne
  unfold NetClock.ready at hne
  rw [Bool.and_eq_true] at hne
  obtain ⟨n, hn⟩ := Option.isSome_iff_exists.1 hne.1
  obtain ⟨k, hk⟩ := Option.isSome_iff_exists.1 hne.2
  obtain ⟨sys, hs⟩ := h1 n hn
  have h3 : f.netPart cfg (.tile t) = some k := by
    unfold FSys.netPart
    rw [h2]; exact hk
  obtain ⟨f', hf⟩ := tile_some (f := f) (l := l) hc ht hs h3
  rw [hi.acts _ (by simp)] at hf
  cases hf

theorem idle_router (h : FInv cfg l i f) (hc : f.ts.sys.crashed = none) (hi : Idle cfg l f) {t : Nat}
    (ht : t < cfg.net.tiles) : f.clk.routerQuiet cfg.net cfg.dataMemLat f.ts.sys.net f.ts.now t = true := by
  have hT := h.tile hc t ht
  have e1 := idle_netAct hc hi (.inl ⟨t, rfl, rfl⟩)
  have e2 := idle_netAct hc hi (.inr ⟨t, rfl, rfl⟩)
  have e3 : f.clk.recheck f.ts.sys.net f.ts.now t = none := by
    have := hi.acts (.recheck t) (by simp)
    unfold FSys.act at this
    rw [if_neg (by rw [hc]; simp)] at this
    dsimp only at this
    rw [if_pos ht] at this
    simpa using this
  have e4 : f.clk.ready cfg.net cfg.dataMemLat f.ts.sys.net f.ts.now (.added t) = false := by
    by_cases hp : ∃ tg l, (f.ts.sys.tile t).phase = .adding tg l
    · obtain ⟨tg, rows, hp⟩ := hp
      refine idle_tileNet hc hi ht (fun n hn => ?_) (by unfold Sys.netOf; dsimp only; rw [hp])
      unfold Sys.tileStep
      dsimp only
      rw [hp]
      exact netAct_act _ hn
    · have : f.clk.adds t = [] := hT.adds fun tg l e => hp ⟨tg, l, e⟩
      unfold NetClock.ready NetClock.step
      dsimp only
      rw [this]
      simp
  have e5 : f.clk.ready cfg.net cfg.dataMemLat f.ts.sys.net f.ts.now (.readDone t) = false := by
    by_cases hp : ∃ a s w n g, (f.ts.sys.tile t).phase = .recvWait a s w n g
    · obtain ⟨a, s, w, n, g, hp⟩ := hp
      cases hr : f.ts.sys.net.reader t with
      | got src data =>
        refine idle_tileNet hc hi ht (fun n hn => ?_) (by unfold Sys.netOf; dsimp only; rw [hp]; dsimp only; rw [hr])
        unfold Sys.tileStep
        dsimp only
        rw [hp]
        dsimp only
        rw [hr]
        exact netAct_act _ hn
      | _ => unfold NetClock.ready Net.act; simp [Net.readDone, hr]
    · have hr : f.ts.sys.net.reader t = .idle := hT.reader fun a s w n g e => hp ⟨a, s, w, n, g, e⟩
      unfold NetClock.ready Net.act
      simp [Net.readDone, hr]
  have e6 : f.clk.ready cfg.net cfg.dataMemLat f.ts.sys.net f.ts.now (.stopStep t) = false := by
    have hno : f.ts.sys.net.stopper t = .running ∨ f.ts.sys.net.stopper t = .stopped →
        f.clk.ready cfg.net cfg.dataMemLat f.ts.sys.net f.ts.now (.stopStep t) = false := by
      intro hs
      unfold NetClock.ready Net.act
      rcases hs with hs | hs <;> simp [Net.stopStep, hs]
    by_cases hp : (f.ts.sys.tile t).phase = .haltRouter
    · by_cases hs : f.ts.sys.net.stopper t = .stopped
      · exact hno (.inr hs)
      · refine idle_tileNet hc hi ht (fun n hn => ?_) ?_
        · unfold Sys.tileStep
          dsimp only
          rw [hp]
          dsimp only
          split
          · rename_i e; exact absurd e hs
          · exact netAct_act _ hn
        · unfold Sys.netOf
          dsimp only
          rw [hp]
          dsimp only
          split
          · rename_i e; exact absurd e hs
          · rfl
    · exact hno (hT.stopper hp)
  unfold NetClock.routerQuiet
  rw [e1, e2, e3, e4, e5, e6]
  rfl

/-- Something can always happen, unless the node has crashed. -/
theorem f_progress (h0 : ∀ t, GoodStart (i.mem t) (i.valid t)) (h : FInv cfg l i f) (hc : f.ts.sys.crashed = none) :
    ∃ a f', f.act cfg l a = some f' := by
  by_contra hne
  have hall : ∀ a, f.act cfg l a = none := by
    intro a
    by_contra hx
    obtain ⟨f', hf⟩ := Option.ne_none_iff_exists'.1 hx
    exact hne ⟨a, f', hf⟩
  have hi : Idle cfg l f := ⟨fun a _ => hall a⟩
  have hq : f.quiet cfg l = true := by
    unfold FSys.quiet NetClock.quiet
    simp only [Bool.and_eq_true, List.all_eq_true, List.mem_range]
    refine ⟨⟨?_, fun t ht => idle_router h hc hi ht⟩, fun t ht => ?_⟩
    · have := hall .monitor
      unfold FSys.act at this
      rw [if_neg (by rw [hc]; simp)] at this
      simpa using this
    · have := hall (.t (.other (.tile t)))
      unfold FSys.act at this
      rw [if_neg (by rw [hc]; simp)] at this
      rw [Option.isNone_iff_eq_none]
      exact this
  have := hall (.t .tick)
  unfold FSys.act at this
  rw [if_neg (by rw [hc]; simp)] at this
  dsimp only at this
  rw [if_pos hq] at this
  unfold TSys.act at this
  rw [if_neg (by rw [hc]; simp)] at this
  dsimp only at this
  unfold TSys.tick at this
  rw [if_pos] at this
  · cases this
  · rw [List.all_eq_true]
    intro t ht
    rw [List.mem_range] at ht
    unfold TSys.tileQuiet
    rw [Bool.and_eq_true, List.all_eq_true]
    refine ⟨idle_ctrl h0 h hc hi ht, fun k hk => idle_core h0 h hc hi ?_⟩
    rw [List.mem_range] at hk
    unfold SysCfg.hasCore
    simp [ht, hk]

end
end Ramwich
