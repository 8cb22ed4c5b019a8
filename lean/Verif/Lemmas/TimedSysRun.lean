import Verif.Lemmas.TimedSysRel
import Verif.Lemmas.TimedPipeline

/-! # Runs of the node with pipelines and a clock -/
namespace Ramwich

open Pipeline

/-- What an action does. -/
inductive TEff (cfg : SysCfg) (l : StageLat) (s : TSys) : TSys → Prop
  | crash (sys : Sys) (h : sys.crashed.isSome = true) : TEff cfg l s { s with sys := sys }
  | pipe (t k : Nat) (hk : cfg.hasCore t k = true) (a : PAct) (p : Timed CoreOp) (h1 : a ≠ .start 2)
      (h2 : a ≠ .finish 2) (hm : (s.pipe t k).move isHlt 3 l.lat a = some p) :
      TEff cfg l s { s with pipe := upd2 s.pipe t k p }
  | exec (t k : Nat) (hk : cfg.hasCore t k = true) (op : CoreOp) (p : Timed CoreOp) (c' : Ctrl) (x' : CoreSt)
      (hg : (s.pipe t k).st.ctl 2 = .got op) (hp : (s.pipe t k).start l.lat 2 = some p)
      (hs : Started cfg k (s.sys.tile t).ctrl op c' x') :
      TEff cfg l s (s.setPipe (s.sys.setBoth t k c' x') t k p (s.startDue cfg op))
  | mid (t k : Nat) (hk : cfg.hasCore t k = true) (c' : Ctrl) (x' : CoreSt) (d : Option Nat)
      (hph : (∃ id addr dest read width vec, ((s.sys.tile t).core k).phase = .loadWait id addr dest read width vec ∧
          d = s.after (.ok (cfg.dataMemLat * vec))) ∨
        (∃ addr data rows, ((s.sys.tile t).core k).phase = .storeDelay addr data rows ∧
          s.expired t k = true ∧ d = none))
      (hs : Continued cfg k (s.sys.tile t).ctrl ((s.sys.tile t).core k).phase c' x') :
      TEff cfg l s (s.setPipe (s.sys.setBoth t k c' x') t k (s.pipe t k) d)
  | fin (t k : Nat) (hk : cfg.hasCore t k = true) (c' : Ctrl) (x' : CoreSt) (p : Timed CoreOp)
      (hph : ((((s.sys.tile t).core k).phase = .timing ∨
          ∃ dest data, ((s.sys.tile t).core k).phase = .loadGot dest data) ∧ s.expired t k = true) ∨
        ∃ id, ((s.sys.tile t).core k).phase = .storeWait id)
      (hs : Continued cfg k (s.sys.tile t).ctrl ((s.sys.tile t).core k).phase c' x')
      (hp : (s.pipe t k).finish 3 2 = some p) :
      TEff cfg l s (s.setPipe (s.sys.setBoth t k c' x') t k p none)
  | finHlt (t k : Nat) (hk : cfg.hasCore t k = true) (p : Timed CoreOp)
      (hph : ((s.sys.tile t).core k).phase = .halting) (he : s.expired t k = true)
      (hp : (s.pipe t k).finish 3 2 = some p) :
      TEff cfg l s (s.setPipe s.sys t k p none)
  | ret (t k : Nat) (hk : cfg.hasCore t k = true) (c' : Ctrl) (x' : CoreSt)
      (hph : ((s.sys.tile t).core k).phase = .halting) (hd : (s.pipe t k).st.done = true)
      (hs : Continued cfg k (s.sys.tile t).ctrl ((s.sys.tile t).core k).phase c' x') :
      TEff cfg l s { s with sys := s.sys.setBoth t k c' x' }
  | other (sys : Sys) (h : sameCores s.sys sys) : TEff cfg l s { s with sys := sys }
  | tick (s' : TSys) (h : s.tick cfg l = some s') : TEff cfg l s s'

theorem ite_crash {cfg : SysCfg} {l : StageLat} {s : TSys} {sys : Sys} {s' : TSys}
    (h : ¬ sys.crashed.isSome = true → TEff cfg l s s') :
    TEff cfg l s (if sys.crashed.isSome = true then { s with sys := sys } else s') := by
  split
  · exact .crash _ (by assumption)
  · exact h (by assumption)

theorem tact_eff {cfg : SysCfg} {l : StageLat} {s s' : TSys} {a : TAct} (h : s.act cfg l a = some s') :
    TEff cfg l s s' := by
  unfold TSys.act at h
  split at h
  · cases h
  · cases a with
    | tick => exact .tick s' h
    | pipe t k a =>
      dsimp only at h
      split at h
      · rename_i hk
        unfold TSys.pipeAct at h
        split at h
        · cases h
        · cases h
        · rename_i h1 h2
          rw [Option.map_eq_some_iff] at h
          obtain ⟨p, hp, rfl⟩ := h
          exact .pipe t k hk a p h1 h2 hp
      · cases h
    | exec t k =>
      dsimp only at h
      split at h
      · rename_i hk
        unfold TSys.exec at h
        split at h
        · rename_i op p hg hp
          rw [Option.map_eq_some_iff] at h
          obtain ⟨sys, hs, rfl⟩ := h
          refine ite_crash fun hc => ?_
          obtain h1 | ⟨c', x', rfl, h1⟩ := coreStart_eq hs
          · exact absurd h1 hc
          · exact .exec t k hk op p c' x' hg hp h1
        · cases h
      · cases h
    | mid t k =>
      dsimp only at h
      split at h
      · rename_i hk
        unfold TSys.mid at h
        split at h
        · rename_i id addr dest read width vec hph
          rw [Option.map_eq_some_iff] at h
          obtain ⟨sys, hs, rfl⟩ := h
          refine ite_crash fun hc => ?_
          obtain h1 | ⟨c', x', rfl, h1⟩ := coreStep_eq hs (by rw [hph]; simp)
          · exact absurd h1 hc
          · exact .mid t k hk c' x' _ (Or.inl ⟨_, _, _, _, _, _, hph, rfl⟩) h1
        · rename_i addr data rows hph
          split at h
          · rename_i he
            rw [Option.map_eq_some_iff] at h
            obtain ⟨sys, hs, rfl⟩ := h
            refine ite_crash fun hc => ?_
            obtain h1 | ⟨c', x', rfl, h1⟩ := coreStep_eq hs (by rw [hph]; simp)
            · exact absurd h1 hc
            · exact .mid t k hk c' x' _ (Or.inr ⟨_, _, _, hph, he, rfl⟩) h1
          · cases h
        · cases h
      · cases h
    | fin t k =>
      dsimp only at h
      split at h
      · rename_i hk
        unfold TSys.fin at h
        split at h
        · rename_i hph
          split at h
          · rename_i he
            split at h
            · rename_i sys p hs hp
              cases h
              refine ite_crash fun hc => ?_
              obtain h1 | ⟨c', x', rfl, h1⟩ := coreStep_eq hs (by rw [hph]; simp)
              · exact absurd h1 hc
              · exact .fin t k hk c' x' p (Or.inl ⟨Or.inl hph, he⟩) h1 hp
            · cases h
          · cases h
        · rename_i hph
          split at h
          · rename_i he
            split at h
            · rename_i sys p hs hp
              cases h
              refine ite_crash fun hc => ?_
              obtain h1 | ⟨c', x', rfl, h1⟩ := coreStep_eq hs (by rw [hph]; simp)
              · exact absurd h1 hc
              · exact .fin t k hk c' x' p (Or.inl ⟨Or.inr ⟨_, _, hph⟩, he⟩) h1 hp
            · cases h
          · cases h
        · rename_i hph
          split at h
          · rename_i sys p hs hp
            cases h
            refine ite_crash fun hc => ?_
            obtain h1 | ⟨c', x', rfl, h1⟩ := coreStep_eq hs (by rw [hph]; simp)
            · exact absurd h1 hc
            · exact .fin t k hk c' x' p (Or.inr ⟨_, hph⟩) h1 hp
          · cases h
        · rename_i hph
          split at h
          · rename_i he
            rw [Option.map_eq_some_iff] at h
            obtain ⟨p, hp, rfl⟩ := h
            exact .finHlt t k hk p hph he hp
          · cases h
        · cases h
      · cases h
    | ret t k =>
      dsimp only at h
      split at h
      · rename_i hk
        unfold TSys.ret at h
        split at h
        · rename_i hph
          split at h
          · rename_i hd
            rw [Option.map_eq_some_iff] at h
            obtain ⟨sys, hs, rfl⟩ := h
            obtain h1 | ⟨c', x', rfl, h1⟩ := coreStep_eq hs (by rw [hph]; simp)
            · exact .crash _ h1
            · exact .ret t k hk c' x' hph hd h1
          · cases h
        · cases h
      · cases h
    | other a =>
      dsimp only at h
      split at h
      · cases h
      · cases h
      · rename_i h1 h2
        rw [Option.map_eq_some_iff] at h
        obtain ⟨sys, hs, rfl⟩ := h
        exact .other sys (sameCores_act hs h1 h2)

/-! ## Pipelines -/

theorem timed_run_snoc {lat : Nat → Nat → Option Nat} {p p' : Timed CoreOp} {a : PAct} (as : List PAct)
    {p0 : Timed CoreOp} (h : p0.run isHlt 3 lat as = some p) (ha : p.act isHlt 3 lat a = some p') :
    p0.run isHlt 3 lat (as ++ [a]) = some p' := by
  induction as generalizing p0 with
  | nil =>
    cases h
    simp [Timed.run, ha]
  | cons b as ih =>
    simp only [Timed.run, Option.bind_eq_some_iff, List.cons_append] at h ⊢
    obtain ⟨u, hu, h⟩ := h
    exact ⟨u, hu, ih h⟩

/-- An operation is in the execution stage. -/
def Ctl.isBusy {α : Type} : Ctl α → Bool
  | .busy _ => true
  | _ => false

/-- The execution stage of a pipeline is where it was. -/
structure SameExec (p p' : Timed CoreOp) : Prop where
  now : p'.now = p.now
  acc : p'.st.accepted 2 = p.st.accepted 2
  starts : p'.starts 2 = p.starts 2
  fins : p'.finishes 2 = p.finishes 2
  busy : ∀ op, p'.st.ctl 2 = .busy op ↔ p.st.ctl 2 = .busy op
  done : p.st.done = true → p'.st.done = true

theorem SameExec.rfl' (p : Timed CoreOp) : SameExec p p := ⟨rfl, rfl, rfl, rfl, fun _ => Iff.rfl, id⟩

theorem move_same {lat : Nat → Nat → Option Nat} {p p' : Timed CoreOp} {a : PAct}
    (h : p.move isHlt 3 lat a = some p') (h1 : a ≠ .start 2) (h2 : a ≠ .finish 2) : SameExec p p' := by
  cases a with
  | feedIn =>
    simp only [Timed.move, Timed.feedIn] at h
    split at h
    · cases h
    · split at h
      · cases h; exact ⟨rfl, rfl, rfl, rfl, fun _ => Iff.rfl, id⟩
      · cases h
  | take i =>
    simp only [Timed.move, Timed.take] at h
    split at h
    · split at h
      · rename_i hc _
        cases h
        refine ⟨rfl, rfl, rfl, rfl, fun op => ?_, id⟩
        dsimp only
        by_cases hi : i = 2
        · subst hi; rw [upd_same, hc]; simp
        · rw [upd_ne _ _ _ _ (Ne.symm hi)]
      · cases h
    · cases h
  | start i =>
    have hi : i ≠ 2 := fun h => h1 (by rw [h])
    simp only [Timed.move, Timed.start] at h
    split at h
    · split at h
      · cases h
        refine ⟨rfl, ?_, ?_, rfl, fun op => ?_, id⟩ <;> dsimp only <;> rw [upd_ne _ _ _ _ (Ne.symm hi)]
      · cases h
    · cases h
  | finish i =>
    have hi : i ≠ 2 := fun h => h2 (by rw [h])
    simp only [Timed.move, Timed.finish] at h
    split at h
    · split at h
      · split at h
        · cases h
          refine ⟨rfl, rfl, rfl, ?_, fun op => ?_, id⟩ <;> dsimp only <;> rw [upd_ne _ _ _ _ (Ne.symm hi)]
        · cases h
      · cases h
    · cases h
  | putIn i =>
    simp only [Timed.move, Timed.putIn] at h
    split at h
    · split at h
      · rename_i hc
        split at h
        · cases h
          refine ⟨rfl, rfl, rfl, rfl, fun op => ?_, id⟩
          dsimp only
          by_cases hi : i = 2
          · subst hi; rw [upd_same, hc]; simp
          · rw [upd_ne _ _ _ _ (Ne.symm hi)]
        · cases h
      · cases h
    · cases h
  | next i =>
    simp only [Timed.move, Timed.next] at h
    split at h
    · split at h
      · rename_i hc
        split at h
        · cases h
          refine ⟨rfl, rfl, rfl, rfl, fun op => ?_, id⟩
          dsimp only
          by_cases hi : i = 2
          · subst hi; rw [upd_same, hc]; simp
          · rw [upd_ne _ _ _ _ (Ne.symm hi)]
        · cases h
          refine ⟨rfl, rfl, rfl, rfl, fun op => ?_, id⟩
          dsimp only
          by_cases hi : i = 2
          · subst hi; rw [upd_same, hc]; simp
          · rw [upd_ne _ _ _ _ (Ne.symm hi)]
      · cases h
    · cases h
  | monitor =>
    simp only [Timed.move, Timed.monitor] at h
    split at h
    · cases h; exact ⟨rfl, rfl, rfl, rfl, fun _ => Iff.rfl, id⟩
    · cases h
  | signal =>
    simp only [Timed.move, Timed.signal] at h
    split at h
    · cases h; exact ⟨rfl, rfl, rfl, rfl, fun _ => Iff.rfl, fun _ => rfl⟩
    · cases h
  | tick => cases h

theorem start_two {lat : Nat → Nat → Option Nat} {p p' : Timed CoreOp} {op : CoreOp}
    (hg : p.st.ctl 2 = .got op) (h : p.start lat 2 = some p') :
    p'.now = p.now ∧ p'.st.accepted 2 = p.st.accepted 2 ++ [op] ∧ p'.starts 2 = p.starts 2 ++ [p.now] ∧
      p'.finishes 2 = p.finishes 2 ∧ p'.st.ctl 2 = .busy op ∧ p'.st.done = p.st.done := by
  unfold Timed.start at h
  rw [hg] at h
  cases h
  dsimp only
  rw [upd_same, upd_same, upd_same]
  exact ⟨rfl, rfl, rfl, rfl, rfl, rfl⟩

theorem finish_two {p p' : Timed CoreOp} (h : p.finish 3 2 = some p') : ∃ op, p.st.ctl 2 = .busy op ∧
    p'.now = p.now ∧ p'.st.accepted 2 = p.st.accepted 2 ∧ p'.starts 2 = p.starts 2 ∧
      p'.finishes 2 = p.finishes 2 ++ [p.now] ∧ p'.st.ctl 2 = .after op ∧ p'.st.done = p.st.done := by
  unfold Timed.finish at h
  split at h
  · rename_i op hc
    split at h
    · cases h
      refine ⟨op, hc, rfl, rfl, rfl, ?_, ?_, rfl⟩ <;> dsimp only <;> rw [upd_same] <;> rfl
    · cases h
  · cases h

/-! ## The operation in the execution stage -/

/-- An operation has been started at `st` and its event has not fired. `c`: the controller. -/
def Running (cfg : SysCfg) (k : Nat) (c : Ctrl) (op : CoreOp) (ph : CorePhase) (st : Nat) (due : Option Nat)
    (now : Nat) : Prop :=
  match op with
  | .load dest read width vec =>
    (∃ id addr r, ph = .loadWait id addr dest read width vec ∧ c.submitted[id]? = some r ∧ r.core = (k : Int) ∧
      r.kind = .read width vec ∧ r.submitTime = st ∧ ∀ a ∈ c.answers, a.req.id = id → a.time = now) ∨
    (∃ (data : List I32) (r : Req) (tm : Nat), ph = .loadGot dest data ∧ .read r tm data ∈ c.answers ∧ r.core = (k : Int) ∧
      r.kind = .read width vec ∧ r.submitTime = st ∧ 0 ≤ cfg.dataMemLat * vec ∧
      due = some (tm + (cfg.dataMemLat * vec).toNat) ∧ now ≤ tm + (cfg.dataMemLat * vec).toNat)
  | .store _ _ _ vec =>
    (∃ addr data, ph = .storeDelay addr data vec.toNat ∧ 0 ≤ cfg.dataMemLat * vec ∧
      due = some (st + (cfg.dataMemLat * vec).toNat) ∧ now ≤ st + (cfg.dataMemLat * vec).toNat) ∨
    (∃ (id : Nat) (r : Req) (data : List I32), ph = .storeWait id ∧ c.submitted[id]? = some r ∧ r.core = (k : Int) ∧ r.kind = .write data vec.toNat ∧
      0 ≤ cfg.dataMemLat * vec ∧ r.submitTime = st + (cfg.dataMemLat * vec).toNat ∧
      ∀ a ∈ c.answers, a.req.id = id → a.time = now)
  | op => ph = (if op = .hlt then .halting else .timing) ∧
      ∃ d, cfg.execLat op = .ok d ∧ 0 ≤ d ∧ due = some (st + d.toNat) ∧ now ≤ st + d.toNat

/-- An operation was started at `st` and its event fired at `fi`. -/
def Took (cfg : SysCfg) (k : Nat) (c : Ctrl) (op : CoreOp) (st fi : Nat) : Prop :=
  match op with
  | .load _ _ width vec => ∃ (r : Req) (tm : Nat) (data : List I32), .read r tm data ∈ c.answers ∧ r.core = (k : Int) ∧ r.kind = .read width vec ∧
      r.submitTime = st ∧ 0 ≤ cfg.dataMemLat * vec ∧ fi = tm + (cfg.dataMemLat * vec).toNat
  | .store _ _ _ vec => ∃ (r : Req) (tm : Nat) (data : List I32), .wrote r tm ∈ c.answers ∧ r.core = (k : Int) ∧ r.kind = .write data vec.toNat ∧
      0 ≤ cfg.dataMemLat * vec ∧ r.submitTime = st + (cfg.dataMemLat * vec).toNat ∧ fi = tm
  | op => ∃ d, cfg.execLat op = .ok d ∧ 0 ≤ d ∧ fi = st + d.toNat

theorem Took.mono {cfg : SysCfg} {k : Nat} {c c' : Ctrl} {op : CoreOp} {st fi : Nat} (h : Took cfg k c op st fi)
    (hc : c.answers <+: c'.answers) : Took cfg k c' op st fi := by
  cases op with
  | load dest read width vec =>
    obtain ⟨r, tm, data, h1, h2⟩ := h
    exact ⟨r, tm, data, hc.subset h1, h2⟩
  | store dest read width vec =>
    obtain ⟨r, tm, data, h1, h2⟩ := h
    exact ⟨r, tm, data, hc.subset h1, h2⟩
  | _ => exact h

theorem Running.mono {cfg : SysCfg} {k : Nat} {c c' : Ctrl} {op : CoreOp} {ph : CorePhase} {st : Nat}
    {due : Option Nat} {now : Nat} (h : Running cfg k c op ph st due now) (hc : CtrlExt c c')
    (hn : c.now = now) : Running cfg k c' op ph st due now := by
  have old : ∀ id, (∀ a ∈ c.answers, a.req.id = id → a.time = now) →
      ∀ a ∈ c'.answers, a.req.id = id → a.time = now := by
    intro id h a ha hid
    rcases hc.fresh a ha with h1 | h1
    · exact h a h1 hid
    · rw [h1, hn]
  cases op with
  | load dest read width vec =>
    rcases h with ⟨id, addr, r, h1, h2, h3, h4, h5, h6⟩ | ⟨data, r, tm, h1, h2, h3⟩
    · exact Or.inl ⟨id, addr, r, h1, prefix_getElem? hc.subs h2, h3, h4, h5, old id h6⟩
    · exact Or.inr ⟨data, r, tm, h1, hc.ans.subset h2, h3⟩
  | store dest read width vec =>
    rcases h with h | ⟨id, r, data, h1, h2, h3, h4, h5, h6, h7⟩
    · exact Or.inl h
    · exact Or.inr ⟨id, r, data, h1, prefix_getElem? hc.subs h2, h3, h4, h5, h6, old id h7⟩
  | _ => exact h

/-- The phase of a core agrees with its pipeline. -/
structure CoreOK (cfg : SysCfg) (k : Nat) (p : Timed CoreOp) (c : Ctrl) (ph : CorePhase) (due : Option Nat)
    (now : Nat) : Prop where
  busy : ∀ op, p.st.ctl 2 = .busy op →
    Running cfg k c op ph ((p.starts 2).getD (p.finishes 2).length 0) due now
  free : (∀ op, p.st.ctl 2 ≠ .busy op) →
    if (p.st.accepted 2).any isHlt then ph = .halting ∨ ph = .halted else ph = .ready
  done : ph = .halted → p.st.done = true
  past : ∀ n, n < (p.finishes 2).length → ∃ op, (p.st.accepted 2)[n]? = some op ∧
    Took cfg k c op ((p.starts 2).getD n 0) ((p.finishes 2).getD n 0)

theorem CoreOK.mono {cfg : SysCfg} {k : Nat} {p p' : Timed CoreOp} {c c' : Ctrl} {ph : CorePhase} {due : Option Nat}
    {now : Nat} (h : CoreOK cfg k p c ph due now) (hp : SameExec p p') (hc : CtrlExt c c') (hn : c.now = now) :
    CoreOK cfg k p' c' ph due now := by
  refine ⟨fun op ho => ?_, fun hf => ?_, fun hh => hp.done (h.done hh), fun n hn' => ?_⟩
  · rw [hp.starts, hp.fins]
    exact (h.busy op ((hp.busy op).1 ho)).mono hc hn
  · rw [hp.acc]
    exact h.free fun op ho => hf op ((hp.busy op).2 ho)
  · rw [hp.fins] at hn' ⊢
    rw [hp.acc, hp.starts]
    obtain ⟨op, h1, h2⟩ := h.past n hn'
    exact ⟨op, h1, h2.mono hc.ans⟩

end Ramwich
