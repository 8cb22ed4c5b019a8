import Verif.Lemmas.TimedSysRun

/-! # Invariant of the node with pipelines and a clock -/
namespace Ramwich

open Pipeline

/-! ## One core -/

theorem started_ext {cfg : SysCfg} {k : Nat} {c c' : Ctrl} {op : CoreOp} {x' : CoreSt}
    (h : Started cfg k c op c' x') : CtrlExt c c' := by
  cases op with
  | load dest read width vec =>
    obtain ⟨addr, h, -⟩ := h
    exact ctrl_act_ext h (by simp)
  | store dest read width vec => rw [h.1]; exact .rfl' _
  | set => rw [h.1]; exact .rfl' _
  | copy => rw [h.1]; exact .rfl' _
  | vfu => rw [h.1]; exact .rfl' _
  | mvm => rw [h.1]; exact .rfl' _
  | hlt => rw [h.1]; exact .rfl' _

theorem continued_ext {cfg : SysCfg} {k : Nat} {c c' : Ctrl} {ph : CorePhase} {x' : CoreSt}
    (h : Continued cfg k c ph c' x') : CtrlExt c c' := by
  cases ph with
  | storeDelay addr data rows => exact ctrl_act_ext h.1 (by simp)
  | ready => exact h.elim
  | halted => exact h.elim
  | timing => rw [h.1]; exact .rfl' _
  | loadWait => rw [h.1]; exact .rfl' _
  | loadGot => rw [h.1]; exact .rfl' _
  | storeWait => rw [h.1]; exact .rfl' _
  | halting => rw [h.1]; exact .rfl' _

theorem no_answer_yet {c : Ctrl} (h : CtrlLine c) {a : Answer} (ha : a ∈ c.answers) :
    a.req.id ≠ c.submitted.length := by
  have := (submitted_mem c h _ (answer_submitted h ha)).1
  omega

section
variable {cfg : SysCfg} {l : StageLat} {prog : List CoreOp} {k : Nat} {p p' : Timed CoreOp} {c c' : Ctrl}
  {x' : CoreSt} {ph : CorePhase} {due : Option Nat} {now : Nat} {op : CoreOp}

/-- How far the histories of the execution stage reach. -/
theorem exec_lens (h : TInv isHlt 3 l.lat prog 0 p) :
    (p.st.accepted 2).length = (p.starts 2).length ∧
      (∀ op, p.st.ctl 2 = .got op → (p.starts 2).length = (p.finishes 2).length) ∧
      (∀ op, p.st.ctl 2 = .busy op → (p.starts 2).length = (p.finishes 2).length + 1) ∧
      (p.finishes 2).length ≤ (p.starts 2).length := by
  have hs := h.stage 2 (by omega)
  have h1 := hs.stLen
  have h2 := hs.fiLen
  refine ⟨h.acc 2 (by omega), fun op ho => ?_, fun op ho => ?_, ?_⟩
  · rw [ho] at h1 h2
    simp only [Ctl.dStart, Ctl.dFinish] at h1 h2
    omega
  · rw [ho] at h1 h2
    simp only [Ctl.dStart, Ctl.dFinish] at h1 h2
    omega
  · cases hc : p.st.ctl 2 <;> rw [hc] at h1 h2 <;> simp only [Ctl.dStart, Ctl.dFinish] at h1 h2 <;> omega

theorem exec_ok (hp : TInv isHlt 3 l.lat prog 0 p) (h : CoreOK cfg k p c ph due now) (hline : CtrlLine c)
    (hpn : p.now = now) (hcn : c.now = now) (hg : p.st.ctl 2 = .got op) (hst : p.start l.lat 2 = some p')
    (hs : Started cfg k c op c' x') {s : TSys} (hsn : s.now = now) :
    CoreOK cfg k p' c' x'.phase (s.startDue cfg op) now := by
  obtain ⟨l1, l2, -, l4⟩ := exec_lens hp
  obtain ⟨e1, e2, e3, e4, e5, e6⟩ := start_two hg hst
  have hext := started_ext hs
  refine ⟨fun op' ho => ?_, fun hf => absurd e5 (hf op), fun hh => ?_, fun n hn => ?_⟩
  · rw [e5] at ho
    cases ho
    rw [e3, e4, ← l2 op hg, getD_append_self, hpn]
    cases op with
    | load dest read width vec =>
      obtain ⟨addr, h1, h2, h3⟩ := hs
      refine Or.inl ⟨c.submitted.length, addr, c.newReq k addr (.read width vec), h3, newReq_get h1 h2, rfl, rfl,
        hcn, fun a ha hid => ?_⟩
      rw [(submit_ok h1 h2).2.1] at ha
      exact absurd hid (no_answer_yet hline ha)
    | store dest read width vec =>
      obtain ⟨-, h1, addr, data, h2⟩ := hs
      refine Or.inl ⟨addr, data, h2, h1, ?_, by omega⟩
      simp only [TSys.startDue, TSys.after, hsn]
    | set a b c =>
      obtain ⟨-, ⟨d, h1, h2⟩, h3⟩ := hs
      exact ⟨h3, d, h1, h2, by simp only [TSys.startDue, TSys.after, hsn, h1], by omega⟩
    | copy a b c =>
      obtain ⟨-, ⟨d, h1, h2⟩, h3⟩ := hs
      exact ⟨h3, d, h1, h2, by simp only [TSys.startDue, TSys.after, hsn, h1], by omega⟩
    | vfu a b c d e =>
      obtain ⟨-, ⟨d, h1, h2⟩, h3⟩ := hs
      exact ⟨h3, d, h1, h2, by simp only [TSys.startDue, TSys.after, hsn, h1], by omega⟩
    | mvm a =>
      obtain ⟨-, ⟨d, h1, h2⟩, h3⟩ := hs
      exact ⟨h3, d, h1, h2, by simp only [TSys.startDue, TSys.after, hsn, h1], by omega⟩
    | hlt =>
      obtain ⟨-, ⟨d, h1, h2⟩, h3⟩ := hs
      exact ⟨h3, d, h1, h2, by simp only [TSys.startDue, TSys.after, hsn, h1], by omega⟩
  · exfalso
    cases op with
    | load dest read width vec =>
      obtain ⟨addr, h1, h2, h3⟩ := hs
      rw [h3] at hh; cases hh
    | store dest read width vec =>
      obtain ⟨-, h1, addr, data, h2⟩ := hs
      rw [h2] at hh; cases hh
    | set => rw [hs.2.2] at hh; cases hh
    | copy => rw [hs.2.2] at hh; cases hh
    | vfu => rw [hs.2.2] at hh; cases hh
    | mvm => rw [hs.2.2] at hh; cases hh
    | hlt => rw [hs.2.2] at hh; cases hh
  · rw [e4] at hn ⊢
    obtain ⟨op', h1, h2⟩ := h.past n hn
    refine ⟨op', ?_, ?_⟩
    · rw [e2, List.getElem?_append_left (by omega)]
      exact h1
    · rw [e3, getD_append_lt _ _ _ (by omega)]
      exact h2.mono hext.ans

/-- The phases within loads and stores. -/
theorem running_loadWait {id : Nat} {addr dest read width vec : Int} {st : Nat}
    (h : Running cfg k c op (.loadWait id addr dest read width vec) st due now) :
    op = .load dest read width vec ∧ ∃ r, c.submitted[id]? = some r ∧ r.core = (k : Int) ∧
      r.kind = .read width vec ∧ r.submitTime = st ∧ ∀ a ∈ c.answers, a.req.id = id → a.time = now := by
  cases op with
  | load dest' read' width' vec' =>
    rcases h with ⟨id', addr', r, h1, h2⟩ | ⟨data, r, tm, h1, -⟩
    · cases h1
      exact ⟨rfl, r, h2⟩
    · cases h1
  | store =>
    rcases h with ⟨_, _, h, -⟩ | ⟨_, _, _, h, -⟩ <;> cases h
  | set => cases h.1
  | copy => cases h.1
  | vfu => cases h.1
  | mvm => cases h.1
  | hlt => cases h.1

theorem running_loadGot {dest : Int} {data : List I32} {st : Nat}
    (h : Running cfg k c op (.loadGot dest data) st due now) :
    ∃ read width vec, op = .load dest read width vec ∧ ∃ (r : Req) (tm : Nat), .read r tm data ∈ c.answers ∧
      r.core = (k : Int) ∧
      r.kind = .read width vec ∧ r.submitTime = st ∧ 0 ≤ cfg.dataMemLat * vec ∧
      due = some (tm + (cfg.dataMemLat * vec).toNat) ∧ now ≤ tm + (cfg.dataMemLat * vec).toNat := by
  cases op with
  | load dest' read' width' vec' =>
    rcases h with ⟨id', addr', r, h1, h2⟩ | ⟨data, r, tm, h1, h2⟩
    · cases h1
    · cases h1
      exact ⟨_, _, _, rfl, r, tm, h2⟩
  | store =>
    rcases h with ⟨_, _, h, -⟩ | ⟨_, _, _, h, -⟩ <;> cases h
  | set => cases h.1
  | copy => cases h.1
  | vfu => cases h.1
  | mvm => cases h.1
  | hlt => cases h.1

theorem running_storeDelay {addr : Int} {data : List I32} {rows : Nat} {st : Nat}
    (h : Running cfg k c op (.storeDelay addr data rows) st due now) :
    ∃ dest read width vec, op = .store dest read width vec ∧ rows = vec.toNat ∧ 0 ≤ cfg.dataMemLat * vec ∧
      due = some (st + (cfg.dataMemLat * vec).toNat) ∧ now ≤ st + (cfg.dataMemLat * vec).toNat := by
  cases op with
  | load dest' read' width' vec' =>
    rcases h with ⟨id', addr', r, h1, h2⟩ | ⟨data, r, tm, h1, h2⟩ <;> cases h1
  | store =>
    rcases h with ⟨_, _, h, h1⟩ | ⟨_, _, _, h, -⟩
    · cases h
      exact ⟨_, _, _, _, rfl, rfl, h1⟩
    · cases h
  | set => cases h.1
  | copy => cases h.1
  | vfu => cases h.1
  | mvm => cases h.1
  | hlt => cases h.1

theorem running_storeWait {id : Nat} {st : Nat}
    (h : Running cfg k c op (.storeWait id) st due now) :
    ∃ dest read width vec, op = .store dest read width vec ∧ ∃ (r : Req) (data : List I32),
      c.submitted[id]? = some r ∧ r.core = (k : Int) ∧ r.kind = .write data vec.toNat ∧
      0 ≤ cfg.dataMemLat * vec ∧ r.submitTime = st + (cfg.dataMemLat * vec).toNat ∧
      ∀ a ∈ c.answers, a.req.id = id → a.time = now := by
  cases op with
  | load dest' read' width' vec' =>
    rcases h with ⟨id', addr', r, h1, h2⟩ | ⟨data, r, tm, h1, h2⟩ <;> cases h1
  | store =>
    rcases h with ⟨_, _, h, h1⟩ | ⟨_, r, data, h, h1⟩
    · cases h
    · cases h
      exact ⟨_, _, _, _, rfl, r, data, h1⟩
  | set => cases h.1
  | copy => cases h.1
  | vfu => cases h.1
  | mvm => cases h.1
  | hlt => cases h.1

theorem running_timing {st : Nat} (h : Running cfg k c op .timing st due now) :
    isHlt op = false ∧ ∃ d, cfg.execLat op = .ok d ∧ 0 ≤ d ∧ due = some (st + d.toNat) ∧ now ≤ st + d.toNat := by
  cases op with
  | load => rcases h with ⟨_, _, _, h, -⟩ | ⟨_, _, _, h, -⟩ <;> cases h
  | store => rcases h with ⟨_, _, h, -⟩ | ⟨_, _, _, h, -⟩ <;> cases h
  | set => exact ⟨rfl, h.2⟩
  | copy => exact ⟨rfl, h.2⟩
  | vfu => exact ⟨rfl, h.2⟩
  | mvm => exact ⟨rfl, h.2⟩
  | hlt => cases h.1

theorem running_halting {st : Nat} (h : Running cfg k c op .halting st due now) :
    op = .hlt ∧ ∃ d, cfg.execLat op = .ok d ∧ 0 ≤ d ∧ due = some (st + d.toNat) ∧ now ≤ st + d.toNat := by
  cases op with
  | load => rcases h with ⟨_, _, _, h, -⟩ | ⟨_, _, _, h, -⟩ <;> cases h
  | store => rcases h with ⟨_, _, h, -⟩ | ⟨_, _, _, h, -⟩ <;> cases h
  | set => cases h.1
  | copy => cases h.1
  | vfu => cases h.1
  | mvm => cases h.1
  | hlt => exact ⟨rfl, h.2⟩

theorem running_ready {st : Nat} (h : Running cfg k c op .ready st due now) : False := by
  cases op with
  | load => rcases h with ⟨_, _, _, h, -⟩ | ⟨_, _, _, h, -⟩ <;> cases h
  | store => rcases h with ⟨_, _, h, -⟩ | ⟨_, _, _, h, -⟩ <;> cases h
  | set => cases h.1
  | copy => cases h.1
  | vfu => cases h.1
  | mvm => cases h.1
  | hlt => cases h.1

theorem running_halted {st : Nat} (h : Running cfg k c op .halted st due now) : False := by
  cases op with
  | load => rcases h with ⟨_, _, _, h, -⟩ | ⟨_, _, _, h, -⟩ <;> cases h
  | store => rcases h with ⟨_, _, h, -⟩ | ⟨_, _, _, h, -⟩ <;> cases h
  | set => cases h.1
  | copy => cases h.1
  | vfu => cases h.1
  | mvm => cases h.1
  | hlt => cases h.1

/-- A core that is within an operation has it in its execution stage. -/
theorem CoreOK.isBusy (h : CoreOK cfg k p c ph due now) (h1 : ph ≠ .ready) (h2 : ph ≠ .halting) (h3 : ph ≠ .halted) :
    ∃ op, p.st.ctl 2 = .busy op := by
  by_contra hb
  have := h.free fun op ho => hb ⟨op, ho⟩
  split at this
  · rcases this with h | h
    · exact h2 h
    · exact h3 h
  · exact h1 this

theorem mid_ok (h : CoreOK cfg k p c ph due now) (hline : CtrlLine c) (hcn : c.now = now) {d : Option Nat}
    {s : TSys} (hsn : s.now = now)
    (hph : (∃ id addr dest read width vec, ph = .loadWait id addr dest read width vec ∧
        d = s.after (.ok (cfg.dataMemLat * vec))) ∨
      (∃ addr data rows, ph = .storeDelay addr data rows ∧ due = some now ∧ d = none))
    (hs : Continued cfg k c ph c' x') : CoreOK cfg k p c' x'.phase d now := by
  have hext := continued_ext hs
  have hbusy : ∃ op, p.st.ctl 2 = .busy op := by
    apply h.isBusy
    all_goals rcases hph with ⟨_, _, _, _, _, _, rfl, -⟩ | ⟨_, _, _, rfl, -⟩ <;> simp
  obtain ⟨op, hb⟩ := hbusy
  have hrun := h.busy op hb
  have past : ∀ n, n < (p.finishes 2).length → ∃ op, (p.st.accepted 2)[n]? = some op ∧
      Took cfg k c' op ((p.starts 2).getD n 0) ((p.finishes 2).getD n 0) := by
    intro n hn
    obtain ⟨op, h1, h2⟩ := h.past n hn
    exact ⟨op, h1, h2.mono hext.ans⟩
  rcases hph with ⟨id, addr, dest, read, width, vec, rfl, rfl⟩ | ⟨addr, data, rows, rfl, hdue, rfl⟩
  · obtain ⟨rfl, h0, data, hd, hx⟩ := hs
    refine ⟨fun op' ho => ?_, fun hf => absurd hb (hf op), fun hh => ?_, past⟩
    · rw [hb] at ho
      cases ho
      obtain ⟨rfl, r, r1, r2, r3, r4, r5⟩ := running_loadWait hrun
      obtain ⟨r', tm, ha, hid⟩ := readAnswer_mem hd
      have hr : r' = r := answer_unique hline ha hid r1
      subst hr
      have htm : tm = now := r5 _ ha hid
      subst htm
      exact Or.inr ⟨data, r', tm, hx, ha, r2, r3, r4, h0, by simp only [TSys.after, hsn], by omega⟩
    · rw [hx] at hh; cases hh
  · obtain ⟨h1, h2, hx⟩ := hs
    refine ⟨fun op' ho => ?_, fun hf => absurd hb (hf op), fun hh => ?_, past⟩
    · rw [hb] at ho
      cases ho
      obtain ⟨dest, read, width, vec, rfl, rfl, r1, r2, r3⟩ := running_storeDelay hrun
      refine Or.inr ⟨c.submitted.length, c.newReq k addr (.write data vec.toNat), data, hx, newReq_get h1 h2, rfl, rfl,
        r1, ?_, fun a ha hid => ?_⟩
      · rw [hdue] at r2
        injection r2 with r2
        show c.now = _
        omega
      · rw [(submit_ok h1 h2).2.1] at ha
        exact absurd hid (no_answer_yet hline ha)
    · rw [hx] at hh; cases hh

/-- The event of the operation fires: how long it took. -/
theorem fin_ok (hp : TInv isHlt 3 l.lat prog 0 p) (h : CoreOK cfg k p c ph due now) (hext : CtrlExt c c')
    (hb : p.st.ctl 2 = .busy op) (hpn : p.now = now) (hfin : p.finish 3 2 = some p')
    (htook : Took cfg k c' op ((p.starts 2).getD (p.finishes 2).length 0) now)
    (hph : x'.phase = if isHlt op then .halting else .ready) (d : Option Nat) :
    CoreOK cfg k p' c' x'.phase d now := by
  obtain ⟨l1, -, l3, l4⟩ := exec_lens hp
  obtain ⟨op', e0, e1, e2, e3, e4, e5, e6⟩ := finish_two hfin
  rw [hb] at e0
  cases e0
  have hwork := hp.inv.work 2 (by omega) op (by rw [hb]; rfl)
  obtain ⟨pre, hpre, hno⟩ := hwork
  refine ⟨fun op' ho => ?_, fun hf => ?_, fun hh => ?_, fun n hn => ?_⟩
  · rw [e5] at ho; cases ho
  · rw [e2, hpre, List.any_append]
    have : pre.any isHlt = false := List.any_eq_false.2 fun x hx => by rw [hno x hx]; simp
    rw [this, hph]
    cases ho : isHlt op <;> simp [ho]
  · exfalso
    rw [hph] at hh
    split at hh <;> cases hh
  · rw [e4, List.length_append] at hn
    rw [e2, e3, e4]
    have hb' := l3 op hb
    by_cases hlt : n < (p.finishes 2).length
    · obtain ⟨op', h1, h2⟩ := h.past n hlt
      refine ⟨op', h1, ?_⟩
      rw [getD_append_lt _ _ _ hlt]
      exact h2.mono hext.ans
    · have hn' : n = (p.finishes 2).length := by
        simp only [List.length_singleton] at hn
        omega
      subst hn'
      refine ⟨op, ?_, ?_⟩
      · rw [hpre]
        have : pre.length = (p.finishes 2).length := by
          have := congrArg List.length hpre
          rw [List.length_append, List.length_singleton] at this
          omega
        rw [List.getElem?_append_right (by omega), this]
        simp
      · rw [getD_append_self, hpn]
        exact htook

theorem fin_took (h : CoreOK cfg k p c ph due now) (hline : CtrlLine c)
    (hph : ((ph = .timing ∨ ∃ dest data, ph = .loadGot dest data) ∧ due = some now) ∨ ∃ id, ph = .storeWait id)
    (hs : Continued cfg k c ph c' x') (hb : p.st.ctl 2 = .busy op) :
    Took cfg k c' op ((p.starts 2).getD (p.finishes 2).length 0) now ∧
      x'.phase = if isHlt op then .halting else .ready := by
  have hrun := h.busy op hb
  rcases hph with ⟨rfl | ⟨dest, data, rfl⟩, hd⟩ | ⟨id, rfl⟩
  · obtain ⟨rfl, hx⟩ := hs
    obtain ⟨h1, d, h2, h3, h4, h5⟩ := running_timing hrun
    rw [hd] at h4
    injection h4 with h4
    refine ⟨?_, by rw [hx, h1]; rfl⟩
    cases op with
    | load => rcases hrun with ⟨_, _, _, h, -⟩ | ⟨_, _, _, h, -⟩ <;> cases h
    | store => rcases hrun with ⟨_, _, h, -⟩ | ⟨_, _, _, h, -⟩ <;> cases h
    | _ => exact ⟨d, h2, h3, h4⟩
  · obtain ⟨rfl, hx⟩ := hs
    obtain ⟨read, width, vec, rfl, r, tm, h1, h2, h3, h4, h5, h6, h7⟩ := running_loadGot hrun
    rw [hd] at h6
    injection h6 with h6
    exact ⟨⟨r, tm, data, h1, h2, h3, h4, h5, h6⟩, by rw [hx]; rfl⟩
  · obtain ⟨rfl, ha, hx⟩ := hs
    obtain ⟨dest, read, width, vec, rfl, r, data, h1, h2, h3, h4, h5, h6⟩ := running_storeWait hrun
    obtain ⟨r', tm, hm, hid⟩ := wroteAnswer_mem ha
    have hr : r' = r := answer_unique hline hm hid h1
    subst hr
    have htm : tm = now := h6 _ hm hid
    exact ⟨⟨r', tm, data, hm, h2, h3, h4, h5, htm.symm⟩, by rw [hx]; rfl⟩

theorem ret_ok (h : CoreOK cfg k p c .halting due now) (hd : p.st.done = true)
    (hp : TInv isHlt 3 l.lat prog 0 p) (hs : Continued cfg k c .halting c' x') :
    CoreOK cfg k p c' x'.phase due now := by
  obtain ⟨rfl, hx⟩ := hs
  have hm := hp.inv.fin hd
  have hc := hp.inv.mon.2 2 (by omega)
  rw [hp.inv.comp 2 (by omega)] at hc
  refine ⟨fun op ho => ?_, fun hf => ?_, fun _ => hd, h.past⟩
  · rw [hc] at ho; cases ho
  · have := h.free hf
    split at this
    · rename_i ha
      rw [if_pos ha]
      exact Or.inr hx
    · cases this

/-- Time passes: nothing was left to do. -/
theorem tick_ok (h : CoreOK cfg k p c ph due now) {ph' : CorePhase} (hph : ph' = ph)
    (hload : ∀ id addr dest read width vec, ph = .loadWait id addr dest read width vec →
      readAnswer id c.answers = none)
    (hstore : ∀ id, ph = .storeWait id → wroteAnswer id c.answers = false)
    (hdue : ph ≠ .ready → ph ≠ .halted → (∀ id addr dest read width vec, ph ≠ .loadWait id addr dest read width vec) →
      (∀ id, ph ≠ .storeWait id) → (∃ op, p.st.ctl 2 = .busy op) → due ≠ some now)
    (hline : CtrlLine c) (hkind : ∀ a ∈ c.answers, match a with
      | .read r _ _ => r.isWrite = false
      | .wrote r _ => r.isWrite = true) (p' : Timed CoreOp) (c' : Ctrl) (hc : c'.submitted = c.submitted)
    (hc' : c'.answers = c.answers) (e1 : p'.st = p.st) (e2 : p'.starts = p.starts) (e3 : p'.finishes = p.finishes) :
    CoreOK cfg k p' c' ph' due (now + 1) := by
  subst hph
  have noRead : ∀ id, readAnswer id c.answers = none → ∀ r tm data, .read r tm data ∈ c.answers → r.id ≠ id := by
    intro id
    generalize c.answers = as
    induction as with
    | nil => intro _ _ _ _ h; cases h
    | cons a as ih =>
      intro h r tm data hm
      cases a with
      | read r' tm' d' =>
        simp only [readAnswer] at h
        split at h
        · cases h
        · rcases List.mem_cons.1 hm with hm | hm
          · cases hm; assumption
          · exact ih h r tm data hm
      | wrote r' tm' =>
        rcases List.mem_cons.1 hm with hm | hm
        · cases hm
        · exact ih h r tm data hm
  have noWrote : ∀ id, wroteAnswer id c.answers = false → ∀ r tm, .wrote r tm ∈ c.answers → r.id ≠ id := by
    intro id
    generalize c.answers = as
    induction as with
    | nil => intro _ _ _ h; cases h
    | cons a as ih =>
      intro h r tm hm
      cases a with
      | wrote r' tm' =>
        simp only [wroteAnswer, Bool.or_eq_false_iff, decide_eq_false_iff_not] at h
        rcases List.mem_cons.1 hm with hm | hm
        · cases hm; exact h.1
        · exact ih h.2 r tm hm
      | read r' tm' d' =>
        rcases List.mem_cons.1 hm with hm | hm
        · cases hm
        · exact ih h r tm hm
  refine ⟨fun op ho => ?_, ?_, ?_, ?_⟩
  · rw [e1] at ho
    rw [e2, e3]
    have hrun := h.busy op ho
    cases hph : ph' with
    | ready => rw [hph] at hrun; exact (running_ready hrun).elim
    | halted => rw [hph] at hrun; exact (running_halted hrun).elim
    | loadWait id addr dest read width vec =>
      rw [hph] at hrun
      obtain ⟨rfl, r, r1, r2, r3, r4, r5⟩ := running_loadWait hrun
      refine Or.inl ⟨id, addr, r, rfl, by rw [hc]; exact r1, r2, r3, r4, fun a ha hid => ?_⟩
      rw [hc'] at ha
      exfalso
      have hr : a.req = r := answer_unique hline ha hid r1
      have hk := hkind a ha
      cases a with
      | read r' tm data => exact noRead id (hload _ _ _ _ _ _ hph) r' tm data ha hid
      | wrote r' tm =>
        have hr : r' = r := hr
        simp only [hr, Req.isWrite, r3] at hk
        cases hk
    | storeWait id =>
      rw [hph] at hrun
      obtain ⟨dest, read, width, vec, rfl, r, data, r1, r2, r3, r4, r5, r6⟩ := running_storeWait hrun
      refine Or.inr ⟨id, r, data, rfl, by rw [hc]; exact r1, r2, r3, r4, r5, fun a ha hid => ?_⟩
      rw [hc'] at ha
      exfalso
      have hr : a.req = r := answer_unique hline ha hid r1
      have hk := hkind a ha
      cases a with
      | wrote r' tm => exact noWrote id (hstore _ hph) r' tm ha hid
      | read r' tm data =>
        have hr : r' = r := hr
        simp only [hr, Req.isWrite, r3] at hk
        cases hk
    | timing =>
      rw [hph] at hrun
      have hd := hdue (by simp [hph]) (by simp [hph]) (by simp [hph]) (by simp [hph]) ⟨op, ho⟩
      obtain ⟨h1, d, h2, h3, h4, h5⟩ := running_timing hrun
      have h6 : now + 1 ≤ (p.starts 2).getD (p.finishes 2).length 0 + d.toNat := by
        rcases Nat.lt_or_ge now ((p.starts 2).getD (p.finishes 2).length 0 + d.toNat) with h | h
        · exact h
        · exact absurd (by rw [h4, Nat.le_antisymm h5 h]) hd
      cases op with
      | load => rcases hrun with ⟨_, _, _, h, -⟩ | ⟨_, _, _, h, -⟩ <;> cases h
      | store => rcases hrun with ⟨_, _, h, -⟩ | ⟨_, _, _, h, -⟩ <;> cases h
      | hlt => cases h1
      | _ => exact ⟨rfl, d, h2, h3, h4, h6⟩
    | halting =>
      rw [hph] at hrun
      have hd := hdue (by simp [hph]) (by simp [hph]) (by simp [hph]) (by simp [hph]) ⟨op, ho⟩
      obtain ⟨rfl, d, h2, h3, h4, h5⟩ := running_halting hrun
      have h6 : now + 1 ≤ (p.starts 2).getD (p.finishes 2).length 0 + d.toNat := by
        rcases Nat.lt_or_ge now ((p.starts 2).getD (p.finishes 2).length 0 + d.toNat) with h | h
        · exact h
        · exact absurd (by rw [h4, Nat.le_antisymm h5 h]) hd
      exact ⟨rfl, d, h2, h3, h4, h6⟩
    | loadGot dest data =>
      rw [hph] at hrun
      have hd := hdue (by simp [hph]) (by simp [hph]) (by simp [hph]) (by simp [hph]) ⟨op, ho⟩
      obtain ⟨read, width, vec, rfl, r, tm, h1, h2, h3, h4, h5, h6, h7⟩ := running_loadGot hrun
      refine Or.inr ⟨data, r, tm, rfl, by rw [hc']; exact h1, h2, h3, h4, h5, h6, ?_⟩
      rcases Nat.lt_or_ge now (tm + (cfg.dataMemLat * vec).toNat) with h | h
      · exact h
      · exact absurd (by rw [h6, Nat.le_antisymm h7 h]) hd
    | storeDelay addr data rows =>
      rw [hph] at hrun
      have hd := hdue (by simp [hph]) (by simp [hph]) (by simp [hph]) (by simp [hph]) ⟨op, ho⟩
      obtain ⟨dest, read, width, vec, rfl, rfl, h1, h2, h3⟩ := running_storeDelay hrun
      refine Or.inl ⟨addr, data, rfl, h1, h2, ?_⟩
      rcases Nat.lt_or_ge now ((p.starts 2).getD (p.finishes 2).length 0 + (cfg.dataMemLat * vec).toNat) with h | h
      · exact h
      · exact absurd (by rw [h2, Nat.le_antisymm h3 h]) hd
  · rw [e1]; exact h.free
  · rw [e1]; exact h.done
  · rw [e1, e2, e3]
    intro n hn
    obtain ⟨op, h1, h2⟩ := h.past n hn
    exact ⟨op, h1, h2.mono (by rw [hc'])⟩

end

/-! ## The node -/

/-- Invariant of the node. -/
structure TSI (cfg : SysCfg) (l : StageLat) (i : SysInit) (s : TSys) : Prop where
  pipes : ∀ t k, cfg.hasCore t k = true →
    ∃ acts, (Timed.init (i.prog t k) 0).run isHlt 3 l.lat acts = some (s.pipe t k)
  pnow : ∀ t k, cfg.hasCore t k = true → (s.pipe t k).now = s.now
  cnow : s.sys.crashed = none → ∀ t, t < cfg.net.tiles → (s.sys.tile t).ctrl.now = s.now
  core : s.sys.crashed = none → ∀ t k, cfg.hasCore t k = true →
    CoreOK cfg k (s.pipe t k) (s.sys.tile t).ctrl ((s.sys.tile t).core k).phase (s.due t k) s.now

theorem hasCore_tile {cfg : SysCfg} {t k : Nat} (h : cfg.hasCore t k = true) : t < cfg.net.tiles := by
  unfold SysCfg.hasCore at h
  simp only [Bool.and_eq_true, decide_eq_true_eq] at h
  exact h.1

theorem hasCore_core {cfg : SysCfg} {t k : Nat} (h : cfg.hasCore t k = true) : k < cfg.cores := by
  unfold SysCfg.hasCore at h
  simp only [Bool.and_eq_true, decide_eq_true_eq] at h
  exact h.2

theorem TSI.tinv {cfg : SysCfg} {l : StageLat} {i : SysInit} {s : TSys} (h : TSI cfg l i s) {t k : Nat}
    (hk : cfg.hasCore t k = true) : TInv isHlt 3 l.lat (i.prog t k) 0 (s.pipe t k) := by
  obtain ⟨acts, ha⟩ := h.pipes t k hk
  exact tinv_run (by omega) acts (tinv_init (by omega)) ha

/-- The pipelines after one of them has acted. -/
theorem pipes_upd2 {cfg : SysCfg} {l : StageLat} {i : SysInit} {s : TSys} (h : TSI cfg l i s) {t k : Nat}
    {a : PAct} {p : Timed CoreOp} (hp : (s.pipe t k).act isHlt 3 l.lat a = some p) (hn : p.now = (s.pipe t k).now) :
    ∀ t' k', cfg.hasCore t' k' = true →
      (∃ acts, (Timed.init (i.prog t' k') 0).run isHlt 3 l.lat acts = some (upd2 s.pipe t k p t' k')) ∧
      (upd2 s.pipe t k p t' k').now = s.now := by
  intro t' k' hk'
  rw [upd2_apply]
  split
  · rename_i heq
    obtain ⟨rfl, rfl⟩ := heq
    obtain ⟨acts, ha⟩ := h.pipes t' k' hk'
    exact ⟨⟨acts ++ [a], timed_run_snoc acts ha hp⟩, by rw [hn, h.pnow t' k' hk']⟩
  · exact ⟨h.pipes t' k' hk', h.pnow t' k' hk'⟩

/-- One core and its controller change. -/
theorem tsi_setBoth {cfg : SysCfg} {l : StageLat} {i : SysInit} {s : TSys} (h : TSI cfg l i s)
    (hc : s.sys.crashed = none) {t k : Nat} (hk : cfg.hasCore t k = true) {p : Timed CoreOp} {c' : Ctrl} {x' : CoreSt}
    {d : Option Nat}
    (hpipes : ∀ t' k', cfg.hasCore t' k' = true →
      (∃ acts, (Timed.init (i.prog t' k') 0).run isHlt 3 l.lat acts = some (upd2 s.pipe t k p t' k')) ∧
      (upd2 s.pipe t k p t' k').now = s.now)
    (hext : CtrlExt (s.sys.tile t).ctrl c') (hok : CoreOK cfg k p c' x'.phase d s.now) :
    TSI cfg l i (s.setPipe (s.sys.setBoth t k c' x') t k p d) := by
  refine ⟨fun t' k' hk' => (hpipes t' k' hk').1, fun t' k' hk' => (hpipes t' k' hk').2, fun _ t' ht' => ?_,
    fun _ t' k' hk' => ?_⟩
  · show ((s.sys.setBoth t k c' x').tile t').ctrl.now = s.now
    rw [setBoth_ctrl]
    split
    · rename_i heq
      subst heq
      rw [hext.now]
      exact h.cnow hc _ ht'
    · exact h.cnow hc _ ht'
  · show CoreOK cfg k' (upd2 s.pipe t k p t' k') ((s.sys.setBoth t k c' x').tile t').ctrl
      (((s.sys.setBoth t k c' x').tile t').core k').phase (upd2 s.due t k d t' k') s.now
    rw [setBoth_ctrl, setBoth_core, upd2_apply, upd2_apply]
    by_cases heq : t' = t ∧ k' = k
    · obtain ⟨rfl, rfl⟩ := heq
      simp only [and_self, if_true]
      exact hok
    · simp only [heq, if_false]
      by_cases ht : t' = t
      · subst ht
        simp only [if_true]
        exact (h.core hc t' k' hk').mono (.rfl' _) hext (h.cnow hc _ (hasCore_tile hk'))
      · simp only [ht, if_false]
        exact h.core hc t' k' hk'

theorem tsi_tick {cfg : SysCfg} {l : StageLat} {i : SysInit} {s s' : TSys} (h : TSI cfg l i s)
    (hc : s.sys.crashed = none) (hline : ∀ t, CtrlLine (s.sys.tile t).ctrl)
    (hal : ∀ t, (s.sys.tile t).ctrl.crashed = none) (ht : s.tick cfg l = some s') : TSI cfg l i s' := by
  unfold TSys.tick at ht
  split at ht
  · rename_i hq
    cases ht
    have hcore : ∀ t k, cfg.hasCore t k = true → s.coreQuiet cfg l t k = true := by
      intro t k hk
      have h1 := List.all_eq_true.1 hq t (List.mem_range.2 (hasCore_tile hk))
      unfold TSys.tileQuiet at h1
      simp only [Bool.and_eq_true] at h1
      exact List.all_eq_true.1 h1.2 k (List.mem_range.2 (hasCore_core hk))
    refine ⟨fun t k hk => ?_, fun t k hk => ?_, fun _ t ht => ?_, fun _ t k hk => ?_⟩
    · dsimp only
      rw [if_pos hk]
      obtain ⟨acts, ha⟩ := h.pipes t k hk
      refine ⟨acts ++ [.tick], timed_run_snoc acts ha ?_⟩
      have hqk := hcore t k hk
      unfold TSys.coreQuiet at hqk
      simp only [Bool.and_eq_true] at hqk
      simp only [Timed.act]
      rw [if_pos hqk.1.1.1.1, h.pnow t k hk]
    · dsimp only
      rw [if_pos hk]
    · dsimp only
      rw [if_pos ht]
      show (s.sys.tile t).ctrl.now + 1 = _
      rw [h.cnow hc t ht]
    · have htl := hasCore_tile hk
      have hqk := hcore t k hk
      unfold TSys.coreQuiet at hqk
      simp only [Bool.and_eq_true, Option.isNone_iff_eq_none] at hqk
      obtain ⟨⟨⟨⟨-, -⟩, hmid⟩, hfin⟩, -⟩ := hqk
      have hok := h.core hc t k hk
      have hfinish : (∃ op, (s.pipe t k).st.ctl 2 = .busy op) → ∃ p, (s.pipe t k).finish 3 2 = some p := by
        rintro ⟨op, ho⟩
        have hs := (h.tinv hk).stage 2 (by omega)
        have hd := (hs.running op ho).1
        simp only [StageLat.lat, Option.map_none] at hd
        unfold Timed.finish Timed.due
        rw [ho, hd]
        exact ⟨_, rfl⟩
      dsimp only
      rw [if_pos hk, if_pos htl]
      refine tick_ok hok rfl ?_ ?_ ?_ (hline t) ?_ _ _ rfl rfl rfl rfl rfl
      · intro id addr dest read width vec hph
        cases hr : readAnswer id (s.sys.tile t).ctrl.answers with
        | none => rfl
        | some data =>
          exfalso
          have hcs : ∃ y, s.sys.coreStep cfg t k = some y := by
            unfold Sys.coreStep
            simp only [hph, hr]
            split <;> exact ⟨_, rfl⟩
          obtain ⟨y, hy⟩ := hcs
          unfold TSys.mid at hmid
          rw [hph, hy] at hmid
          cases hmid
      · intro id hph
        obtain ⟨p, hp⟩ := hfinish (hok.isBusy (by simp [hph]) (by simp [hph]) (by simp [hph]))
        cases hw : wroteAnswer id (s.sys.tile t).ctrl.answers with
        | false => rfl
        | true =>
          exfalso
          have hcs : ∃ y, s.sys.coreStep cfg t k = some y := by
            unfold Sys.coreStep
            simp only [hph, hw, if_true]
            exact ⟨_, rfl⟩
          obtain ⟨y, hy⟩ := hcs
          unfold TSys.fin at hfin
          rw [hph, hy, hp] at hfin
          cases hfin
      · intro h1 h2 h3 h4 h5 hdue
        have hexp : s.expired t k = true := by
          unfold TSys.expired
          exact decide_eq_true hdue
        obtain ⟨p, hp⟩ := hfinish h5
        cases hph : ((s.sys.tile t).core k).phase with
        | ready => exact h1 hph
        | halted => exact h2 hph
        | loadWait => exact h3 _ _ _ _ _ _ hph
        | storeWait => exact h4 _ hph
        | timing =>
          have hcs : ∃ y, s.sys.coreStep cfg t k = some y := by
            unfold Sys.coreStep
            simp only [hph]
            exact ⟨_, rfl⟩
          obtain ⟨y, hy⟩ := hcs
          unfold TSys.fin at hfin
          rw [hph, hy, hp, hexp] at hfin
          cases hfin
        | halting =>
          unfold TSys.fin at hfin
          rw [hph, hp, hexp] at hfin
          cases hfin
        | loadGot dest data =>
          have hcs : ∃ y, s.sys.coreStep cfg t k = some y := by
            unfold Sys.coreStep
            simp only [hph]
            split <;> exact ⟨_, rfl⟩
          obtain ⟨y, hy⟩ := hcs
          unfold TSys.fin at hfin
          rw [hph, hy, hp, hexp] at hfin
          cases hfin
        | storeDelay addr data rows =>
          have hcs : ∃ y, s.sys.coreStep cfg t k = some y := by
            unfold Sys.coreStep
            simp only [hph]
            unfold Sys.ctrlAct Ctrl.act
            rw [hal t]
            exact ⟨_, rfl⟩
          obtain ⟨y, hy⟩ := hcs
          unfold TSys.mid at hmid
          rw [hph, hy, hexp] at hmid
          cases hmid
      · intro a ha
        have := (hline t).kinds a ha
        cases a <;> exact this
  · cases ht

/-- The invariant is preserved. -/
theorem tsi_eff {cfg : SysCfg} {l : StageLat} {i : SysInit} {s s' : TSys} (h : TSI cfg l i s)
    (hc : s.sys.crashed = none) (hline : ∀ t, CtrlLine (s.sys.tile t).ctrl)
    (hal : ∀ t, (s.sys.tile t).ctrl.crashed = none) (st : TEff cfg l s s') : TSI cfg l i s' := by
  cases st with
  | crash sys hs =>
    have hn : ∀ P : Prop, sys.crashed = none → P := by
      intro P he
      rw [he] at hs
      cases hs
    exact ⟨h.pipes, h.pnow, fun he => hn _ he, fun he => hn _ he⟩
  | pipe t k hk a p h1 h2 hm =>
    have hsame := move_same hm h1 h2
    have hact : (s.pipe t k).act isHlt 3 l.lat a = some p := by
      cases a with
      | tick => cases hm
      | _ => exact hm
    have hp := pipes_upd2 h hact hsame.now
    refine ⟨fun t' k' hk' => (hp t' k' hk').1, fun t' k' hk' => (hp t' k' hk').2, h.cnow, fun _ t' k' hk' => ?_⟩
    dsimp only
    rw [upd2_apply]
    split
    · rename_i heq
      obtain ⟨rfl, rfl⟩ := heq
      exact (h.core hc _ _ hk').mono hsame (.rfl' _) (h.cnow hc _ (hasCore_tile hk'))
    · exact h.core hc _ _ hk'
  | exec t k hk op p c' x' hg hp hs =>
    have hact : (s.pipe t k).act isHlt 3 l.lat (.start 2) = some p := hp
    refine tsi_setBoth h hc hk (pipes_upd2 h hact (start_two hg hp).1) (started_ext hs) ?_
    exact exec_ok (h.tinv hk) (h.core hc t k hk) (hline t) (h.pnow t k hk) (h.cnow hc t (hasCore_tile hk)) hg hp hs rfl
  | mid t k hk c' x' d hph hs =>
    refine tsi_setBoth h hc hk (fun t' k' hk' => ?_) (continued_ext hs) ?_
    · rw [upd2_apply]
      split
      · rename_i heq
        obtain ⟨rfl, rfl⟩ := heq
        exact ⟨h.pipes t' k' hk', h.pnow t' k' hk'⟩
      · exact ⟨h.pipes t' k' hk', h.pnow t' k' hk'⟩
    · refine mid_ok (h.core hc t k hk) (hline t) (h.cnow hc t (hasCore_tile hk)) rfl ?_ hs
      rcases hph with h1 | ⟨addr, data, rows, h1, h2, h3⟩
      · exact Or.inl h1
      · exact Or.inr ⟨addr, data, rows, h1, of_decide_eq_true h2, h3⟩
  | fin t k hk c' x' p hph hs hp =>
    have hact : (s.pipe t k).act isHlt 3 l.lat (.finish 2) = some p := hp
    obtain ⟨op, hb, hn, -⟩ := finish_two hp
    refine tsi_setBoth h hc hk (pipes_upd2 h hact hn) (continued_ext hs) ?_
    have htook := fin_took (h.core hc t k hk) (hline t) (by
      rcases hph with ⟨h1, h2⟩ | h1
      · exact Or.inl ⟨h1, of_decide_eq_true h2⟩
      · exact Or.inr h1) hs hb
    exact fin_ok (h.tinv hk) (h.core hc t k hk) (continued_ext hs) hb (h.pnow t k hk) hp htook.1 htook.2 none
  | finHlt t k hk p hph he hp =>
    have hact : (s.pipe t k).act isHlt 3 l.lat (.finish 2) = some p := hp
    obtain ⟨op, hb, hn, -⟩ := finish_two hp
    have hok := h.core hc t k hk
    have hrun := hok.busy op hb
    rw [hph] at hrun
    obtain ⟨rfl, d, h1, h2, h3, h4⟩ := running_halting hrun
    have hsame : s.sys.setBoth t k (s.sys.tile t).ctrl ((s.sys.tile t).core k) = s.sys := by
      unfold Sys.setBoth
      rw [upd_eq]
      exact setTile_self _ _
    rw [← hsame]
    refine tsi_setBoth h hc hk (pipes_upd2 h hact hn) (.rfl' _) ?_
    have hdue : s.due t k = some s.now := of_decide_eq_true he
    rw [hdue] at h3
    injection h3 with h3
    exact fin_ok (h.tinv hk) hok (.rfl' _) hb (h.pnow t k hk) hp ⟨d, h1, h2, h3⟩ hph none
  | ret t k hk c' x' hph hd hs =>
    have hok := h.core hc t k hk
    rw [hph] at hok hs
    have := tsi_setBoth (p := s.pipe t k) (d := s.due t k) h hc hk (fun t' k' hk' => ?_) (continued_ext hs)
      (ret_ok hok hd (h.tinv hk) hs)
    · refine ⟨h.pipes, h.pnow, this.cnow, fun hc' t' k' hk' => ?_⟩
      have h1 := this.core hc' t' k' hk'
      simp only [TSys.setPipe] at h1
      rw [upd2_apply, upd2_apply] at h1
      split at h1
      · rename_i heq
        obtain ⟨rfl, rfl⟩ := heq
        exact h1
      · exact h1
    · rw [upd2_apply]
      split
      · rename_i heq
        obtain ⟨rfl, rfl⟩ := heq
        exact ⟨h.pipes t' k' hk', h.pnow t' k' hk'⟩
      · exact ⟨h.pipes t' k' hk', h.pnow t' k' hk'⟩
  | other sys hs =>
    refine ⟨h.pipes, h.pnow, fun _ t ht => ?_, fun _ t k hk => ?_⟩
    · show (sys.tile t).ctrl.now = s.now
      rw [(hs t).2.now]
      exact h.cnow hc t ht
    · show CoreOK cfg k (s.pipe t k) (sys.tile t).ctrl ((sys.tile t).core k).phase (s.due t k) s.now
      rw [(hs t).1]
      exact (h.core hc t k hk).mono (.rfl' _) (hs t).2 (h.cnow hc t (hasCore_tile hk))
  | tick s' ht => exact tsi_tick h hc hline hal ht

end Ramwich
