import Verif.Lemmas.DramResponse
import Verif.Lemmas.SysReach
import Verif.Lemmas.SysDet
import Verif.Spec.SysTimes

/-! # Times of the requests that the processes of a tile submit -/
namespace Ramwich

open Pipeline (upd)
open Spec

/-- A process has at most one unanswered request. -/
theorem one_open {cfg : SysCfg} {i : SysInit} {t : Nat} {v : NetView} {x : TileSt} (h : TileAll cfg i t v x)
    (hline : CtrlLine x.ctrl) {r r' : Req} (hr : r ∈ x.ctrl.submitted) (hr' : r' ∈ x.ctrl.submitted)
    (ha : ¬answered x.ctrl r) (ha' : ¬answered x.ctrl r') (hc : r.core = r'.core) : r = r' := by
  have hid : r.id = r'.id := by
    have tileOne : ∀ {p : TilePhase} {a b : Nat}, p.waits a → p.waits b → a = b := by
      intro p a b h1 h2
      cases p <;> simp only [TilePhase.waits] at h1 h2 <;> omega
    have coreOne : ∀ {p : CorePhase} {a b : Nat}, p.waits a → p.waits b → a = b := by
      intro p a b h1 h2
      cases p <;> simp only [CorePhase.waits] at h1 h2 <;> omega
    rcases h.owner r hr with h1 | ⟨h1, h2⟩ | ⟨k, -, h1, h2⟩
    · exact absurd h1 ha
    · rcases h.owner r' hr' with h3 | ⟨h3, h4⟩ | ⟨k', -, h3, h4⟩
      · exact absurd h3 ha'
      · exact tileOne h2 h4
      · omega
    · rcases h.owner r' hr' with h3 | ⟨h3, h4⟩ | ⟨k', -, h3, h4⟩
      · exact absurd h3 ha'
      · omega
      · have : k = k' := by omega
        subst this
        exact coreOne h2 h4
  have h1 := (submitted_mem _ hline r hr).2
  have h2 := (submitted_mem _ hline r' hr').2
  rw [hid, h2] at h1
  injection h1 with h1
  exact h1.symm

/-- The core numbers of the processes of a tile: -1 is the tile process. -/
def procOf (cfg : SysCfg) (n : Int) : Prop := n = -1 ∨ ∃ k : Nat, k < cfg.cores ∧ n = k

/-- How a step changes the controller. -/
theorem tileStep_ctrl {cfg : SysCfg} {t : Nat} {v v' : NetView} {x x' : TileSt} (st : TileStep cfg t x v x' v') :
    x'.ctrl = x.ctrl ∨ ∃ a, x.ctrl.act cfg.edramLat a = some x'.ctrl ∧ (a = .stop → x.phase = .haltRouter) ∧
      (∀ core start kind, a = .submit core start kind → x'.ctrl.submitted = x.ctrl.submitted ∨ procOf cfg core) := by
  cases st with
  | ctrl a c h hs hst => exact Or.inr ⟨a, h, hst, fun _ _ _ _ => Or.inl hs⟩
  | load k _ _ _ _ _ _ _ c' hk _ _ _ hc =>
    exact Or.inr ⟨_, hc, by simp, by rintro _ _ _ ⟨⟩; exact Or.inr (Or.inr ⟨k, hk, rfl⟩)⟩
  | stored k _ _ _ c' hk _ hc =>
    exact Or.inr ⟨_, hc, by simp, by rintro _ _ _ ⟨⟩; exact Or.inr (Or.inr ⟨k, hk, rfl⟩)⟩
  | send _ _ _ _ _ c' _ _ hc => exact Or.inr ⟨_, hc, by simp, by rintro _ _ _ ⟨⟩; exact Or.inr (Or.inl rfl)⟩
  | recvAll _ _ _ _ _ c' _ _ hc => exact Or.inr ⟨_, hc, by simp, by rintro _ _ _ ⟨⟩; exact Or.inr (Or.inl rfl)⟩
  | haltEnd c' hp _ hc => exact Or.inr ⟨_, hc, fun _ => hp, by simp⟩
  | _ => exact Or.inl rfl

/-- Requests of other processes, at most one of each. -/
def others (cfg : SysCfg) (c : Ctrl) (r : Req) (L : List Req) : Prop :=
  (∀ x ∈ L, x ∈ c.submitted ∧ x.core ≠ r.core ∧ procOf cfg x.core) ∧ (L.map Req.core).Nodup

/-- The controller of a tile of a node. -/
structure CtrlUsed (cfg : SysCfg) (i : SysInit) (t : Nat) (c : Ctrl) : Prop where
  all : CtrlAll cfg.edramLat (i.mem t) (i.valid t) 0 c
  alive : c.running = c.handlerAlive
  closed : c.handlerAlive = false → ∀ r ∈ c.submitted, answered c r
  procs : ∀ r ∈ c.submitted, procOf cfg r.core
  fair : ∀ r ∈ c.submitted, timely (i.valid t) c.answers r →
    ∃ L, others cfg c r L ∧
      Due cfg.edramLat r (r.submitTime + workload cfg.edramLat L + serviceTime cfg.edramLat r) False c
  seq : ∀ r ∈ c.submitted, ∀ r' ∈ c.submitted, r.core = r'.core → r.id < r'.id →
    ∃ (n : Nat) (a : Answer), c.answers[n]? = some a ∧ a.req = r ∧ a.time ≤ r'.submitTime ∧
      ∀ (m : Nat) (b : Answer), c.answers[m]? = some b → b.req = r' → n < m

theorem timely_servable {lat : Int} {m0 : Memory} {v0 : List Bool} (hv : v0.length = m0.size) {t0 : Nat} {c : Ctrl}
    (h : CtrlInv lat m0 v0 t0 c) {r : Req} (ht : timely v0 c.answers r) : Servable c.valid r := by
  rcases ht with ht | ⟨h1, h2, h3⟩
  · exact Or.inl ht
  · refine Or.inr ⟨?_, h2, fun a ha => ?_⟩
    · rw [h.mem.vlen, ← hv]; exact h1
    · have hlt : a < m0.size := by
        have := h1.2; have := ha.2; omega
      rw [h.mem.vals a hlt, wordValid_iff]
      rcases h3 a ha with h4 | ⟨w, tm, h4, -, h5⟩
      · exact Or.inl h4
      · exact Or.inr ⟨w, writesOf_mem.2 ⟨tm, h4⟩, h5⟩

theorem base_le_now {lat : Int} {m0 : Memory} {v0 : List Bool} {t0 : Nat} {c : Ctrl} (h : CtrlAll lat m0 v0 t0 c) :
    c.base ≤ c.now := by
  unfold Ctrl.base
  cases hd : c.deadline with
  | none => exact Nat.le_refl _
  | some d =>
    obtain ⟨x, rest, hb, -⟩ := h.inv.time.serving d hd
    have h1 := lastTime_le lat t0 c h.inv.time
    have h2 := (h.inv.time.past x (line_mem c h.inv.line x (by simp [Ctrl.line, hb]))).2
    simp only [hb, List.head?_cons, Option.map_some, Option.getD_some]
    omega

/-- What is in the line has not been answered. -/
theorem line_open {c : Ctrl} (h : CtrlLine c) {r : Req} (hr : r ∈ c.line ++ c.pending) : ¬answered c r := by
  rintro ⟨a, ha, hne⟩
  have hnd := h.perm.nodup_iff.2 (submitted_nodup c h)
  exact (List.nodup_append.1 hnd).2.2 r hr a.req (List.mem_map_of_mem ha) hne.symm

theorem due_mono {lat : Int} {r : Req} {b b' : Nat} {E : Prop} {c : Ctrl} (h : Due lat r b E c) (hb : b ≤ b') :
    Due lat r b' False c := by
  rcases h with ⟨a, h1, h2, h3, -⟩ | ⟨h1, pre, post, h2, h3, -⟩
  · exact Or.inl ⟨a, h1, h2, by omega, False.elim⟩
  · exact Or.inr ⟨h1, pre, post, h2, by omega, False.elim⟩

theorem ctrlUsed_step {cfg : SysCfg} {i : SysInit} {t : Nat} (h0 : GoodStart (i.mem t) (i.valid t))
    {v v' : NetView} {x x' : TileSt} (hT : TileAll cfg i t v x) (h : CtrlUsed cfg i t x.ctrl)
    (hT' : TileAll cfg i t v' x') (st : TileStep cfg t x v x' v') : CtrlUsed cfg i t x'.ctrl := by
  rcases tileStep_ctrl st with he | ⟨a, ha, hstop, hproc⟩
  · rw [he]; exact h
  have hopen : ∀ {r r' : Req}, r ∈ x'.ctrl.submitted → r' ∈ x'.ctrl.submitted → ¬answered x'.ctrl r →
      ¬answered x'.ctrl r' → r.core = r'.core → r = r' :=
    one_open hT' (ctrlInv_of h0 hT'.ctrl).line
  generalize x'.ctrl = c' at ha hproc hopen ⊢
  generalize hcc : x.ctrl = c at ha hproc h
  have hs := act_step _ _ _ _ ha
  have hall' := ctrlAll_step _ _ _ _ _ _ h.all hs
  have hal' := alive_step _ _ _ h.alive hs
  obtain ⟨m1, m2⟩ := act_mono ha
  -- the new answers have the current time
  have hnew : ∀ b ∈ c'.answers, b ∈ c.answers ∨ b.time = c.now := by
    intro b hb
    cases hs <;> first
      | exact Or.inl hb
      | (rcases List.mem_append.1 hb with hb | hb
         · exact Or.inl hb
         · rw [List.mem_singleton.1 hb]; exact Or.inr rfl)
  have htimely : ∀ r ∈ c.submitted, timely (i.valid t) c'.answers r → timely (i.valid t) c.answers r := by
    intro r hr ht
    rcases ht with ht | ⟨h1, h2, h3⟩
    · exact Or.inl ht
    · refine Or.inr ⟨h1, h2, fun a ha => ?_⟩
      rcases h3 a ha with h4 | ⟨w, tm, h4, h5, h6⟩
      · exact Or.inl h4
      · rcases hnew _ h4 with h7 | h7
        · exact Or.inr ⟨w, tm, h7, h5, h6⟩
        · rcases h5 with h5 | ⟨h5, h8⟩
          · have := (h.all.inv.time.past r hr).2
            simp only [Answer.time] at h7
            omega
          · have hlen := (submitted_mem c h.all.inv.line r hr).1
            have hw := (submitted_mem c' hall'.inv.line w (answer_submitted hall'.inv.line h4)).2
            have hw' : w ∈ c.submitted := by
              obtain ⟨z, hz⟩ := m1
              rw [← hz, List.getElem?_append_left (by omega)] at hw
              exact List.mem_of_getElem? hw
            obtain ⟨n, b, g1, g2, -⟩ := h.seq w hw' r hr h5 h8
            have hk := hall'.inv.line.kinds _ h4
            have hk' := h.all.inv.line.kinds _ (List.mem_of_getElem? g1)
            cases b with
            | wrote w' tm' =>
              simp only [Answer.req] at g2
              subst g2
              exact Or.inr ⟨w', tm', List.mem_of_getElem? g1, Or.inr ⟨h5, h8⟩, h6⟩
            | read w' tm' d =>
              simp only [Answer.req] at g2 hk hk'
              rw [g2, hk] at hk'
              cases hk'
  have hline : c.handlerAlive = true ∨ c.line = [] := by
    cases hb : c.handlerAlive with
    | true => exact Or.inl rfl
    | false => exact Or.inr (answered_all h.all.inv.line (h.closed hb)).1
  have hfair : ∀ r ∈ c.submitted, timely (i.valid t) c'.answers r →
      ∃ L, others cfg c' r L ∧
        Due cfg.edramLat r (r.submitTime + workload cfg.edramLat L + serviceTime cfg.edramLat r) False c' := by
    intro r hr ht
    obtain ⟨L, h1, h2⟩ := h.fair r hr (htimely r hr ht)
    exact ⟨L, ⟨fun y hy => ⟨m1.subset (h1.1 y hy).1, (h1.1 y hy).2⟩, h1.2⟩,
      due_step _ _ _ _ _ _ _ _ _ h.all hline h2 hs⟩
  have hseq : ∀ r ∈ c.submitted, ∀ r' ∈ c.submitted, r.core = r'.core → r.id < r'.id →
      ∃ (n : Nat) (a : Answer), c'.answers[n]? = some a ∧ a.req = r ∧ a.time ≤ r'.submitTime ∧
        ∀ (m : Nat) (b : Answer), c'.answers[m]? = some b → b.req = r' → n < m := by
    intro r hr r' hr' hcore hid
    obtain ⟨n, a, h1, h2, h3, h4⟩ := h.seq r hr r' hr' hcore hid
    refine ⟨n, a, prefix_getElem? m2 h1, h2, h3, fun m b hb hbr => ?_⟩
    by_cases hm : m < c.answers.length
    · refine h4 m b ?_ hbr
      obtain ⟨z, hz⟩ := m2
      rw [← hz, List.getElem?_append_left hm] at hb
      exact hb
    · have := (List.getElem?_eq_some_iff.1 h1).1
      omega
  by_cases hsame : c'.submitted = c.submitted
  · refine ⟨hall', hal', ?_, ?_, ?_, ?_⟩
    · intro hd r hr
      rw [hsame] at hr
      cases hb : c.handlerAlive with
      | false => exact answered_mono m2 (h.closed hb r hr)
      | true =>
        have hph : x.phase = .haltRouter := by
          cases hs with
          | crash e => dsimp only [Ctrl.crash] at hd; rw [hb] at hd; cases hd
          | stop => exact hstop rfl
          | stopped => exact hstop rfl
          | _ => dsimp only at hd; rw [hb] at hd; cases hd
        refine answered_mono m2 ?_
        rw [← hcc]
        refine answered_of_halting hT (hT.halting (Or.inl hph)) ?_ r (by rw [hcc]; exact hr)
        intro id hw; rw [hph] at hw; cases hw
    · rw [hsame]; exact h.procs
    · rw [hsame]; exact hfair
    · rw [hsame]; exact hseq
  · cases hs with
    | submit core start kind hrun =>
      have hno : ¬answered c (c.newReq core start kind) := by
        rintro ⟨b, hb, hbr⟩
        have := (submitted_mem c h.all.inv.line _ (answer_submitted h.all.inv.line hb)).1
        rw [hbr] at this
        simp [Ctrl.newReq] at this
      have hp : procOf cfg core := by
        rcases hproc core start kind rfl with h1 | h1
        · exact absurd h1 hsame
        · exact h1
      refine ⟨hall', hal', ?_, ?_, ?_, ?_⟩
      · intro hd; dsimp only at hd; rw [← h.alive, hrun] at hd; cases hd
      · intro r hr
        rcases List.mem_append.1 hr with hr | hr
        · exact h.procs r hr
        · rw [List.mem_singleton.1 hr]; exact hp
      · intro r hr ht
        rcases List.mem_append.1 hr with hr | hr
        · exact hfair r hr ht
        · rw [List.mem_singleton.1 hr] at ht ⊢
          have hsv := timely_servable h0.vlen h.all.inv ht
          have hd := due_submitted cfg.edramLat _ _ _ c h.all hrun core start kind hsv
          have hsub : c.submit core start kind = { c with
              queue := c.queue ++ [c.newReq core start kind]
              submitted := c.submitted ++ [c.newReq core start kind]
              stats := c.stats.submitted (c.newReq core start kind) } := by
            unfold Ctrl.submit
            rw [if_neg (by simp [hrun])]
            cases kind <;> rfl
          rw [hsub] at hd
          refine ⟨c.line, ⟨?_, ?_⟩, due_mono hd ?_⟩
          · intro y hy
            have hys := line_mem c h.all.inv.line y hy
            refine ⟨List.mem_append_left _ hys, ?_, h.procs y hys⟩
            intro hcore
            have := hopen (List.mem_append_left _ hys) (List.mem_append_right _ (List.mem_singleton.2 rfl))
              (line_open h.all.inv.line (List.mem_append_left _ hy)) hno hcore
            have h1 := (submitted_mem c h.all.inv.line y hys).1
            rw [this] at h1
            simp [Ctrl.newReq] at h1
          · rw [List.nodup_iff_pairwise_ne, List.pairwise_map]
            have hnd := h.all.inv.line.perm.nodup_iff.2 (submitted_nodup c h.all.inv.line)
            have hnd' := (List.nodup_append.1 (List.nodup_append.1 hnd).1).1
            refine List.Pairwise.imp_of_mem ?_ (List.nodup_iff_pairwise_ne.1 hnd')
            intro y z hy hz hne hcore
            exact hne (hopen (List.mem_append_left _ (line_mem c h.all.inv.line y hy))
              (List.mem_append_left _ (line_mem c h.all.inv.line z hz))
              (line_open h.all.inv.line (List.mem_append_left _ hy))
              (line_open h.all.inv.line (List.mem_append_left _ hz)) hcore)
          · rw [base_clearAt _ _ c h.all.inv.time h.all.busy]
            have := base_le_now h.all
            show _ ≤ c.now + _ + _
            omega
      · intro r hr r' hr' hcore hid
        rcases List.mem_append.1 hr with hr1 | hr1
        · rcases List.mem_append.1 hr' with hr2 | hr2
          · exact hseq r hr1 r' hr2 hcore hid
          · rw [List.mem_singleton.1 hr2] at hcore hid ⊢
            have hans : answered c r := by
              by_contra hna
              have := hopen hr (List.mem_append_right _ (List.mem_singleton.2 rfl)) hna hno hcore
              rw [this] at hid
              omega
            obtain ⟨b, hb, hbr⟩ := hans
            obtain ⟨n, hn⟩ := List.mem_iff_getElem?.1 hb
            refine ⟨n, b, hn, hbr, (h.all.inv.time.answered b hb).1, ?_⟩
            intro m b' hb' hbr'
            exact absurd ⟨b', List.mem_of_getElem? hb', hbr'⟩ hno
        · rw [List.mem_singleton.1 hr1] at hid
          have h1 := (submitted_mem _ hall'.inv.line r' hr').1
          simp [Ctrl.newReq] at hid h1
          omega
    | _ => exact absurd rfl hsame

theorem ctrlUsed_run {cfg : SysCfg} {i : SysInit} (h0 : ∀ t, GoodStart (i.mem t) (i.valid t)) (as : List SysAct)
    (s : Sys) (h : i.start.run cfg as = some s) (t : Nat) : CtrlUsed cfg i t (s.tile t).ctrl := by
  refine (sys_run_induction (P := fun s => SysInv cfg i s ∧ ∀ t, CtrlUsed cfg i t (s.tile t).ctrl)
    ?_ as _ s ?_ h).2 t
  · intro s s' hs st
    have h1 := sysInv_step h0 s s' hs.1 st
    refine ⟨h1, fun t => ?_⟩
    rcases st.tile t with ⟨h2, -⟩ | ⟨-, h2⟩
    · rw [h2]; exact hs.2 t
    · exact ctrlUsed_step (h0 t) (hs.1.tile t) (hs.2 t) (h1.tile t) h2
  · refine ⟨⟨⟨[], rfl⟩, fun t => tileAll_start cfg i t, (fun _ h => by cases h), fun _ => ⟨rfl, fun _ => rfl⟩⟩,
      fun t => ?_⟩
    refine ⟨⟨ctrlInv_started _ _ _ _ (h0 t), ctrlBusy_started _ _ _ _⟩, rfl, ?_, ?_, ?_, ?_⟩ <;>
      simp [SysInit.start, Ctrl.started]

/-- A read that has been answered did not have to wait for data if no other process uses the DRAM. -/
theorem timely_alone {cfg : SysCfg} {i : SysInit} {t : Nat} (h0 : GoodStart (i.mem t) (i.valid t)) {c : Ctrl}
    (h : CtrlUsed cfg i t c) {n : Int} (hn : ∀ r ∈ c.submitted, r.core = n) {a : Answer} (ha : a ∈ c.answers) :
    timely (i.valid t) c.answers a.req := by
  have hline := h.all.inv.line
  cases a with
  | wrote r tm => exact Or.inl (hline.kinds _ ha)
  | read r tm d =>
    obtain ⟨pre, post, hs⟩ := List.append_of_mem ha
    have g := h.all.inv.ans.reads pre r tm d post hs
    have hr := answer_submitted hline ha
    refine Or.inr ⟨by rw [h0.vlen]; exact g.inside, g.pos.le, fun x hx => ?_⟩
    rcases (wordValid_iff x _ _).1 (g.valid x hx) with h1 | ⟨w, hw, h2⟩
    · exact Or.inl h1
    obtain ⟨tw, hw⟩ := writesOf_mem.1 hw
    have hwa : .wrote w tw ∈ c.answers := by rw [hs]; exact List.mem_append_left _ hw
    have hws := answer_submitted hline hwa
    refine Or.inr ⟨w, tw, hwa, Or.inr ⟨(hn _ hws).trans (hn _ hr).symm, ?_⟩, h2⟩
    by_contra hle
    have hne : w.id ≠ r.id := by
      intro he
      have h3 := (submitted_mem c hline w hws).2
      have h4 := (submitted_mem c hline r hr).2
      rw [he, h4] at h3
      injection h3 with h3
      have h5 := hline.kinds _ hwa
      have h6 := hline.kinds _ ha
      simp only at h5 h6
      rw [h3, h5] at h6
      cases h6
    obtain ⟨k, b, g1, g2, -, g4⟩ := h.seq r hr w hws ((hn _ hr).trans (hn _ hws).symm) (by simp only [Answer.req] at hle; omega)
    -- the write is in front of the read in the list of answers
    obtain ⟨m, hm⟩ := List.mem_iff_getElem?.1 hw
    have hml := (List.getElem?_eq_some_iff.1 hm).1
    have h7 := g4 m (.wrote w tw) (by rw [hs, List.getElem?_append_left hml]; exact hm) rfl
    -- and the read occurs only once
    have hnd : (c.answers.map Answer.req).Nodup :=
      (List.nodup_append.1 (hline.perm.nodup_iff.2 (submitted_nodup c hline))).2.1
    have hk : k = pre.length := by
      have e1 : (c.answers.map Answer.req)[k]? = some r := by rw [List.getElem?_map, g1]; simp [g2]
      have e2 : (c.answers.map Answer.req)[pre.length]? = some r := by
        rw [List.getElem?_map, hs, List.getElem?_append_right (Nat.le_refl _)]; simp [Answer.req]
      have hlt := (List.getElem?_eq_some_iff.1 e1).1
      exact (List.getElem?_inj hlt hnd).1 (by rw [e1, e2])
    omega

end Ramwich
