import Verif.Lemmas.SysCatchUp

/-! # What a node that has not raised has got past

Facts about the past of a run from which it follows that another run does not raise either (C80). -/
namespace Ramwich

open Pipeline (upd)
open Spec

/-! ## Packets that have left -/

/-- The target of a packet of tile `t` is another tile of the node. -/
def routeOk (c : NetConfig) (t : Nat) (p : Packet) : Prop :=
  0 ≤ p.target ∧ p.target < c.tiles ∧ p.target ≠ (t : Int)

/-- The packets that the send thread has delivered. -/
def NetGone (c : NetConfig) (n : Net) : Prop :=
  ∀ t, ∃ P, n.sent t = P ++ ((n.sender t).held.toList ++ n.queue t) ∧ ∀ p ∈ P, routeOk c t p

theorem netGone_act {c : NetConfig} {n n' : Net} {a : NetAct} (hi : NetInv c n) (h : NetGone c n)
    (ha : n.act c a = some n') : NetGone c n' := by
  obtain ⟨-, -, ha⟩ := net_act_cases ha
  intro t
  have ht := h t
  cases a with
  | send i target data =>
    obtain ⟨rfl, -⟩ := sendIf_send ha
    by_cases hti : t = i
    · subst hti
      obtain ⟨P, hP, hg⟩ := ht
      refine ⟨P, ?_, hg⟩
      simp only [Net.send, upd_same]
      rw [hP]
      simp
    · simp only [Net.send, upd_ne _ _ _ _ hti]
      exact ht
  | added i =>
    dsimp only at ha
    unfold Net.added at ha
    split at ha
    · cases ha
    · injection ha with ha; subst ha; exact ht
  | thread i =>
    dsimp only at ha
    unfold Net.thread at ha
    by_cases hst : n.stopper i = .stopped
    · rw [if_pos hst] at ha; cases ha
    rw [if_neg hst] at ha
    by_cases hti : t = i
    · subst hti
      cases hk : n.sender t with
      | idle =>
        rw [hk] at ha ht
        dsimp only at ha
        cases hq : n.queue t with
        | nil => rw [hq] at ha; cases ha
        | cons p rest =>
          rw [hq] at ha ht
          injection ha with ha
          subst ha
          simpa [upd_same, Sender.held] using ht
      | handed p =>
        rw [hk] at ha ht
        dsimp only at ha
        repeat' split at ha
        all_goals (injection ha with ha; subst ha; simpa [upd_same, Sender.held, Net.crash, hk] using ht)
      | flying p b =>
        rw [hk] at ha ht
        dsimp only at ha
        repeat' split at ha
        all_goals (injection ha with ha; subst ha; simpa [upd_same, Sender.held, Net.crash, hk] using ht)
      | putting p b =>
        have h1 := hi.route t p b (by rw [hk]; rfl)
        have h2 := hi.atTarget t p (by rw [hk]; rfl)
        have h3 := (hi.src t).2 p (by rw [hk]; rfl)
        rw [hk] at ha ht
        dsimp only at ha
        split at ha
        · injection ha with ha
          subst ha
          obtain ⟨P, hP, hg⟩ := ht
          refine ⟨P ++ [p], ?_, ?_⟩
          · simp only [upd_same, Sender.held, Option.toList_none, List.nil_append]
            rw [hP]
            simp [Sender.held]
          · intro q hq
            rcases List.mem_append.1 hq with hq | hq
            · exact hg q hq
            · rw [List.mem_singleton.1 hq]
              exact ⟨h1.1, h1.2.1, by rw [← h3]; exact h2⟩
        · cases ha
      | deposited p b =>
        rw [hk] at ha ht
        injection ha with ha
        subst ha
        simpa [upd_same, Sender.held] using ht
      | delivered p b =>
        rw [hk] at ha ht
        injection ha with ha
        subst ha
        simpa [upd_same, Sender.held] using ht
    · dsimp only at ha
      repeat' split at ha
      all_goals first
        | (injection ha with ha; subst ha; exact ht)
        | (injection ha with ha; subst ha; dsimp only; simp only [upd_ne _ _ _ _ hti]; exact ht)
        | cases ha
  | startRead i source =>
    dsimp only at ha
    unfold Net.startRead at ha
    repeat' split at ha
    all_goals first
      | (injection ha with ha; subst ha; exact ht)
      | cases ha
  | take i =>
    obtain ⟨_, _, _, -, -, rfl⟩ := view_take ha
    exact ht
  | readDone i =>
    obtain ⟨y, ha⟩ := ha
    obtain ⟨_, -, rfl⟩ := view_readDone ha
    exact ht
  | halt i =>
    obtain ⟨-, rfl⟩ := view_halt ha
    exact ht
  | stopStep i =>
    obtain ⟨h1, h2, st, -, rfl⟩ := view_stopStep ha
    exact ht

theorem netGone_run (c : NetConfig) (as : List NetAct) (s : Net) (hs : Net.run c {} as = some s) : NetGone c s :=
  (net_run_induction (P := fun n => NetInv c n ∧ NetGone c n)
    (fun s s' a h ha => ⟨netInv_act c s s' a h.1 ha, netGone_act h.1 h.2 ha⟩) as {} s
    ⟨netInv_init c, fun _ => ⟨[], rfl, by simp⟩⟩ hs).2

/-! ## Core processes -/

theorem coreRan_prefix {fl : FloatActs} {noise : Nat → Nat → Nat → Noise} (log : List CoreEv) :
    ∀ (n : Nat) (c : Core) (p : List CoreOp) (more : List CoreEv) (cF : Core) (pF : List CoreOp),
    coreRan fl noise n c p (log ++ more) cF pF →
    ∃ cv rest, coreRan fl noise n c p log cv rest ∧ coreRan fl noise (n + log.length) cv rest more cF pF := by
  induction log with
  | nil => intro n c p more cF pF h; exact ⟨c, p, ⟨rfl, rfl⟩, h⟩
  | cons e log ih =>
    intro n c p more cF pF h
    obtain ⟨r, h1, h2, h3⟩ := h
    obtain ⟨cv, rest, h4, h5⟩ := ih _ _ _ _ _ _ h3
    refine ⟨cv, rest, ⟨r, h1, h2, h4⟩, ?_⟩
    rw [List.length_cons, show n + (log.length + 1) = n + 1 + log.length by omega]
    exact h5

theorem coreRan_rest {fl : FloatActs} {noise : Nat → Nat → Nat → Noise} (log : List CoreEv) :
    ∀ (n : Nat) (c : Core) (p : List CoreOp) (cv : Core) (rest : List CoreOp),
    coreRan fl noise n c p log cv rest → ∀ op ∈ rest, op ∈ p := by
  induction log with
  | nil => rintro n c p cv rest ⟨-, rfl⟩ op h; exact h
  | cons e log ih =>
    rintro n c p cv rest ⟨r, h1, -, h3⟩ op h
    have := ih _ _ _ _ _ h3 op h
    rw [h1]
    split at this
    · cases this
    · exact List.mem_cons_of_mem _ this

/-- Loads whose data is in the registers have found them. -/
structure LoadsDone (cfg : SysCfg) (i : SysInit) (t k : Nat) (x : CoreSt) : Prop where
  done : ∀ l1 e l2 dest read w v, x.log = l1 ++ e :: l2 → e.op = .load dest read w v →
    ∀ cv rest c1, coreRan cfg.fl (cfg.noise t k) 0 (i.core t k) (i.prog t k) l1 cv rest →
      cv.loadAddress read = (.ok e.addr, c1) → (l2 ≠ [] ∨ ∀ d y, x.phase ≠ .loadGot d y) →
      (c1.loadFinish dest e.data).1 = .ok ()
  opened : ∀ dest data, x.phase = .loadGot dest data → ∃ l1 e read w v, x.log = l1 ++ [e] ∧
    e.op = .load dest read w v ∧ e.data = data ∧ ∀ cv rest c1,
      coreRan cfg.fl (cfg.noise t k) 0 (i.core t k) (i.prog t k) l1 cv rest →
      cv.loadAddress read = (.ok e.addr, c1) → x.core = c1

/-- A core process that logs nothing and is not at the end of a load. -/
theorem loadsDone_same {cfg : SysCfg} {i : SysInit} {t k : Nat} {x y : CoreSt} (h : LoadsDone cfg i t k x)
    (hlog : y.log = x.log) (hx : ∀ d z, x.phase ≠ .loadGot d z) (hy : ∀ d z, y.phase ≠ .loadGot d z) :
    LoadsDone cfg i t k y := by
  refine ⟨?_, fun d z hz => absurd hz (hy d z)⟩
  intro l1 e l2 dest read w v h1 h2 cv rest c1 h3 h4 _
  exact h.done l1 e l2 dest read w v (hlog ▸ h1) h2 cv rest c1 h3 h4 (Or.inr hx)

/-- A core process that logs something else than a load. -/
theorem loadsDone_log {cfg : SysCfg} {i : SysInit} {t k : Nat} {x y : CoreSt} (h : LoadsDone cfg i t k x) {e : CoreEv}
    (hlog : y.log = x.log ++ [e]) (he : ∀ dest read w v, e.op ≠ .load dest read w v)
    (hx : ∀ d z, x.phase ≠ .loadGot d z) (hy : ∀ d z, y.phase ≠ .loadGot d z) : LoadsDone cfg i t k y := by
  refine ⟨?_, fun d z hz => absurd hz (hy d z)⟩
  intro l1 e1 l2 dest read w v h1 h2 cv rest c1 h3 h4 _
  rw [hlog] at h1
  rcases snoc_split h1 with ⟨-, -, h5⟩ | ⟨l2', -, h5⟩
  · rw [h5] at h2; exact absurd h2 (he _ _ _ _)
  · exact h.done l1 e1 l2' dest read w v h5 h2 cv rest c1 h3 h4 (Or.inr hx)

/-! ## Tile processes -/

/-- The event needs a running controller. -/
def TileEv.served : TileEv → Bool
  | .sent .. => true
  | .received .. => true
  | _ => false

structure TileHist (cfg : SysCfg) (i : SysInit) (t : Nat) (x : TileSt) : Prop where
  ops : ∃ done, i.ops t = done ++ x.ops ∧ ∀ a s w v, .receive a s w v ∈ done → 0 ≤ w ∧ 0 ≤ v
  wait : ∀ a s w v g, x.phase = .recvWait a s w v g → cfg.net.hasBuffer t s = true
  rows : ∀ s y, .row s y ∈ x.log → cfg.net.hasBuffer t s = true
  after : ∀ l1 l2, x.log = l1 ++ .halted :: l2 → ∀ e ∈ l2, e.served = false
  cores : ∀ k, LoadsDone cfg i t k (x.core k)

theorem tileHist_core {cfg : SysCfg} {i : SysInit} {t : Nat} {x : TileSt} (h : TileHist cfg i t x) (c : Ctrl) (k : Nat)
    (y : CoreSt) (hy : LoadsDone cfg i t k y) : TileHist cfg i t (TileSt.setCore { x with ctrl := c } k y) := by
  refine ⟨h.ops, h.wait, h.rows, h.after, fun j => ?_⟩
  rw [setCore_core]
  by_cases hj : j = k
  · rw [if_pos hj, hj]; exact hy
  · rw [if_neg hj]; exact h.cores j

/-- Nothing is logged that needs the controller after a Halt. -/
theorem after_snoc {log : List TileEv} {e : TileEv} (h : ∀ l1 l2, log = l1 ++ .halted :: l2 → ∀ e ∈ l2, e.served = false)
    (he : .halted ∈ log → e.served = false) :
    ∀ l1 l2, log ++ [e] = l1 ++ .halted :: l2 → ∀ e ∈ l2, e.served = false := by
  intro l1 l2 h1 e1 h2
  rcases snoc_split h1 with ⟨h3, -, -⟩ | ⟨l2', h3, h4⟩
  · rw [h3] at h2; cases h2
  · rw [h3] at h2
    rcases List.mem_append.1 h2 with h2 | h2
    · exact h _ _ h4 _ h2
    · rw [List.mem_singleton.1 h2]
      exact he (by rw [h4]; simp)

theorem tileHist_step {cfg : SysCfg} {i : SysInit} {t : Nat} {v v' : NetView} {x x' : TileSt}
    (ha : TileAll cfg i t v x) (h : TileHist cfg i t x) (st : TileStep cfg t x v x' v') : TileHist cfg i t x' := by
  have hserv : ∀ p, x.phase = p → p.inService = true → .halted ∈ x.log → False := by
    intro p hp hs hh
    have h1 := ha.service (by rw [hp]; exact hs)
    rw [ha.stopped hh] at h1
    cases h1
  have hph : ∀ (k : Nat) (p : CorePhase), (x.core k).phase = p → (∀ d z, p ≠ .loadGot d z) →
      ∀ d z, (x.core k).phase ≠ .loadGot d z := by
    intro k p hp hn d z hz
    exact hn d z (hp.symm.trans hz)
  cases st with
  | ctrl a c hc hs hst => exact ⟨h.ops, h.wait, h.rows, h.after, h.cores⟩
  | take src y hr => exact h
  | run k op rest c hk hp hq hop he =>
    refine tileHist_core h x.ctrl k _ (loadsDone_log (h.cores k) rfl ?_ (hph k _ hp (by simp)) ?_)
    · intro d r w v ho
      rw [show op = .load d r w v from ho] at hop
      cases hop
    · intro d z hz
      dsimp only at hz
      split at hz <;> cases hz
  | timed k hk hp => exact tileHist_core h x.ctrl k _ (loadsDone_same (h.cores k) rfl (hph k _ hp (by simp)) (by simp))
  | load k dest read width vec rest addr c c' hk hp hq he hc hn =>
    exact tileHist_core h c' k _ (loadsDone_same (h.cores k) rfl (hph k _ hp (by simp)) (by simp))
  | loaded k id addr dest read width vec data hk hp hans =>
    refine tileHist_core h x.ctrl k _ ⟨?_, ?_⟩
    · intro l1 e l2 d r w v h1 h2 cv rest c1 h3 h4 h5
      rcases snoc_split h1 with ⟨h6, -, -⟩ | ⟨l2', -, h6⟩
      · exact (h5.elim (fun h => h h6) (fun h => h _ _ rfl)).elim
      · exact (h.cores k).done l1 e l2' d r w v h6 h2 cv rest c1 h3 h4 (Or.inr (hph k _ hp (by simp)))
    · intro d z hz
      have hz : CorePhase.loadGot dest data = .loadGot d z := hz
      injection hz with h1 h2
      subst h1 h2
      refine ⟨_, _, read, width, vec, rfl, rfl, rfl, ?_⟩
      intro cv rest c1 h3 h4
      obtain ⟨cv', rest', h5, h6⟩ := (ha.cores k).ran
      unfold CorePhaseOk at h6
      rw [hp] at h6
      obtain ⟨rfl, rfl⟩ := coreRan_unique h5 h3
      have h7 := h6.2.1
      have h4 : cv.loadAddress read = (.ok addr, c1) := h4
      rw [h7] at h4
      injection h4
  | loadDone k dest data c hk hp he =>
    refine tileHist_core h x.ctrl k _ ⟨?_, by simp⟩
    intro l1 e l2 d r w v h1 h2 cv rest c1 h3 h4 _
    have h1 : (x.core k).log = l1 ++ e :: l2 := h1
    by_cases hl : l2 = []
    · obtain ⟨l1', e', r', w', v', h5, h6, h7, h8⟩ := (h.cores k).opened dest data hp
      rw [h5, hl] at h1
      obtain ⟨h9, h10⟩ := List.append_inj' h1 rfl
      simp only [List.cons.injEq, and_true] at h10
      subst h9 h10
      rw [h6] at h2
      injection h2 with h2a h2b
      subst h2a h2b
      rw [← h8 cv rest c1 h3 h4, h7, he]
    · exact (h.cores k).done l1 e l2 d r w v h1 h2 cv rest c1 h3 h4 (Or.inl hl)
  | store k dest read width vec rest addr data c hk hp hq he =>
    exact tileHist_core h x.ctrl k _ (loadsDone_log (h.cores k) rfl (by simp) (hph k _ hp (by simp)) (by simp))
  | stored k addr data rows c' hk hp hc hn =>
    exact tileHist_core h c' k _ (loadsDone_same (h.cores k) rfl (hph k _ hp (by simp)) (by simp))
  | storeDone k id hk hp hans =>
    exact tileHist_core h x.ctrl k _ (loadsDone_same (h.cores k) rfl (hph k _ hp (by simp)) (by simp))
  | halted k hk hp => exact tileHist_core h x.ctrl k _ (loadsDone_same (h.cores k) rfl (hph k _ hp (by simp)) (by simp))
  | send addr target width vec rest c' hp hq hc hn =>
    refine ⟨?_, by simp, h.rows, h.after, h.cores⟩
    obtain ⟨dn, h1, h2⟩ := h.ops
    refine ⟨dn ++ [.send addr target width vec], by rw [h1, hq]; simp, ?_⟩
    intro a s w v hm
    rcases List.mem_append.1 hm with hm | hm
    · exact h2 a s w v hm
    · cases List.mem_singleton.1 hm
  | sendGot id addr target width vec data hp hans hw hv' =>
    refine ⟨h.ops, by simp, ?_, after_snoc h.after fun hh => (hserv _ hp rfl hh).elim, h.cores⟩
    intro s y hm
    rcases List.mem_append.1 hm with hm | hm
    · exact h.rows s y hm
    · cases List.mem_singleton.1 hm
  | sendRow target row rows hp => exact ⟨h.ops, by simp, h.rows, h.after, h.cores⟩
  | sendEnd target hp => exact ⟨h.ops, by simp, h.rows, h.after, h.cores⟩
  | added target rows hp => exact ⟨h.ops, by simp, h.rows, h.after, h.cores⟩
  | recv addr source width vec rest hp hq hw hv' =>
    refine ⟨?_, by simp, h.rows, h.after, h.cores⟩
    obtain ⟨dn, h1, h2⟩ := h.ops
    refine ⟨dn ++ [.receive addr source width vec], by rw [h1, hq]; simp, ?_⟩
    intro a s w v hm
    rcases List.mem_append.1 hm with hm | hm
    · exact h2 a s w v hm
    · have := List.mem_singleton.1 hm
      injection this with e1 e2 e3 e4
      rw [e3, e4]
      exact ⟨hw, hv'⟩
  | recvRead addr source width vec got hp hg hr hb =>
    refine ⟨h.ops, ?_, h.rows, h.after, h.cores⟩
    intro a s w v g hz
    have hz : TilePhase.recvWait addr source width vec got = .recvWait a s w v g := hz
    injection hz with e1 e2
    rw [← e2]; exact hb
  | recvRow addr source width vec got src data hp hr =>
    refine ⟨h.ops, ?_, ?_, after_snoc h.after fun _ => rfl, h.cores⟩
    · intro a s w v g hz
      dsimp only at hz
      split at hz <;> cases hz
    · intro s y hm
      rcases List.mem_append.1 hm with hm | hm
      · exact h.rows s y hm
      · have := List.mem_singleton.1 hm
        injection this with e1
        rw [e1]
        exact h.wait _ _ _ _ _ hp
  | recvAll addr source width vec got c' hp hg hc hn =>
    refine ⟨h.ops, by simp, ?_, after_snoc h.after fun hh => ?_, h.cores⟩
    · intro s y hm
      rcases List.mem_append.1 hm with hm | hm
      · exact h.rows s y hm
      · cases List.mem_singleton.1 hm
    · have h1 := (submit_ok hc hn).2.2.1
      rw [ha.stopped hh] at h1
      cases h1
  | recvDone id hp hans => exact ⟨h.ops, by simp, h.rows, h.after, h.cores⟩
  | halt rest hp hq =>
    refine ⟨?_, by simp, h.rows, h.after, h.cores⟩
    obtain ⟨dn, h1, h2⟩ := h.ops
    refine ⟨dn ++ [.halt], by rw [h1, hq]; simp, ?_⟩
    intro a s w v hm
    rcases List.mem_append.1 hm with hm | hm
    · exact h2 a s w v hm
    · cases List.mem_singleton.1 hm
  | haltCores st hp hh hs => exact ⟨h.ops, by simp, h.rows, h.after, h.cores⟩
  | stopStep st hp hs hs' => exact h
  | haltEnd c' hp hs hc hn =>
    refine ⟨h.ops, by simp, ?_, after_snoc h.after fun _ => rfl, h.cores⟩
    intro s y hm
    rcases List.mem_append.1 hm with hm | hm
    · exact h.rows s y hm
    · cases List.mem_singleton.1 hm

theorem tileHist_run {cfg : SysCfg} {i : SysInit} (h0 : ∀ t, GoodStart (i.mem t) (i.valid t)) (as : List SysAct)
    (s : Sys) (h : i.start.run cfg as = some s) (t : Nat) : TileHist cfg i t (s.tile t) := by
  refine (sys_run_induction (P := fun s => SysInv cfg i s ∧ ∀ t, TileHist cfg i t (s.tile t)) ?_ as _ s ?_ h).2 t
  · intro s s' hs st
    refine ⟨sysInv_step h0 s s' hs.1 st, fun t => ?_⟩
    rcases st.tile t with ⟨h1, -⟩ | ⟨-, h1⟩
    · rw [h1]; exact hs.2 t
    · exact tileHist_step (hs.1.tile t) (hs.2 t) h1
  · refine ⟨sysInv_run h0 [] _ rfl, fun t => ⟨⟨[], rfl, by simp⟩, ?_, ?_, ?_, fun k => ⟨?_, ?_⟩⟩⟩ <;>
      simp [SysInit.start]

end Ramwich
