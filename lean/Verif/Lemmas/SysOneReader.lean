import Verif.Lemmas.SysRest

/-! # Tiles with one reading process; nodes that are stuck -/
namespace Ramwich

open Pipeline (upd)
open Spec

/-! ## What waits for a read comes from the program -/

/-- What is left of the programs is part of them; what waits for a read has executed one. -/
structure TileReads (i : SysInit) (t : Nat) (x : TileSt) : Prop where
  prog : ∀ k, ∀ op ∈ (x.core k).prog, op ∈ i.prog t k
  load : ∀ k id addr dest read width vec, (x.core k).phase = .loadWait id addr dest read width vec →
    hasLoad (i.prog t k)
  ops : ∀ op ∈ x.ops, op ∈ i.ops t
  send : ∀ id addr target width vec, x.phase = .sendWait id addr target width vec → hasSend (i.ops t)

theorem tileReads_core {i : SysInit} {t : Nat} {x : TileSt} (h : TileReads i t x) (c : Ctrl) (k : Nat) (y : CoreSt)
    (h1 : ∀ op ∈ y.prog, op ∈ i.prog t k)
    (h2 : ∀ id addr dest read width vec, y.phase = .loadWait id addr dest read width vec → hasLoad (i.prog t k)) :
    TileReads i t (TileSt.setCore { x with ctrl := c } k y) := by
  refine ⟨fun j op hj => ?_, fun j id addr dest read width vec hj => ?_, h.ops, h.send⟩
  · simp only [setCore_core] at hj
    by_cases hjk : j = k
    · rw [if_pos hjk] at hj; rw [hjk]; exact h1 op hj
    · rw [if_neg hjk] at hj; exact h.prog j op hj
  · simp only [setCore_core] at hj
    by_cases hjk : j = k
    · rw [if_pos hjk] at hj; rw [hjk]; exact h2 _ _ _ _ _ _ hj
    · rw [if_neg hjk] at hj; exact h.load j _ _ _ _ _ _ hj

theorem tileReads_step {cfg : SysCfg} {i : SysInit} {t : Nat} {v v' : NetView} {x x' : TileSt} (h : TileReads i t x)
    (st : TileStep cfg t x v x' v') : TileReads i t x' := by
  cases st with
  | ctrl a c hc hs hst => exact ⟨h.prog, h.load, h.ops, h.send⟩
  | take src y hr => exact h
  | run k op rest c hk hp hq hop he =>
    refine tileReads_core h x.ctrl k _ ?_ ?_
    · intro o ho
      dsimp only at ho
      split at ho
      · cases ho
      · exact h.prog k o (by rw [hq]; exact List.mem_cons_of_mem _ ho)
    · intro _ _ _ _ _ _ h1
      dsimp only at h1
      split at h1 <;> cases h1
  | timed k hk hp => exact tileReads_core h x.ctrl k _ (h.prog k) (by simp)
  | load k dest read width vec rest addr c c' hk hp hq he hc hn =>
    refine tileReads_core h c' k _ (fun o ho => h.prog k o (by rw [hq]; exact List.mem_cons_of_mem _ ho)) ?_
    intro _ _ _ _ _ _ _
    exact ⟨dest, read, width, vec, h.prog k _ (by rw [hq]; exact List.mem_cons_self)⟩
  | loaded k id addr dest read width vec data hk hp ha => exact tileReads_core h x.ctrl k _ (h.prog k) (by simp)
  | loadDone k dest data c hk hp he => exact tileReads_core h x.ctrl k _ (h.prog k) (by simp)
  | store k dest read width vec rest addr data c hk hp hq he =>
    exact tileReads_core h x.ctrl k _ (fun o ho => h.prog k o (by rw [hq]; exact List.mem_cons_of_mem _ ho)) (by simp)
  | stored k addr data rows c' hk hp hc hn => exact tileReads_core h c' k _ (h.prog k) (by simp)
  | storeDone k id hk hp ha => exact tileReads_core h x.ctrl k _ (h.prog k) (by simp)
  | halted k hk hp => exact tileReads_core h x.ctrl k _ (h.prog k) (by simp)
  | send addr target width vec rest c' hp hq hc hn =>
    refine ⟨h.prog, h.load, fun o ho => h.ops o (by rw [hq]; exact List.mem_cons_of_mem _ ho), ?_⟩
    intro _ _ _ _ _ _
    exact ⟨addr, target, width, vec, h.ops _ (by rw [hq]; exact List.mem_cons_self)⟩
  | sendGot id addr target width vec data hp ha hw hv => exact ⟨h.prog, h.load, h.ops, by simp⟩
  | sendRow target row rows hp => exact ⟨h.prog, h.load, h.ops, by simp⟩
  | sendEnd target hp => exact ⟨h.prog, h.load, h.ops, by simp⟩
  | added target rows hp => exact ⟨h.prog, h.load, h.ops, by simp⟩
  | recv addr source width vec rest hp hq hw hv =>
    exact ⟨h.prog, h.load, fun o ho => h.ops o (by rw [hq]; exact List.mem_cons_of_mem _ ho), by simp⟩
  | recvRead addr source width vec got hp hg hr hb => exact ⟨h.prog, h.load, h.ops, by simp⟩
  | recvRow addr source width vec got src data hp hr =>
    refine ⟨h.prog, h.load, h.ops, ?_⟩
    intro _ _ _ _ _ h1
    dsimp only at h1
    split at h1 <;> cases h1
  | recvAll addr source width vec got c' hp hg hc hn => exact ⟨h.prog, h.load, h.ops, by simp⟩
  | recvDone id hp ha => exact ⟨h.prog, h.load, h.ops, by simp⟩
  | halt rest hp hq =>
    exact ⟨h.prog, h.load, fun o ho => h.ops o (by rw [hq]; exact List.mem_cons_of_mem _ ho), by simp⟩
  | haltCores st hp hh hs => exact ⟨h.prog, h.load, h.ops, by simp⟩
  | stopStep st hp hs hs' => exact h
  | haltEnd c' hp hs hc hn => exact ⟨h.prog, h.load, h.ops, by simp⟩

theorem tileReads_run {cfg : SysCfg} {i : SysInit} (as : List SysAct) (s : Sys)
    (h : i.start.run cfg as = some s) (t : Nat) : TileReads i t (s.tile t) := by
  refine sys_run_induction (P := fun s => ∀ t, TileReads i t (s.tile t)) ?_ as _ s ?_ h t
  · intro s s' hs st t
    rcases st.tile t with ⟨h1, -⟩ | ⟨-, h1⟩
    · rw [h1]; exact hs t
    · exact tileReads_step (hs t) h1
  · intro t
    refine ⟨fun k op hk => hk, fun k id _ _ _ _ _ hp => ?_, fun op ho => ho, fun id _ _ _ _ hp => ?_⟩
    · cases hp
    · cases hp

/-! ## At most one read waits -/

theorem pending_owner {cfg : SysCfg} {i : SysInit} {t : Nat} {v : NetView} {x : TileSt}
    (h0 : GoodStart (i.mem t) (i.valid t)) (hall : TileAll cfg i t v x) (hw : TileWaits v x) {r : Req}
    (hr : r ∈ x.ctrl.pending) :
    (∃ addr target width vec, x.phase = .sendWait r.id addr target width vec) ∨
    ∃ k < cfg.cores, ∃ addr dest read width vec, (x.core k).phase = .loadWait r.id addr dest read width vec := by
  have hl := (ctrlInv_of h0 hall.ctrl).line
  have hsub := pending_mem x.ctrl hl r hr
  have hget := (submitted_mem x.ctrl hl r hsub).2
  have hrd := hl.reads r hr
  rcases hall.owner r hsub with ⟨a, ha, har⟩ | ⟨-, h1⟩ | ⟨k, hk, -, h1⟩
  · exfalso
    have hnd := hl.perm.nodup_iff.2 (submitted_nodup x.ctrl hl)
    rw [List.nodup_append] at hnd
    exact hnd.2.2 r (List.mem_append_right _ hr) r (List.mem_map.2 ⟨a, ha, har⟩) rfl
  · cases hp : x.phase <;> rw [hp] at h1 <;> try (cases h1; done)
    · rename_i id addr target width vec
      have h1 : id = r.id := h1
      subst h1
      exact Or.inl ⟨_, _, _, _, rfl⟩
    · rename_i id
      have h1 : id = r.id := h1
      subst h1
      obtain ⟨r', h2, h3⟩ := hw.recv _ hp
      rw [hget] at h2
      injection h2 with h2
      subst h2
      rw [h3] at hrd; cases hrd
  · right
    refine ⟨k, hk, ?_⟩
    cases hp : (x.core k).phase <;> rw [hp] at h1 <;> try (cases h1; done)
    · rename_i id addr dest read width vec
      have h1 : id = r.id := h1
      subst h1
      exact ⟨_, _, _, _, _, rfl⟩
    · rename_i id
      have h1 : id = r.id := h1
      subst h1
      obtain ⟨r', h2, h3⟩ := hw.store _ _ hp
      rw [hget] at h2
      injection h2 with h2
      subst h2
      rw [h3] at hrd; cases hrd

theorem nodup_le_one {α : Type} {l : List α} (hn : l.Nodup) (h : ∀ x ∈ l, ∀ y ∈ l, x = y) : l.length ≤ 1 := by
  match l with
  | [] => simp
  | [x] => simp
  | x :: y :: l =>
    have := h x (by simp) y (by simp)
    subst this
    simp at hn

theorem pending_le_one {cfg : SysCfg} {i : SysInit} (h0 : ∀ t, GoodStart (i.mem t) (i.valid t))
    (h1 : oneReader cfg i) {as : List SysAct} {s : Sys} (h : i.start.run cfg as = some s) {t : Nat}
    (ht : t < cfg.net.tiles) : (s.tile t).ctrl.pending.length ≤ 1 := by
  have hall := (sysInv_run h0 as s h).tile t
  have hw := tileWaits_run as s h t
  have hr := tileReads_run as s h t
  have hl := (ctrlInv_of (h0 t) hall.ctrl).line
  refine nodup_le_one (pending_nodup _ hl) fun x hx y hy => ?_
  have hid : x.id = y.id := by
    rcases pending_owner (h0 t) hall hw hx with ⟨a, b, c, d, hx1⟩ | ⟨k, hk, a, b, c, d, e, hx1⟩ <;>
      rcases pending_owner (h0 t) hall hw hy with ⟨a', b', c', d', hy1⟩ | ⟨j, hj, a', b', c', d', e', hy1⟩
    · rw [hx1] at hy1; injection hy1
    · exact absurd (hr.load _ _ _ _ _ _ _ hy1) ((h1 t ht).2 (hr.send _ _ _ _ _ hx1) j hj)
    · exact absurd (hr.load _ _ _ _ _ _ _ hx1) ((h1 t ht).2 (hr.send _ _ _ _ _ hy1) k hk)
    · have := (h1 t ht).1 k hk j hj (hr.load _ _ _ _ _ _ _ hx1) (hr.load _ _ _ _ _ _ _ hy1)
      subst this
      rw [hx1] at hy1; injection hy1
  have h2 := (submitted_mem _ hl x (pending_mem _ hl x hx)).2
  have h3 := (submitted_mem _ hl y (pending_mem _ hl y hy)).2
  rw [hid, h3] at h2
  injection h2 with h2
  exact h2.symm

/-- A step of a tile leaves its controller alone or is an action of it. -/
theorem tileStep_ctrlAct {cfg : SysCfg} {t : Nat} {v v' : NetView} {x x' : TileSt} (st : TileStep cfg t x v x' v') :
    x'.ctrl = x.ctrl ∨ ∃ a, x.ctrl.act cfg.edramLat a = some x'.ctrl := by
  cases st with
  | ctrl a c hc hs hst => exact Or.inr ⟨a, hc⟩
  | load k dest read width vec rest addr c c' hk hp hq he hc hn => exact Or.inr ⟨_, hc⟩
  | stored k addr data rows c' hk hp hc hn => exact Or.inr ⟨_, hc⟩
  | send addr target width vec rest c' hp hq hc hn => exact Or.inr ⟨_, hc⟩
  | recvAll addr source width vec got c' hp hg hc hn => exact Or.inr ⟨_, hc⟩
  | haltEnd c' hp hs hc hn => exact Or.inr ⟨_, hc⟩
  | _ => exact Or.inl rfl

theorem noReady_sys {cfg : SysCfg} {i : SysInit} (h0 : ∀ t, GoodStart (i.mem t) (i.valid t))
    (h1 : oneReader cfg i) {as : List SysAct} {s : Sys} (h : i.start.run cfg as = some s) :
    ∀ t < cfg.net.tiles, NoReady (s.tile t).ctrl := by
  refine sys_reach_induction (P := fun s => ∀ t < cfg.net.tiles, NoReady (s.tile t).ctrl) ?_ ?_ as s h
  · intro t _ r hr
    cases hr
  · intro as s a s' hrun ha hp t ht
    rcases (sys_step ha).tile t with ⟨h2, -⟩ | ⟨-, h2⟩
    · rw [h2]; exact hp t ht
    · rcases tileStep_ctrlAct h2 with h3 | ⟨b, h3⟩
      · rw [h3]; exact hp t ht
      · exact noReady_step _ _ _ _ _ _ (ctrlInv_of (h0 t) ((sysInv_run h0 as s hrun).tile t).ctrl)
          (pending_le_one h0 h1 hrun ht) (hp t ht) (act_step _ _ _ _ h3)

theorem no_skipped {cfg : SysCfg} {i : SysInit} (h0 : ∀ t, GoodStart (i.mem t) (i.valid t))
    (h1 : oneReader cfg i) {as : List SysAct} {s : Sys} (h : i.start.run cfg as = some s) : ¬strandedRead cfg s := by
  rintro ⟨t, ht, r, hr, hy⟩
  rw [noReady_sys h0 h1 h t ht r hr] at hy
  cases hy

/-! ## A test for states at rest -/

def CoreSt.stuck (c : Ctrl) (x : CoreSt) : Bool :=
  match x.phase with
  | .ready => x.prog.isEmpty
  | .loadWait id .. => (readAnswer id c.answers).isNone
  | .storeWait id => !wroteAnswer id c.answers
  | .halted => true
  | _ => false

def Sys.tileStuck (cfg : SysCfg) (s : Sys) (t : Nat) : Bool :=
  match (s.tile t).phase with
  | .ready => (s.tile t).ops.isEmpty
  | .sendWait id .. => (readAnswer id (s.tile t).ctrl.answers).isNone
  | .recvWait .. =>
    match s.net.reader t with
    | .got .. => false
    | _ => true
  | .recvWrite id => !wroteAnswer id (s.tile t).ctrl.answers
  | .haltCores => !s.coresHalted cfg t
  | .haltRouter => decide (s.net.stopper t ≠ .stopped) && (s.net.stopStep t).isNone
  | _ => false

/-- Nothing can happen but that time passes. -/
def Sys.stuck (cfg : SysCfg) (s : Sys) : Bool :=
  (List.range cfg.net.tiles).all fun t =>
    (s.tile t).ctrl.queue.isEmpty && (s.tile t).ctrl.handed.isNone && (s.tile t).ctrl.bus.isEmpty &&
    (s.net.thread cfg.net t).isNone && (s.net.take t).isNone && s.tileStuck cfg t &&
    (List.range cfg.cores).all fun k => ((s.tile t).core k).stuck (s.tile t).ctrl

theorem stuck_tick {cfg : SysCfg} {s : Sys} (h : s.stuck cfg = true) (t n : Nat) :
    (s.setTile t { s.tile t with ctrl := { (s.tile t).ctrl with now := n } }).stuck cfg = true := by
  have hf : ∀ j, (s.setTile t { s.tile t with ctrl := { (s.tile t).ctrl with now := n } }).tile j =
      if j = t then { s.tile t with ctrl := { (s.tile t).ctrl with now := n } } else s.tile j := by
    intro j
    rfl
  have h1 : ∀ j, (s.setTile t { s.tile t with ctrl := { (s.tile t).ctrl with now := n } }).tile j =
      { s.tile j with ctrl := { (s.tile j).ctrl with
        now := if j = t then n else (s.tile j).ctrl.now } } := by
    intro j
    rw [hf]
    by_cases hj : j = t
    · subst hj; simp
    · simp [hj]
  rw [← h]
  unfold Sys.stuck Sys.tileStuck CoreSt.stuck Sys.coresHalted
  simp only [h1]
  rfl

theorem stuck_act {cfg : SysCfg} {s s' : Sys} {a : SysAct} (h : s.stuck cfg = true) (ha : s.act cfg a = some s') :
    ∃ t, a = .ctrl t .tick ∧ s'.stuck cfg = true := by
  have hst : ∀ t < cfg.net.tiles, (s.tile t).ctrl.queue = [] ∧ (s.tile t).ctrl.handed = none ∧
      (s.tile t).ctrl.bus = [] ∧ s.net.thread cfg.net t = none ∧ s.net.take t = none ∧ s.tileStuck cfg t = true ∧
      ∀ k < cfg.cores, ((s.tile t).core k).stuck (s.tile t).ctrl = true := by
    intro t ht
    unfold Sys.stuck at h
    have := List.all_eq_true.1 h t (List.mem_range.2 ht)
    simp only [Bool.and_eq_true, List.isEmpty_iff, Option.isNone_iff_eq_none, List.all_eq_true, List.mem_range] at this
    obtain ⟨⟨⟨⟨⟨⟨h1, h2⟩, h3⟩, h4⟩, h5⟩, h6⟩, h7⟩ := this
    exact ⟨h1, h2, h3, h4, h5, h6, h7⟩
  have hc := crashed_act ha
  unfold Sys.act at ha
  rw [if_neg (by simp [hc])] at ha
  have hnet : ∀ na, (∀ t, na.tile = t → t < cfg.net.tiles → s.net.act cfg.net na = none) →
      s.netAct cfg na id ≠ some s' := by
    intro na hn hh
    unfold Sys.netAct at hh
    by_cases ht : na.tile < cfg.net.tiles
    · rw [hn _ rfl ht] at hh; cases hh
    · have : s.net.act cfg.net na = none := by
        unfold Net.act
        rw [if_pos (Or.inr ht)]
      rw [this] at hh; cases hh
  cases a with
  | ctrl t a =>
    have key : ∀ a : CtrlAct, a.internal = true → a ≠ .tick → t < cfg.net.tiles →
        (s.tile t).ctrl.act cfg.edramLat a = none := by
      intro a h1 h2 ht
      obtain ⟨q1, q2, q3, -⟩ := hst t ht
      unfold Ctrl.act
      split
      · rfl
      · cases a <;> first
          | (cases h1; done)
          | exact absurd rfl h2
          | simp [Ctrl.pick, Ctrl.dispatch, Ctrl.grant, Ctrl.complete, q1, q2, q3]
    have no : ∀ a : CtrlAct, a.internal = true → a ≠ .tick →
        (if t < cfg.net.tiles then s.ctrlAct cfg t a id else none) ≠ some s' := by
      intro a h1 h2 hh
      split at hh
      · rename_i ht
        unfold Sys.ctrlAct at hh
        rw [key a h1 h2 ht] at hh; cases hh
      · cases hh
    cases a with
    | submit => cases ha
    | stop => cases ha
    | pick => exact absurd ha (no _ rfl (by simp))
    | dispatch => exact absurd ha (no _ rfl (by simp))
    | grant => exact absurd ha (no _ rfl (by simp))
    | complete => exact absurd ha (no _ rfl (by simp))
    | tick =>
      refine ⟨t, rfl, ?_⟩
      dsimp only at ha
      split at ha
      · unfold Sys.ctrlAct at ha
        cases hh : (s.tile t).ctrl.act cfg.edramLat .tick with
        | none => rw [hh] at ha; cases ha
        | some c =>
          rw [hh] at ha
          simp only [Option.map_some, Option.some.injEq] at ha
          unfold Ctrl.act at hh
          split at hh
          · cases hh
          · dsimp only at hh
            unfold Ctrl.tick at hh
            split at hh
            · injection hh with hh
              have h2 := stuck_tick h t ((s.tile t).ctrl.now + 1)
              rw [hh] at h2
              split at ha
              · subst ha; exact h2
              · subst ha; exact h2
            · cases hh
      · cases ha
  | thread t =>
    refine absurd ha (hnet _ ?_)
    rintro _ rfl ht
    unfold Net.act
    split
    · rfl
    · exact (hst t ht).2.2.2.1
  | take t =>
    refine absurd ha (hnet _ ?_)
    rintro _ rfl ht
    unfold Net.act
    split
    · rfl
    · exact (hst t ht).2.2.2.2.1
  | core t k =>
    exfalso
    dsimp only at ha
    split at ha
    · rename_i hb
      have h1 := (hst t hb.1).2.2.2.2.2.2 k hb.2
      unfold CoreSt.stuck at h1
      unfold Sys.coreStep at ha
      cases hp : ((s.tile t).core k).phase <;> simp only [hp] at h1 ha <;> try (cases h1; done)
      · rw [List.isEmpty_iff.1 h1] at ha; cases ha
      · rw [Option.isNone_iff_eq_none.1 h1] at ha; cases ha
      · simp only [Bool.not_eq_true'] at h1
        simp only [h1] at ha; cases ha
      · cases ha
    · cases ha
  | tile t =>
    exfalso
    dsimp only at ha
    split at ha
    · rename_i ht
      have h1 := (hst t ht).2.2.2.2.2.1
      unfold Sys.tileStuck at h1
      unfold Sys.tileStep at ha
      cases hp : (s.tile t).phase <;> simp only [hp] at h1 ha <;> try (cases h1; done)
      · rw [List.isEmpty_iff.1 h1] at ha; cases ha
      · rw [Option.isNone_iff_eq_none.1 h1] at ha; cases ha
      · cases hr : s.net.reader t <;> simp only [hr] at h1 ha <;> first | (cases h1; done) | (cases ha; done)
      · simp only [Bool.not_eq_true'] at h1
        simp only [h1] at ha; cases ha
      · simp only [Bool.not_eq_true'] at h1
        simp only [h1] at ha; cases ha
      · simp only [Bool.and_eq_true, decide_eq_true_eq, Option.isNone_iff_eq_none] at h1
        have : s.net.act cfg.net (.stopStep t) = none := by
          unfold Net.act
          split
          · rfl
          · exact h1.2
        split at ha
        · rename_i e; exact h1.1 e
        · unfold Sys.netAct at ha
          rw [this] at ha
          cases ha
    · cases ha

/-- A state that passes the test is at rest. -/
theorem atRest_of_stuck {cfg : SysCfg} {s : Sys} (h : s.stuck cfg = true) : atRest cfg s := by
  intro as
  induction as generalizing s with
  | nil => intro s' _ a ha; cases ha
  | cons b as ih =>
    intro s' hrun a ha
    simp only [Sys.run] at hrun
    cases hb : s.act cfg b with
    | none => rw [hb] at hrun; cases hrun
    | some s1 =>
      rw [hb] at hrun
      obtain ⟨t, h1, h2⟩ := stuck_act h hb
      rcases List.mem_cons.1 ha with rfl | ha
      · exact ⟨t, h1⟩
      · exact ih h2 s' hrun a ha

end Ramwich
