import Verif.Lemmas.SysRest

/-! # A node at rest has done all that a finished run does -/
namespace Ramwich

open Pipeline (upd)
open Spec

/-! ## Lists -/

theorem snoc_cases {α : Type} {l m f : List α} {e : α} (h : l <+: m) (h1 : l ++ [e] <+: f) (h2 : m <+: f) :
    l ++ [e] <+: m ∨ m = l := by
  rcases Nat.lt_or_ge l.length m.length with hl | hl
  · exact Or.inl (List.prefix_of_prefix_length_le h1 h2 (by simp; omega))
  · exact Or.inr (h.eq_of_length_le hl).symm

/-- Target and data of a packet. -/
def Packet.td (p : Packet) : Int × List I32 := (p.target, p.data)

theorem dataTo_len (d : Nat) (ps : List Packet) :
    (dataTo d ps).length = ((ps.map Packet.td).filter fun q => decide (q.1 = (d : Int))).length := by
  unfold dataTo
  rw [List.length_map, List.filter_map, List.length_map]
  rfl

theorem dataTo_le {ps qs : List Packet} (h : ps.map Packet.td <+: qs.map Packet.td) (d : Nat) :
    (dataTo d ps).length ≤ (dataTo d qs).length := by
  rw [dataTo_len, dataTo_len]
  exact (h.filter _).length_le

theorem allSent_mono {log log' : List TileEv} (h : log <+: log') : allSent log <+: allSent log' := by
  obtain ⟨m, rfl⟩ := h
  exact ⟨allSent m, by simp [allSent]⟩

/-! ## Packets that have left the queue of a tile -/

/-- What tile `d` has taken from the buffer for tile `a`. -/
def takenOf (n : Net) (a d : Nat) : List (List I32) := n.readLog d a ++ takenFrom a (n.reader d)

theorem processed {cfg : SysCfg} {i : SysInit} {s : Sys} (h : SysInv cfg i s) (a : Nat) :
    ∃ P, s.net.sent a = P ++ ((s.net.sender a).held.toList ++ s.net.queue a) ∧
      ∀ d : Nat, dataTo d P = takenOf s.net a d ++ s.net.buf d a := by
  obtain ⟨as, hr⟩ := h.net
  obtain ⟨P, hP⟩ := net_suffix_run cfg.net as _ hr a
  refine ⟨P, hP.symm, fun d => ?_⟩
  have hst := (netInv_run cfg.net as _ hr).stream a d
  rw [← hP, dataTo_append, dataTo_append] at hst
  unfold takenOf
  have h1 : dataTo d P ++ (dataTo d (s.net.sender a).held.toList ++ dataTo d (s.net.queue a)) =
      (s.net.readLog d a ++ takenFrom a (s.net.reader d) ++ s.net.buf d a) ++
        (dataTo d (s.net.sender a).held.toList ++ dataTo d (s.net.queue a)) := by
    rw [hst]; simp only [List.append_assoc]
  exact List.append_cancel_right h1

/-- `G` has taken no more packets than `s`. -/
def takenLe (G s : Sys) : Prop := ∀ a d, (takenOf G.net a d).length ≤ (takenOf s.net a d).length

/-- What has left the queue in `G` is the beginning of what has been sent in `s`. -/
theorem processed_prefix {G s : Sys} {a : Nat} (hoG : SentInOrder (G.net.view a) (G.tile a))
    (hos : SentInOrder (s.net.view a) (s.tile a)) (htodo : (s.tile a).phase.todoAll = [])
    (hlog : (G.tile a).log <+: (s.tile a).log) {P rest : List Packet} (hP : G.net.sent a = P ++ rest) :
    P.map Packet.td <+: (s.net.sent a).map Packet.td := by
  have h1 : allSent (G.tile a).log = (G.net.sent a).map Packet.td ++ (G.tile a).phase.todoAll := hoG
  have h2 : allSent (s.tile a).log = (s.net.sent a).map Packet.td ++ (s.tile a).phase.todoAll := hos
  rw [htodo, List.append_nil] at h2
  rw [← h2]
  refine List.IsPrefix.trans ?_ (allSent_mono hlog)
  rw [h1, hP, List.map_append, List.append_assoc]
  exact List.prefix_append _ _

/-- A blocked thread has delivered all that another run, which has taken no more, has delivered. -/
theorem blocked_len {cfg cfg' : SysCfg} {i : SysInit} {G s : Sys} {a : Nat} (hG : SysInv cfg i G)
    (hs : SysInv cfg' i s) (hle : takenLe G s) {PG Ps : List Packet} {p : Packet}
    (hb : blockedBy s.net a p)
    (h1 : ∀ d : Nat, dataTo d PG = takenOf G.net a d ++ G.net.buf d a)
    (h2 : s.net.sent a = Ps ++ ((s.net.sender a).held.toList ++ s.net.queue a))
    (h3 : ∀ d : Nat, dataTo d Ps = takenOf s.net a d ++ s.net.buf d a)
    (hpre : PG.map Packet.td <+: (s.net.sent a).map Packet.td) :
    PG.map Packet.td <+: Ps.map Packet.td := by
  obtain ⟨inter, hk, hbuf⟩ := hb
  obtain ⟨as, hr⟩ := hs.net
  obtain ⟨bs, hr'⟩ := hG.net
  have htg := ((netInv_run cfg'.net as _ hr).route a p inter (by rw [hk]; rfl)).1
  rw [hk] at h2
  have h2 : s.net.sent a = Ps ++ (p :: s.net.queue a) := h2
  rcases Nat.lt_or_ge Ps.length PG.length with hl | hl
  · exfalso
    have h4 : (Ps ++ [p]).map Packet.td <+: PG.map Packet.td := by
      refine List.prefix_of_prefix_length_le ?_ hpre (by simp; omega)
      rw [h2, show Ps ++ p :: s.net.queue a = (Ps ++ [p]) ++ s.net.queue a by simp, List.map_append (l₁ := Ps ++ [p])]
      exact List.prefix_append _ _
    have h5 := dataTo_le h4 p.target.toNat
    have hone : dataTo p.target.toNat [p] = [p.data] := by
      have ht2 : p.target = ((p.target.toNat : Nat) : Int) := by omega
      unfold dataTo
      rw [List.filter_cons_of_pos (by simpa using ht2)]
      rfl
    rw [dataTo_append, hone, h1, h3] at h5
    have h6 := (netInv_run cfg.net bs _ hr').cap p.target.toNat a
    have h7 := hle a p.target.toNat
    simp only [List.length_append, List.length_singleton] at h5
    omega
  · refine List.prefix_of_prefix_length_le hpre ?_ (by simpa using hl)
    rw [h2, List.map_append]
    exact List.prefix_append _ _

theorem todo_rest {cfg : SysCfg} {i : SysInit} (h0 : ∀ t, GoodStart (i.mem t) (i.valid t)) {s : Sys}
    (h : Resting cfg i s) {t : Nat} (ht : t < cfg.net.tiles) : (s.tile t).phase.todoAll = [] := by
  rcases tile_rest h0 h ht with ⟨h1, -⟩ | ⟨_, _, _, _, _, h1, -⟩ | ⟨_, _, _, _, _, h1, -⟩ | ⟨h1, -⟩ | ⟨h1, -⟩ <;>
    (rw [h1]; rfl)

/-- At rest, what another run has delivered has been delivered, if that run has taken no more. -/
theorem delivered_rest {cfg cfg' : SysCfg} {i : SysInit} (h0 : ∀ t, GoodStart (i.mem t) (i.valid t)) {G s : Sys}
    {a : Nat} (ha : a < cfg'.net.tiles) (hG : SysInv cfg i G) (hoG : SentInOrder (G.net.view a) (G.tile a))
    (hs : Resting cfg' i s) (hlog : (G.tile a).log <+: (s.tile a).log) (hle : takenLe G s)
    {PG rest : List Packet} (hPG : G.net.sent a = PG ++ rest)
    (h1 : ∀ d : Nat, dataTo d PG = takenOf G.net a d ++ G.net.buf d a) :
    ∃ Ps, (∀ d : Nat, dataTo d Ps = takenOf s.net a d ++ s.net.buf d a) ∧
      s.net.sent a = Ps ++ ((s.net.sender a).held.toList ++ s.net.queue a) ∧
      PG.map Packet.td <+: Ps.map Packet.td := by
  have hpre := processed_prefix hoG (hs.order a) (todo_rest h0 hs ha) hlog hPG
  obtain ⟨Ps, h2, h3⟩ := processed hs.inv a
  refine ⟨Ps, h3, h2, ?_⟩
  rcases thread_rest hs ha with ⟨h4, h5⟩ | ⟨p, hb⟩
  · rw [h4, h5] at h2
    simp only [Sender.held, Option.toList_none, List.append_nil] at h2
    rw [← h2]; exact hpre
  · exact blocked_len hG hs.inv hle hb h1 h2 h3 hpre

/-! ## Reads -/

theorem readAnswer_none {id : Nat} {as : List Answer} (h : readAnswer id as = none) {r : Req} {tm : Nat}
    {d : List I32} (hm : .read r tm d ∈ as) : r.id ≠ id := by
  induction as with
  | nil => cases hm
  | cons a as ih =>
    cases a with
    | read r' tm' d' =>
      simp only [readAnswer] at h
      split at h
      · cases h
      · rename_i hne
        rcases List.mem_cons.1 hm with hm | hm
        · injection hm with h1; rw [h1]; exact hne
        · exact ih h hm
    | wrote r' tm' =>
      simp only [readAnswer] at h
      rcases List.mem_cons.1 hm with hm | hm
      · cases hm
      · exact ih h hm

/-- What another run that has done less has written has been written. -/
theorem writes_rest {cfg cfg' : SysCfg} {i : SysInit} (h0 : ∀ t, GoodStart (i.mem t) (i.valid t))
    (hm : sameMachine cfg cfg') {G s : Sys} (hG : SysInv cfg i G) (hs : Resting cfg' i s) (hle : logsLe G s) {t : Nat}
    (ht : t < cfg'.net.tiles) :
    subWrites (writesOf (G.tile t).ctrl.answers) (writesOf (s.tile t).ctrl.answers) := by
  intro w hw
  have hline : CtrlLine (G.tile t).ctrl := (ctrlInv_of (h0 t) (hG.tile t).ctrl).line
  obtain ⟨tm, hw⟩ := writesOf_mem.1 hw
  have hsub := answer_submitted hline hw
  have hkind : w.isWrite = true := hline.kinds _ hw
  cases hk : w.kind with
  | read => simp [Req.isWrite, hk] at hkind
  | write data rows =>
    rcases (hG.tile t).writes w hsub data rows hk with ⟨k, hkc, e, he, dest, read, wd, v, h1, h2, h3⟩ |
      ⟨a, src, wd, n, rws, h1, h2, h3⟩
    · rcases ((hs.inv.tile t).cores k).stores e (((hle t).1 k).subset he) dest read wd v h1 with
        ⟨r, tm', h4, h5, h6⟩ | h4
      · exact ⟨r, writesOf_mem.2 ⟨tm', h4⟩, by rw [h5, h2], data, _, _, hk, by rw [h6, h3]⟩
      · exfalso
        rcases core_rest h0 hs ht (k := k) (by rw [hm.cores]; exact hkc) with ⟨h5, -⟩ | h5 | ⟨_, _, _, _, _, _, h5, -⟩ <;>
          (rw [h5] at h4; cases h4)
    · rcases ((hs.inv.tile t).tile.received a src wd n rws ((hle t).2.subset h1)).2 with ⟨r, tm', h4, h5, h6⟩ | h4
      · exact ⟨r, writesOf_mem.2 ⟨tm', h4⟩, by rw [h5, h2], data, _, _, hk, by rw [h6, h3]⟩
      · exfalso
        rcases tile_rest h0 hs ht with ⟨h5, -⟩ | ⟨_, _, _, _, _, h5, -⟩ | ⟨_, _, _, _, _, h5, -⟩ | ⟨h5, -⟩ | ⟨h5, -⟩ <;>
          (rw [h5] at h4; cases h4)

/-- A read that another run has answered, which has done less, is ready. -/
theorem read_rest {cfg cfg' : SysCfg} {i : SysInit} (h0 : ∀ t, GoodStart (i.mem t) (i.valid t))
    (hm : sameMachine cfg cfg') {G s : Sys} (hG : SysInv cfg i G) (hs : Resting cfg' i s) (hle : logsLe G s) {t : Nat}
    (ht : t < cfg'.net.tiles) {r r' : Req} {tm : Nat} {d : List I32} {id : Nat}
    (hr : .read r tm d ∈ (G.tile t).ctrl.answers) (hr' : (s.tile t).ctrl.submitted[id]? = some r')
    (h1 : r.start = r'.start) (h2 : r.kind = r'.kind) (hna : readAnswer id (s.tile t).ctrl.answers = none) :
    strandedRead cfg' s := by
  have hciG := ctrlInv_of (h0 t) (hG.tile t).ctrl
  have hci := ctrlInv_of (h0 t) (hs.inv.tile t).ctrl
  have hread : r.isWrite = false := hciG.line.kinds _ hr
  have hread' : r'.isWrite = false := by
    unfold Req.isWrite at hread ⊢
    rw [← h2]; exact hread
  have hlen : r'.length = r.length := by simp [Req.length, h2]
  have hid : r'.id = id := hci.line.ids id r' hr'
  refine ⟨t, ht, r', ?_, ?_⟩
  · have h3 : r' ∈ (s.tile t).ctrl.line ++ (s.tile t).ctrl.pending ++ (s.tile t).ctrl.answers.map Answer.req :=
      hci.line.perm.symm.subset (List.mem_of_getElem? hr')
    rw [hs.line t ht] at h3
    rcases List.mem_append.1 h3 with h3 | h3
    · simpa using h3
    · exfalso
      obtain ⟨an, h4, h5⟩ := List.mem_map.1 h3
      have hk := hci.line.kinds an h4
      cases an with
      | wrote r2 tm2 =>
        have h5 : r2 = r' := h5
        subst h5
        have hk : r2.isWrite = true := hk
        rw [hread'] at hk; cases hk
      | read r2 tm2 d2 =>
        have h5 : r2 = r' := h5
        subst h5
        exact readAnswer_none hna h4 hid
  · obtain ⟨l1, l2, hl⟩ := List.append_of_mem hr
    have g := hciG.ans.reads l1 r tm d l2 hl
    have hin := g.inside
    have hsub := writes_rest h0 hm hG hs hle ht
    unfold ready
    rw [pySlice_mem_valid _ _ _ (by rw [← h1]; exact hin.1)
      (by rw [hci.mem.vlen, ← h1, hlen]; exact hin.2) (by rw [hlen]; have := g.pos; omega)]
    intro a ha1 ha2
    have hcov : covers r a := by unfold covers; rw [h1, ← hlen]; exact ⟨ha1, ha2⟩
    have hv := g.valid a hcov
    have hlt : a < (i.mem t).size := by
      have := hin.2
      unfold covers at hcov
      omega
    rw [hci.mem.vals a hlt]
    rw [wordValid_iff] at hv ⊢
    rcases hv with hv | ⟨w, h3, h4⟩
    · exact Or.inl hv
    · right
      have h5 : w ∈ writesOf (G.tile t).ctrl.answers := by
        rw [hl, writesOf_append]; exact List.mem_append_left _ h3
      obtain ⟨w', h6, h7⟩ := hsub w h5
      exact ⟨w', h6, (sameWrite_covers h7 a).1 h4⟩

/-! ## One step of the finished run -/

theorem coreRan_unique {fl : FloatActs} {noise : Nat → Nat → Nat → Noise} {c : Core} {p : List CoreOp}
    {log : List CoreEv} {cv cv' : Core} {rest rest' : List CoreOp} (h : coreRan fl noise 0 c p log cv rest)
    (h' : coreRan fl noise 0 c p log cv' rest') : cv' = cv ∧ rest' = rest := by
  have := coreRan_append log 0 c p cv rest [] cv' rest' h (by simpa using h')
  exact this

/-- The buffer from which a pending `get` takes. -/
theorem take_buf {c : NetConfig} {n n' : Net} {d src : Nat} {y : List I32}
    (h : n' = n ∨ ∃ a, n.act c a = some n') (h1 : n.reader d = .waiting src) (h2 : n'.reader d = .got src y) :
    ∃ rest, n.buf d src = y :: rest := by
  rcases h with rfl | ⟨a, h⟩
  · rw [h1] at h2; cases h2
  obtain ⟨-, -, h⟩ := net_act_cases h
  cases a with
  | send i target data => obtain ⟨rfl, -⟩ := sendIf_send h; exact absurd (h1.symm.trans h2) (by simp)
  | added i => exact absurd (h1.symm.trans ((congrArg NetView.reader (view_added h d)).symm.trans h2)) (by simp)
  | thread i => exact absurd (h1.symm.trans ((congrArg NetView.reader (view_thread h d)).symm.trans h2)) (by simp)
  | startRead i source =>
    rcases view_startRead h with ⟨-, h3⟩ | ⟨-, -, rfl⟩
    · exact absurd (h1.symm.trans ((congrArg NetView.reader (h3 d)).symm.trans h2)) (by simp)
    · dsimp only at h2
      by_cases hd : d = i
      · subst hd; rw [upd_same] at h2; cases h2
      · rw [upd_ne _ _ _ _ hd, h1] at h2; cases h2
  | take i =>
    obtain ⟨s1, x, rest, h3, h4, rfl⟩ := view_take h
    dsimp only at h2
    by_cases hd : d = i
    · subst hd
      rw [upd_same] at h2
      injection h2 with h5 h6
      subst h5 h6
      exact ⟨rest, h4⟩
    · rw [upd_ne _ _ _ _ hd, h1] at h2; cases h2
  | readDone i =>
    obtain ⟨z, h⟩ := h
    obtain ⟨s1, -, rfl⟩ := view_readDone h
    dsimp only at h2
    by_cases hd : d = i
    · subst hd; rw [upd_same] at h2; cases h2
    · rw [upd_ne _ _ _ _ hd, h1] at h2; cases h2
  | halt i => obtain ⟨-, rfl⟩ := view_halt h; exact absurd (h1.symm.trans h2) (by simp)
  | stopStep i => obtain ⟨-, -, st, -, rfl⟩ := view_stopStep h; exact absurd (h1.symm.trans h2) (by simp)

section step

variable {cfg cfg' : SysCfg} {i : SysInit} {G G' F s : Sys}

/-- The core processes and the tile process of a tile, one step of the other run. -/
theorem catch_logs (hm : sameMachine cfg cfg') (h0 : ∀ t, GoodStart (i.mem t) (i.valid t))
    (hG : SysInv cfg i G) (hoG : ∀ t, SentInOrder (G.net.view t) (G.tile t))
    (heG : ∀ t, TileEnd (G.net.view t) (G.tile t))
    (hs : Resting cfg' i s) (hnr : ¬strandedRead cfg' s)
    (hGF : logsLe G' F) (hsF : logsLe s F) (hle : logsLe G s) (htk : takenLe G s)
    (st : SysStep cfg G G') : logsLe G' s := by
  intro t
  rcases st.tile t with ⟨h1, -⟩ | ⟨ht, h1⟩
  · rw [h1]; exact hle t
  have ht' : t < cfg'.net.tiles := by rw [hm.tiles]; exact ht
  have hl := hle t
  have hF := hGF t
  have hsf := hsF t
  have hcG := (hG.tile t).cores
  have hcs := (hs.inv.tile t).cores
  have htG := (hG.tile t).tile
  have hts := (hs.inv.tile t).tile
  have hciG := ctrlInv_of (h0 t) (hG.tile t).ctrl
  -- a core that logs
  have hcore : ∀ (k : Nat) (y : CoreSt) (c : Ctrl), y.log <+: ((s.tile t).core k).log →
      (∀ j, ((TileSt.setCore { G.tile t with ctrl := c } k y).core j).log <+: ((s.tile t).core j).log) ∧
      (TileSt.setCore { G.tile t with ctrl := c } k y).log <+: (s.tile t).log := by
    intro k y c hy
    refine ⟨fun j => ?_, hl.2⟩
    rw [setCore_core]
    by_cases hj : j = k
    · rw [if_pos hj, hj]; exact hy
    · rw [if_neg hj]; exact hl.1 j
  have hcoreF : ∀ (k : Nat) (y : CoreSt) (c : Ctrl),
      (∀ j, ((TileSt.setCore { G.tile t with ctrl := c } k y).core j).log <+: ((F.tile t).core j).log) →
      y.log <+: ((F.tile t).core k).log := by
    intro k y c h
    have := h k
    rw [setCore_core, if_pos rfl] at this
    exact this
  -- the core has done as much in both runs
  have hstuck : ∀ (k : Nat) (cv : Core) (op : CoreOp) (rest : List CoreOp), k < cfg.cores →
      coreRan cfg.fl (cfg.noise t k) 0 (i.core t k) (i.prog t k) ((G.tile t).core k).log cv (op :: rest) →
      ((s.tile t).core k).log = ((G.tile t).core k).log →
      ∃ id addr dest read width vec c1, op = .load dest read width vec ∧
        cv.loadAddress read = (.ok addr, c1) ∧ isRead (s.tile t).ctrl id k addr width vec ∧
        readAnswer id (s.tile t).ctrl.answers = none := by
    intro k cv op rest hk h2 h3
    obtain ⟨cv', rest', h4, h5⟩ := (hcs k).ran
    rw [h3, hm.fl, hm.noise] at h4
    obtain ⟨rfl, rfl⟩ := coreRan_unique h2 h4
    unfold CorePhaseOk at h5
    rcases core_rest h0 hs ht' (k := k) (by rw [hm.cores]; exact hk) with ⟨h6, h7⟩ | h6 |
      ⟨id, addr, dest, read, width, vec, h6, h7⟩
    · rw [h6] at h5; rw [h7] at h5; exact absurd h5.2 (by simp)
    · rw [h6] at h5; exact absurd h5.2.2 (by simp)
    · rw [h6] at h5
      obtain ⟨h8, h9, h10⟩ := h5
      injection h8 with h8 _
      exact ⟨id, addr, dest, read, width, vec, _, h8, h9, h10, h7⟩
  generalize hx' : G'.tile t = x' at h1 ⊢ hF
  generalize hvv : G.net.view t = v at *
  generalize G'.net.view t = v' at h1
  cases h1 with
  | run k op rest c hk hp hq hop he =>
    refine hcore k _ (G.tile t).ctrl ?_
    rcases snoc_cases (hl.1 k) (hcoreF k _ (G.tile t).ctrl hF.1) (hsf.1 k) with h2 | h2
    · exact h2
    exfalso
    obtain ⟨cv, rs, h3, h4⟩ := (hcG k).ran
    unfold CorePhaseOk at h4
    rw [hp] at h4
    rw [← h4.2, hq] at h3
    obtain ⟨_, _, _, _, _, _, _, rfl, -⟩ := hstuck k _ _ _ hk h3 h2
    cases hop
  | loaded k id addr dest read width vec data hk hp ha =>
    refine hcore k _ (G.tile t).ctrl ?_
    rcases snoc_cases (hl.1 k) (hcoreF k _ (G.tile t).ctrl hF.1) (hsf.1 k) with h2 | h2
    · exact h2
    exfalso
    obtain ⟨cv, rs, h3, h4⟩ := (hcG k).ran
    unfold CorePhaseOk at h4
    rw [hp] at h4
    obtain ⟨h4, h5, r0, h6, -, h7, h8⟩ := h4
    rw [h4] at h3
    obtain ⟨id', addr', _, _, _, _, c1, he, h9, ⟨r1, h10, -, h11, h12⟩, h13⟩ := hstuck k _ _ _ hk h3 h2
    injection he with e1 e2 e3 e4
    subst e1 e2 e3 e4
    rw [h5] at h9
    injection h9 with h9 _
    injection h9 with h9
    subst h9
    obtain ⟨r, tm, hr1, hr2⟩ := readAnswer_mem ha
    have hr : r = r0 := answer_unique hciG.line hr1 hr2 h6
    subst hr
    exact hnr (read_rest h0 hm hG hs hle ht' hr1 h10 (by rw [h7, h11]) (by rw [h8, h12]) h13)
  | store k dest read width vec rest addr data c hk hp hq he =>
    refine hcore k _ (G.tile t).ctrl ?_
    rcases snoc_cases (hl.1 k) (hcoreF k _ (G.tile t).ctrl hF.1) (hsf.1 k) with h2 | h2
    · exact h2
    exfalso
    obtain ⟨cv, rs, h3, h4⟩ := (hcG k).ran
    unfold CorePhaseOk at h4
    rw [hp] at h4
    rw [← h4.2, hq] at h3
    obtain ⟨_, _, _, _, _, _, _, hh, -⟩ := hstuck k _ _ _ hk h3 h2
    cases hh
  | sendGot id addr target width vec data hp ha hw hv' =>
    refine ⟨hl.1, ?_⟩
    rcases snoc_cases hl.2 hF.2 hsf.2 with h2 | h2
    · exact h2
    exfalso
    rw [hp] at htG
    obtain ⟨rs, got, h3, h4, h5, r0, h6, -, h7, h8⟩ := htG.ran
    obtain ⟨rs', got', h9, h10⟩ := hts.ran
    rw [h2, h3] at h9
    injection h9 with h9
    injection h9 with h9 h9'
    subst h9 h9' h4
    rcases tile_rest h0 hs ht' with ⟨h11, h12⟩ | ⟨id', _, _, _, _, h11, h12⟩ | ⟨_, _, _, _, _, h11, -⟩ | ⟨h11, -⟩ | ⟨h11, -⟩
    · rw [h11] at h10; rw [h12] at h10; exact absurd h10.1 (by simp)
    · rw [h11] at h10
      obtain ⟨he, -, r1, h13, -, h14, h15⟩ := h10
      injection he with he _
      injection he with e1 e2 e3 e4
      subst e1 e2 e3 e4
      obtain ⟨r, tm, hr1, hr2⟩ := readAnswer_mem ha
      have hr : r = r0 := answer_unique hciG.line hr1 hr2 h6
      subst hr
      exact hnr (read_rest h0 hm hG hs hle ht' hr1 h13 (by rw [h7, h14]) (by rw [h8, h15]) h12)
    · rw [h11] at h10; exact absurd h10.1 (by simp)
    · rw [h11] at h10; exact absurd h10.1 (by simp)
    · rw [h11] at h10; exact absurd h10.1 (by simp)
  | recvRow addr source width vec got src data hp hr =>
    refine ⟨hl.1, ?_⟩
    rcases snoc_cases hl.2 hF.2 hsf.2 with h2 | h2
    · exact h2
    exfalso
    have hrd := htG.reader
    rw [hp, hr] at hrd
    have hsrc : src = source.toNat := by
      rcases hrd with h1 | ⟨z, h1⟩
      · cases h1
      · injection h1
    rw [hp] at htG
    obtain ⟨rs, g, h3, h4, h5, h6, -⟩ := htG.ran
    obtain ⟨rs', got', h9, h10⟩ := hts.ran
    rw [h2, h3] at h9
    injection h9 with h9
    injection h9 with h9 h9'
    subst h9 h9' h4
    rcases tile_rest h0 hs ht' with ⟨h11, h12⟩ | ⟨id', _, _, _, _, h11, h12⟩ | ⟨_, _, _, _, _, h11, h12, -⟩ | ⟨h11, -⟩ | ⟨h11, -⟩
    · rw [h11] at h10; rw [h12] at h10; exact absurd h10.1 (by simp)
    · rw [h11] at h10; exact absurd h10.1 (by simp)
    · rw [h11] at h10
      obtain ⟨he, -⟩ := h10
      injection he with he _
      injection he with e1 e2 e3 e4
      subst e1 e2 e3 e4
      have h13 := htk src t
      unfold takenOf at h13
      have h14 := htG.reads src
      have h15 := hts.reads src
      rw [h2, h14] at h15
      have h16 : (G.net.view t).reader = .got src data := by rw [hvv]; exact hr
      have h17 : G.net.reader t = .got src data := h16
      have h18 : G.net.readLog t src = s.net.readLog t src := by
        have : (G.net.view t).readLog src = (s.net.view t).readLog src := by rw [hvv]; exact h15
        exact this
      rw [h17, h12, h18] at h13
      simp [takenFrom] at h13
    · rw [h11] at h10; exact absurd h10.1 (by simp)
    · rw [h11] at h10; exact absurd h10.1 (by simp)
  | recvAll addr source width vec got c' hp hg hc hn =>
    refine ⟨hl.1, ?_⟩
    rcases snoc_cases hl.2 hF.2 hsf.2 with h2 | h2
    · exact h2
    exfalso
    rw [hp] at htG
    obtain ⟨rs, g, h3, h4, h5, h6⟩ := htG.ran
    obtain ⟨rs', got', h9, h10⟩ := hts.ran
    rw [h2, h3] at h9
    injection h9 with h9
    injection h9 with h9 h9'
    subst h9 h9' h4
    rcases tile_rest h0 hs ht' with ⟨h11, h12⟩ | ⟨id', _, _, _, _, h11, h12⟩ | ⟨_, _, _, _, _, h11, h12, -⟩ | ⟨h11, -⟩ | ⟨h11, -⟩
    · rw [h11] at h10; rw [h12] at h10; exact absurd h10.1 (by simp)
    · rw [h11] at h10; exact absurd h10.1 (by simp)
    · rw [h11] at h10
      obtain ⟨he, h13, h14, -⟩ := h10
      injection he with he _
      injection he with e1 e2 e3 e4
      subst e1 e2 e3 e4
      rw [← h13, h5] at h14
      exact hg h14
    · rw [h11] at h10; exact absurd h10.1 (by simp)
    · rw [h11] at h10; exact absurd h10.1 (by simp)
  | haltEnd c' hp hst hc hn =>
    refine ⟨hl.1, ?_⟩
    rcases snoc_cases hl.2 hF.2 hsf.2 with h2 | h2
    · exact h2
    exfalso
    have hcoresG := (hG.tile t).halting (Or.inl hp)
    rw [hp] at htG
    obtain ⟨rs, g, h3, h4, h5⟩ := htG.ran
    obtain ⟨rs', got', h9, h10⟩ := hts.ran
    rw [h2, h3] at h9
    injection h9 with h9
    injection h9 with h9 h9'
    subst h9 h9' h4
    rcases tile_rest h0 hs ht' with ⟨h11, h12⟩ | ⟨id', _, _, _, _, h11, h12⟩ | ⟨_, _, _, _, _, h11, h12, -⟩ | ⟨h11, h12⟩ | ⟨h11, p, h12⟩
    · rw [h11] at h10; rw [h12] at h10; exact absurd h10.1 (by simp)
    · rw [h11] at h10; exact absurd h10.1 (by simp)
    · rw [h11] at h10; exact absurd h10.1 (by simp)
    · -- the cores have ended in both runs
      have : s.coresHalted cfg' t = true := by
        unfold Sys.coresHalted
        rw [List.all_eq_true]
        intro k hk
        have hk' : k < cfg'.cores := List.mem_range.1 hk
        have hkc : k < cfg.cores := by rw [← hm.cores]; exact hk'
        have hph : ((G.tile t).core k).phase = .halted := by
          have := hcoresG k hkc
          unfold CorePhase.isHalted at this
          split at this
          · assumption
          · cases this
        obtain ⟨e, he1, he2⟩ := (heG t).hlt k (Or.inr hph)
        obtain ⟨cv, r1, h13, h14⟩ := (hcG k).ran
        unfold CorePhaseOk at h14
        rw [hph] at h14
        rw [h14.2.2] at h13
        obtain ⟨cv', r2, h15, h16⟩ := (hcs k).ran
        rw [hm.fl, hm.noise] at h15
        obtain ⟨more, hmore⟩ := hl.1 k
        rw [← hmore] at h15
        have h17 := coreRan_append _ 0 _ _ _ _ _ _ _ h13 h15
        have h18 : more = [] := by
          cases more with
          | nil => rfl
          | cons e more => obtain ⟨_, h19, -⟩ := h17; cases h19
        rw [h18, List.append_nil] at hmore
        rw [hmore] at he1
        rcases core_rest h0 hs ht' hk' with ⟨h19, -⟩ | h19 | ⟨_, _, _, _, _, _, h19, -⟩
        · rcases (hs.waits t).hlt k e he1 he2 with h20 | h20 <;> (rw [h19] at h20; cases h20)
        · rw [h19]; rfl
        · rcases (hs.waits t).hlt k e he1 he2 with h20 | h20 <;> (rw [h19] at h20; cases h20)
      rw [this] at h12; cases h12
    · -- the router
      obtain ⟨PG, hP1, hP2⟩ := processed hG t
      have hstop : G.net.stopper t = .stopped := by
        have : (G.net.view t).stopper = .stopped := by rw [hvv]; exact hst
        exact this
      obtain ⟨bs, hbs⟩ := hG.net
      have hidle : G.net.sender t = .idle := by
        have := netStop_run cfg.net bs _ hbs t
        rw [hstop] at this; exact this
      rw [hidle, hG.queue t hstop] at hP1
      simp only [Sender.held, Option.toList_none, List.append_nil] at hP1
      obtain ⟨Ps, hQ1, hQ2, hQ3⟩ := delivered_rest h0 ht' hG (hoG t) hs hl.2 htk
        (hP1.trans (List.append_nil PG).symm) hP2
      have ho1 : allSent (G.tile t).log = (G.net.sent t).map Packet.td ++ (G.tile t).phase.todoAll := hoG t
      have ho2 : allSent (s.tile t).log = (s.net.sent t).map Packet.td ++ (s.tile t).phase.todoAll := hs.order t
      rw [hp, hP1] at ho1
      rw [h2, ho1, todo_rest h0 hs ht'] at ho2
      simp only [TilePhase.todoAll, List.append_nil] at ho2
      obtain ⟨inter, hk, -⟩ := h12
      rw [hk] at hQ2
      have hlen := congrArg List.length ho2
      rw [hQ2] at hlen
      have := hQ3.length_le
      simp [Sender.held] at hlen this
      omega
  | timed k => exact hcore k _ (G.tile t).ctrl (hl.1 k)
  | load k _ _ _ _ _ _ _ c' => exact hcore k _ c' (hl.1 k)
  | loadDone k => exact hcore k _ (G.tile t).ctrl (hl.1 k)
  | stored k _ _ _ c' => exact hcore k _ c' (hl.1 k)
  | storeDone k => exact hcore k _ (G.tile t).ctrl (hl.1 k)
  | halted k => exact hcore k _ (G.tile t).ctrl (hl.1 k)
  | _ => exact hl

/-- What the readers have taken. -/
theorem catch_taken (hm : sameMachine cfg cfg') (h0 : ∀ t, GoodStart (i.mem t) (i.valid t))
    (hG : SysInv cfg i G) (hoG : ∀ t, SentInOrder (G.net.view t) (G.tile t))
    (hs : Resting cfg' i s) (hle : logsLe G s) (htk : takenLe G s)
    (st : SysStep cfg G G') : takenLe G' s := by
  intro a d
  have key : ∀ (v v' : NetView), G.net.view d = v → G'.net.view d = v' →
      (v'.readLog a ++ takenFrom a v'.reader).length = (v.readLog a ++ takenFrom a v.reader).length →
      (takenOf G'.net a d).length ≤ (takenOf s.net a d).length := by
    rintro v v' rfl rfl h
    have : (takenOf G'.net a d).length = (takenOf G.net a d).length := h
    rw [this]; exact htk a d
  rcases st.tile d with ⟨-, h1⟩ | ⟨hd, h1⟩
  · exact key _ _ rfl rfl (by rw [h1])
  have hd' : d < cfg'.net.tiles := by rw [hm.tiles]; exact hd
  have hnet : G'.net = G.net ∨ ∃ a, G.net.act cfg.net a = some G'.net := by
    rcases st.net with h | ⟨a, h, -⟩
    · exact Or.inl h
    · exact Or.inr ⟨a, h⟩
  have htG := (hG.tile d).tile
  have hts := (hs.inv.tile d).tile
  have key := key _ _ rfl rfl
  have hview : ∀ rd, (G'.net.view d).reader = rd → G'.net.reader d = rd := fun _ h => h
  generalize hx' : G'.tile d = x' at h1
  generalize hvv' : G'.net.view d = v' at h1 key hview
  generalize hvv : G.net.view d = v at h1 key htG
  cases h1 with
  | take src y hr =>
    by_cases ha : a = src
    case neg =>
      refine key ?_
      rw [hr]
      simp [takenFrom, Ne.symm ha]
    subst ha
    have hrG : G.net.reader d = .waiting a := by
      have : (G.net.view d).reader = .waiting a := by rw [hvv]; exact hr
      exact this
    obtain ⟨rest, hbuf⟩ := take_buf hnet hrG (hview _ rfl)
    by_contra hlt
    have hn' : (takenOf G'.net a d).length = (takenOf G.net a d).length + 1 := by
      have h2 : takenOf G'.net a d = (G'.net.view d).readLog a ++ takenFrom a (G'.net.view d).reader := rfl
      have h3 : takenOf G.net a d = (G.net.view d).readLog a ++ takenFrom a (G.net.view d).reader := rfl
      rw [h2, h3, hvv', hvv, hr]
      simp [takenFrom]
    have heq : (takenOf s.net a d).length = (takenOf G.net a d).length := by
      have := htk a d
      omega
    have hnG : (takenOf G.net a d).length = (rowsFrom a (G.tile d).log).length := by
      rw [htG.reads a, ← hvv]
      unfold takenOf
      rw [hrG]
      simp [takenFrom, Net.view]
    -- the tile process of the other run
    have hph : ∃ addr source width vec got, (G.tile d).phase = .recvWait addr source width vec got ∧
        a = source.toNat := by
      have hrd := htG.reader
      rw [hr] at hrd
      cases hp : (G.tile d).phase with
      | recvWait addr source width vec got =>
        rw [hp] at hrd
        rcases hrd with h1 | ⟨z, h1⟩
        · injection h1 with h1; exact ⟨_, _, _, _, _, rfl, h1⟩
        · cases h1
      | _ => rw [hp] at hrd; cases hrd
    obtain ⟨addr, source, width, vec, got, hp, hsrc⟩ := hph
    rw [hp] at htG
    obtain ⟨rs, g, h3, h4, h5, h6, -, h7⟩ := htG.ran
    obtain ⟨rs', got', h9, h10⟩ := hts.ran
    have hlog : (s.tile d).log = (G.tile d).log := by
      by_contra hne
      obtain ⟨more, hmore⟩ := (hle d).2
      cases more with
      | nil => exact hne (by rw [← hmore, List.append_nil])
      | cons e more =>
        rw [← hmore, tileRan_append, h3, Option.bind_some] at h9
        obtain ⟨st1, h11, -⟩ := tileRan_cons h9
        rw [h4, h5] at h11
        have hrow : ∃ x, e = .row source x := by
          rcases tileNext_cases h11 with ⟨_, _, _, _, _, _, he, -⟩ | ⟨_, _, _, _, x, _, he, rfl, -⟩ |
            ⟨_, _, _, _, _, he, -, hnv, -⟩ | ⟨_, he, -⟩
          · cases he
          · injection he with he _
            injection he with e1 e2 e3 e4
            subst e2
            exact ⟨x, rfl⟩
          · injection he with he _
            injection he with e1 e2 e3 e4
            subst e4
            exact absurd h6 hnv
          · cases he
        obtain ⟨x, rfl⟩ := hrow
        have h12 : (rowsFrom a (s.tile d).log).length ≥ (rowsFrom a (G.tile d).log).length + 1 := by
          rw [← hmore]
          have : rowsFrom a ((G.tile d).log ++ .row source x :: more) =
              rowsFrom a (G.tile d).log ++ rowsFrom a [.row source x] ++ rowsFrom a more := by
            simp [rowsFrom]
          rw [this, show rowsFrom a [TileEv.row source x] = [x] by
            simp [rowsFrom, show source = (a : Int) by omega]]
          simp
        have h13 : (rowsFrom a (s.tile d).log).length ≤ (takenOf s.net a d).length := by
          rw [hts.reads a]
          unfold takenOf
          rw [List.length_append]
          exact Nat.le_add_right _ _
        omega
    have hempty : s.net.buf d a = [] := by
      rw [hlog, h3] at h9
      injection h9 with h9
      injection h9 with h9 h9'
      subst h9 h9' h4
      rcases tile_rest h0 hs hd' with ⟨h11, h12⟩ | ⟨id', _, _, _, _, h11, h12⟩ | ⟨_, _, _, _, _, h11, -, h12⟩ | ⟨h11, -⟩ | ⟨h11, -⟩
      · rw [h11] at h10; rw [h12] at h10; exact absurd h10.1 (by simp)
      · rw [h11] at h10; exact absurd h10.1 (by simp)
      · rw [h11] at h10
        obtain ⟨he, -⟩ := h10
        injection he with he _
        injection he with e1 e2 e3 e4
        subst e2
        rw [hsrc]; exact h12
      · rw [h11] at h10; exact absurd h10.1 (by simp)
      · rw [h11] at h10; exact absurd h10.1 (by simp)
    obtain ⟨bs, hbs⟩ := hG.net
    have hat : a < cfg'.net.tiles := by
      rw [hm.tiles]
      by_contra hge
      have := (netInv_run cfg.net bs _ hbs).far d a hge
      rw [hbuf] at this; cases this
    obtain ⟨PG, hP1, hP2⟩ := processed hG a
    obtain ⟨Ps, hQ1, -, hQ3⟩ := delivered_rest h0 hat hG (hoG a) hs (hle a).2 htk hP1 hP2
    have hc := dataTo_le hQ3 d
    rw [hP2, hQ1, hempty, hbuf] at hc
    simp only [List.length_append, List.length_cons, List.length_nil] at hc
    omega
  | recvRow addr source width vec got src data hp hr =>
    refine key ?_
    rw [hr]
    by_cases ha : a = src
    · subst ha
      simp [takenFrom, upd_same]
    · dsimp only
      rw [upd_ne _ _ _ _ ha]
      simp [takenFrom, Ne.symm ha]
  | recvRead addr source width vec got hp hg hr hb =>
    refine key ?_
    rw [hr]
    rfl
  | _ => exact key rfl

end step

/-! ## The whole run -/

theorem logsLe_refl (s : Sys) : logsLe s s := fun _ => ⟨fun _ => List.prefix_rfl, List.prefix_rfl⟩

theorem sameMachine_refl (cfg : SysCfg) : sameMachine cfg cfg := ⟨rfl, rfl, rfl, rfl⟩

theorem caught_up {cfg cfg' : SysCfg} {i : SysInit} {F s : Sys} (hm : sameMachine cfg cfg')
    (h0 : ∀ t, GoodStart (i.mem t) (i.valid t)) (as as' : List SysAct)
    (hF : i.start.run cfg as = some F) (hf : finished cfg F) (hv : singleAssignment cfg i F)
    (hrun : i.start.run cfg' as' = some s) (hs : Resting cfg' i s) (hnr : ¬strandedRead cfg' s) : logsLe F s := by
  have hFi := sysInv_run h0 as F hF
  have hsF := logsLe_run hm h0 as' hrun hFi hf hv
  have hstep : ∀ bs G a G', i.start.run cfg bs = some G → G.act cfg a = some G' →
      (logsLe G s ∧ takenLe G s) → logsLe G' s ∧ takenLe G' s := by
    intro bs G a G' hG ha h
    have hGi := sysInv_run h0 bs G hG
    have hGo := sentInOrder_run bs G hG
    have hGe := tileEnd_run bs G hG
    have hG'F := logsLe_run (sameMachine_refl cfg) h0 (bs ++ [a]) (sys_run_snoc bs hG ha) hFi hf hv
    have st := sys_step ha
    exact ⟨catch_logs hm h0 hGi hGo hGe hs hnr hG'F hsF h.1 h.2 st, catch_taken hm h0 hGi hGo hs h.1 h.2 st⟩
  refine (sys_reach_induction (P := fun G => logsLe G s ∧ takenLe G s) ?_ hstep as F hF).1
  refine ⟨fun t => ⟨fun k => List.nil_prefix, List.nil_prefix⟩, fun a d => ?_⟩
  simp [takenOf, SysInit.start, takenFrom]

theorem finished_of_caught {cfg cfg' : SysCfg} {i : SysInit} {F s : Sys} (hm : sameMachine cfg cfg')
    (h0 : ∀ t, GoodStart (i.mem t) (i.valid t)) (hFi : SysInv cfg i F)
    (hf : finished cfg F) (hs : Resting cfg' i s) (h1 : logsLe F s) (h2 : logsLe s F) : finished cfg' s := by
  refine ⟨hs.alive, fun t ht => ?_⟩
  have ht' : t < cfg.net.tiles := by rw [← hm.tiles]; exact ht
  have hlog : (s.tile t).log = (F.tile t).log := (h2 t).2.eq_of_length_le (h1 t).2.length_le
  have hclog : ∀ k, ((s.tile t).core k).log = ((F.tile t).core k).log :=
    fun k => ((h2 t).1 k).eq_of_length_le ((h1 t).1 k).length_le
  obtain ⟨rs, got, h3, h4⟩ := (hs.inv.tile t).tile.ran
  rw [hlog, (finished_tile hFi hf ht').1] at h3
  injection h3 with h3
  injection h3 with h3 h3'
  subst h3 h3'
  have hp : (s.tile t).phase = .ready ∧ (s.tile t).ops = [] := by
    rcases tile_rest h0 hs ht with h5 | ⟨_, _, _, _, _, h5, -⟩ | ⟨_, _, _, _, _, h5, -⟩ | ⟨h5, -⟩ | ⟨h5, -⟩
    · exact h5
    all_goals (rw [h5] at h4; exact absurd h4.1 (by simp))
  refine ⟨hp.1, hp.2, fun k hk => ?_⟩
  have hk' : k < cfg.cores := by rw [← hm.cores]; exact hk
  rcases core_rest h0 hs ht hk with h5 | h5 | ⟨_, _, _, _, _, _, h5, -⟩
  · exact Or.inr h5
  · exact Or.inl h5
  · exfalso
    obtain ⟨cv, rest, h6, h7⟩ := ((hs.inv.tile t).cores k).ran
    unfold CorePhaseOk at h7
    rw [h5] at h7
    rw [hclog k, hm.fl, hm.noise] at h6
    have := (coreRan_unique (finished_core hFi hf ht' hk').1 h6).2
    rw [h7.1] at this
    cases this

end Ramwich
