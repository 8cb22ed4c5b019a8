import Verif.Lemmas.SysTransfer

/-! # Independence of time -/
namespace Ramwich

open Spec

/-! ## Words -/

theorem wordAfter_cases (a : Nat) (ws : List Req) : ∀ old : I32,
    (wordAfter old ws a = old ∧ ∀ w ∈ ws, ¬covers w a) ∨
    ∃ w ∈ ws, covers w a ∧ wordAfter old ws a = w.value a := by
  induction ws with
  | nil => intro old; exact Or.inl ⟨rfl, by simp⟩
  | cons w ws ih =>
    intro old
    have hstep : wordAfter old (w :: ws) a = wordAfter (if covers w a then w.value a else old) ws a := rfl
    rw [hstep]
    by_cases hw : covers w a
    · rw [if_pos hw]
      right
      rcases ih (w.value a) with ⟨h1, -⟩ | ⟨w', h1, h2, h3⟩
      · exact ⟨w, by simp, hw, h1⟩
      · exact ⟨w', by simp [h1], h2, h3⟩
    · rw [if_neg hw]
      rcases ih old with ⟨h1, h2⟩ | ⟨w', h1, h2, h3⟩
      · refine Or.inl ⟨h1, ?_⟩
        intro w' hw'
        rcases List.mem_cons.1 hw' with rfl | hw'
        · exact hw
        · exact h2 w' hw'
      · exact Or.inr ⟨w', by simp [h1], h2, h3⟩

theorem wordValid_iff (a : Nat) (ws : List Req) : ∀ old : Bool,
    wordValid old ws a = true ↔ old = true ∨ ∃ w ∈ ws, covers w a := by
  induction ws with
  | nil => intro old; simp [wordValid]
  | cons w ws ih =>
    intro old
    have hstep : wordValid old (w :: ws) a = wordValid (if covers w a then true else old) ws a := rfl
    rw [hstep, ih]
    by_cases hw : covers w a <;> simp [hw]

/-- Two write requests that do the same. -/
def sameWrite (w w' : Req) : Prop := w.start = w'.start ∧ ∃ data n n', w.kind = .write data n ∧ w'.kind = .write data n'

theorem sameWrite_covers {w w' : Req} (h : sameWrite w w') (a : Nat) : covers w a ↔ covers w' a := by
  obtain ⟨h1, data, n, n', h2, h3⟩ := h
  simp [covers, Req.length, h1, h2, h3]

theorem sameWrite_value {w w' : Req} (h : sameWrite w w') (a : Nat) : w.value a = w'.value a := by
  obtain ⟨h1, data, n, n', h2, h3⟩ := h
  simp [Req.value, h1, h2, h3]

/-- The writes of one history are writes of the other. -/
def subWrites (ws ws' : List Req) : Prop := ∀ w ∈ ws, ∃ w' ∈ ws', sameWrite w w'

/-- No word gets two values. -/
def oneValue (m0 : Memory) (v0 : List Bool) (ws : List Req) : Prop :=
  ∀ w ∈ ws, ∀ a, covers w a → (v0.getD a false = true → w.value a = m0.cells.getD a 0) ∧
    ∀ w' ∈ ws, covers w' a → w'.value a = w.value a

theorem word_agree {m0 : Memory} {v0 : List Bool} {all ws ws' : List Req} (hv : oneValue m0 v0 all)
    (h : subWrites ws all) (h' : subWrites ws' all) (a : Nat)
    (hval : wordValid (v0.getD a false) ws a = true) (hval' : wordValid (v0.getD a false) ws' a = true) :
    wordAfter (m0.cells.getD a 0) ws a = wordAfter (m0.cells.getD a 0) ws' a := by
  have key : ∀ ws, subWrites ws all → wordValid (v0.getD a false) ws a = true →
      (v0.getD a false = true ∧ wordAfter (m0.cells.getD a 0) ws a = m0.cells.getD a 0) ∨
      ∃ w ∈ all, covers w a ∧ wordAfter (m0.cells.getD a 0) ws a = w.value a := by
    intro ws h hval
    rcases wordAfter_cases a ws (m0.cells.getD a 0) with ⟨h1, h2⟩ | ⟨w, h1, h2, h3⟩
    · rcases (wordValid_iff a ws _).1 hval with h3 | ⟨w, h3, h4⟩
      · exact Or.inl ⟨h3, h1⟩
      · exact absurd h4 (h2 w h3)
    · obtain ⟨w', h4, h5⟩ := h w h1
      exact Or.inr ⟨w', h4, (sameWrite_covers h5 a).1 h2, by rw [h3, sameWrite_value h5]⟩
  rcases key ws h hval with ⟨h1, h2⟩ | ⟨w, h1, h2, h3⟩ <;>
    rcases key ws' h' hval' with ⟨h4, h5⟩ | ⟨w', h4, h5, h6⟩
  · rw [h2, h5]
  · rw [h2, h6, (hv w' h4 a h5).1 h1]
  · rw [h3, h5, (hv w h1 a h2).1 h4]
  · rw [h3, h6, (hv w' h4 a h5).2 w h1 h2]

theorem subWrites_refl {ws : List Req} (h : ∀ w ∈ ws, w.isWrite = true) : subWrites ws ws := by
  intro w hw
  refine ⟨w, hw, rfl, ?_⟩
  have := h w hw
  unfold Req.isWrite at this
  cases hk : w.kind with
  | read => rw [hk] at this; cases this
  | write data n => exact ⟨data, n, n, rfl, rfl⟩

theorem subWrites_of_subset {ws ws' all : List Req} (h : ∀ w ∈ ws, w ∈ ws') (h' : subWrites ws' all) : subWrites ws all :=
  fun w hw => h' w (h w hw)

theorem writesOf_mem {as : List Answer} {w : Req} : w ∈ writesOf as ↔ ∃ tm, .wrote w tm ∈ as := by
  unfold writesOf
  rw [List.mem_filterMap]
  constructor
  · rintro ⟨a, h1, h2⟩
    cases a with
    | wrote r tm => injection h2 with h2; subst h2; exact ⟨tm, h1⟩
    | read => cases h2
  · rintro ⟨tm, h⟩
    exact ⟨_, h, rfl⟩

theorem writesOf_isWrite {c : Ctrl} (h : CtrlLine c) : ∀ w ∈ writesOf c.answers, w.isWrite = true := by
  intro w hw
  obtain ⟨tm, hm⟩ := writesOf_mem.1 hw
  exact h.kinds _ hm

/-- Reads of the same words get the same data. -/
theorem read_agree {lat lat' : Int} {m0 : Memory} {v0 : List Bool} {t0 : Nat} {c c' : Ctrl} (h : CtrlInv lat m0 v0 t0 c)
    (h' : CtrlInv lat' m0 v0 t0 c') (hv : oneValue m0 v0 (writesOf c'.answers))
    (hw : subWrites (writesOf c.answers) (writesOf c'.answers)) {r r' : Req} {tm tm' : Nat} {d d' : List I32}
    (hr : .read r tm d ∈ c.answers) (hr' : .read r' tm' d' ∈ c'.answers) (hs : r.start = r'.start)
    (hk : r.kind = r'.kind) : d = d' := by
  obtain ⟨l1, l2, hl⟩ := List.append_of_mem hr
  obtain ⟨l1', l2', hl'⟩ := List.append_of_mem hr'
  have g := h.ans.reads l1 r tm d l2 hl
  have g' := h'.ans.reads l1' r' tm' d' l2' hl'
  have hlen : r.length = r'.length := by simp [Req.length, hk]
  rw [g.value, g'.value, hlen, hs]
  apply List.map_congr_left
  intro j hj
  have hj := List.mem_range.1 hj
  have hin := g.inside
  have hcov : covers r' (r'.start.toNat + j) := by
    unfold covers
    have := g'.inside.1
    omega
  have hcov' : covers r (r'.start.toNat + j) := by
    unfold covers at hcov ⊢
    rw [hs, hlen]; exact hcov
  apply word_agree hv
  · refine subWrites_of_subset ?_ hw
    rw [hl]; intro w hm; rw [writesOf_append]; exact List.mem_append_left _ hm
  · refine subWrites_of_subset ?_ (subWrites_refl (writesOf_isWrite h'.line))
    rw [hl']; intro w hm; rw [writesOf_append]; exact List.mem_append_left _ hm
  · exact g.valid _ hcov'
  · exact g'.valid _ hcov

/-! ## Logs -/

theorem coreRan_append {fl : FloatActs} {noise : Nat → Nat → Nat → Noise} (log : List CoreEv) :
    ∀ (n : Nat) (c : Core) (p : List CoreOp) (cv : Core) (rest : List CoreOp) (more : List CoreEv) (cF : Core)
      (pF : List CoreOp), coreRan fl noise n c p log cv rest → coreRan fl noise n c p (log ++ more) cF pF →
    coreRan fl noise (n + log.length) cv rest more cF pF := by
  induction log with
  | nil =>
    intro n c p cv rest more cF pF h h'
    obtain ⟨rfl, rfl⟩ := h
    exact h'
  | cons e log ih =>
    intro n c p cv rest more cF pF h h'
    obtain ⟨r1, h1, -, h3⟩ := h
    obtain ⟨r2, h4, -, h6⟩ := h'
    rw [h1] at h4
    injection h4 with _ h4
    subst h4
    have := ih (n + 1) _ _ _ _ _ _ _ h3 h6
    rw [List.length_cons]
    rw [show n + (log.length + 1) = n + 1 + log.length by omega]
    exact this

/-- The next operation of a core in a run that has gone further. -/
theorem core_next {fl : FloatActs} {noise : Nat → Nat → Nat → Noise} {c : Core} {p : List CoreOp} {log logF : List CoreEv}
    {cv cF : Core} {op : CoreOp} {rest : List CoreOp} (hp : log <+: logF)
    (h : coreRan fl noise 0 c p log cv (op :: rest)) (hF : coreRan fl noise 0 c p logF cF []) :
    ∃ e, log ++ [e] <+: logF ∧ e.op = op ∧ e.follows fl (noise log.length) cv := by
  obtain ⟨more, rfl⟩ := hp
  have := coreRan_append log 0 c p cv (op :: rest) more cF [] h hF
  cases more with
  | nil => exact absurd this.2 (by simp)
  | cons e more =>
    obtain ⟨r, h1, h2, -⟩ := this
    injection h1 with h1 _
    refine ⟨e, ⟨more, by simp⟩, h1.symm, ?_⟩
    rw [Nat.zero_add] at h2
    exact h2

theorem coreRan_eq {fl : FloatActs} {noise : Nat → Nat → Nat → Noise} {c : Core} {p : List CoreOp} {log logF : List CoreEv}
    {cv cF : Core} (hp : log <+: logF) (h : coreRan fl noise 0 c p log cv [])
    (hF : coreRan fl noise 0 c p logF cF []) : log = logF ∧ cv = cF := by
  obtain ⟨more, rfl⟩ := hp
  have := coreRan_append log 0 c p cv [] more cF [] h hF
  cases more with
  | nil => exact ⟨by simp, this.1.symm⟩
  | cons e more => obtain ⟨r, h1, -⟩ := this; cases h1

theorem tileRan_append (log more : List TileEv) : ∀ st : List TileOp × List (List I32),
    tileRan st (log ++ more) = (tileRan st log).bind fun st => tileRan st more := by
  induction log with
  | nil => intro st; rfl
  | cons e log ih =>
    intro st
    simp only [List.cons_append, tileRan]
    cases tileNext st e with
    | none => rfl
    | some st1 => exact ih st1

theorem tile_next {st0 : List TileOp × List (List I32)} {log logF : List TileEv} {rest : List TileOp}
    {got gotF : List (List I32)} (hp : log <+: logF) (h : tileRan st0 log = some (rest, got)) (hne : rest ≠ [])
    (hF : tileRan st0 logF = some ([], gotF)) :
    ∃ e st, log ++ [e] <+: logF ∧ tileNext (rest, got) e = some st := by
  obtain ⟨more, rfl⟩ := hp
  rw [tileRan_append, h, Option.bind_some] at hF
  cases more with
  | nil => injection hF with hF; injection hF with hF; exact absurd hF hne
  | cons e more =>
    obtain ⟨st1, h1, -⟩ := tileRan_cons hF
    exact ⟨e, st1, ⟨more, by simp⟩, h1⟩

theorem tileRan_eq {st0 : List TileOp × List (List I32)} {log logF : List TileEv}
    {got gotF : List (List I32)} (hp : log <+: logF) (h : tileRan st0 log = some ([], got))
    (hF : tileRan st0 logF = some ([], gotF)) : log = logF := by
  obtain ⟨more, rfl⟩ := hp
  rw [tileRan_append, h, Option.bind_some] at hF
  cases more with
  | nil => simp
  | cons e more =>
    obtain ⟨st1, h1, -⟩ := tileRan_cons hF
    rcases tileNext_cases h1 with ⟨_, _, _, _, _, _, h, _⟩ | ⟨_, _, _, _, _, _, h, _⟩ | ⟨_, _, _, _, _, h, _⟩ | ⟨_, h, _⟩ <;>
      cases h

/-! ## Rows -/

/-- What a tile has received from another is the beginning of what that one has sent, including a row that
has been taken from the buffer. -/
theorem rows_prefix {cfg : SysCfg} {i : SysInit} {s : Sys} (h : SysInv cfg i s) (a d : Nat) :
    rowsFrom a (s.tile d).log ++ takenFrom a (s.net.reader d) <+: rowsTo d (s.tile a).log := by
  obtain ⟨as, hr⟩ := h.net
  have hst := (netInv_run cfg.net as _ hr).stream a d
  rw [(h.tile d).tile.reads a, (h.tile a).tile.sends d]
  show s.net.readLog d a ++ _ <+: dataTo d (s.net.sent a) ++ _
  rw [hst]
  simp only [List.append_assoc]
  exact List.prefix_append_right_inj _ |>.2 (List.prefix_append _ _)

/-! ## A run and a finished run -/

/-- The logs of `s` are prefixes of those of `F`. -/
def logsLe (s F : Sys) : Prop :=
  ∀ t, (∀ k, ((s.tile t).core k).log <+: ((F.tile t).core k).log) ∧ (s.tile t).log <+: (F.tile t).log

theorem rowsTo_mono {d : Nat} {log log' : List TileEv} (h : log <+: log') : rowsTo d log <+: rowsTo d log' := by
  obtain ⟨m, rfl⟩ := h
  exact ⟨rowsTo d m, by simp [rowsTo]⟩

theorem rowsFrom_mono {d : Nat} {log log' : List TileEv} (h : log <+: log') : rowsFrom d log <+: rowsFrom d log' := by
  obtain ⟨m, rfl⟩ := h
  exact ⟨rowsFrom d m, by simp [rowsFrom]⟩

theorem prefix_snoc_eq {α : Type} {l m : List α} {a b : α} (h : l ++ [a] <+: m) (h' : l ++ [b] <+: m) : a = b := by
  obtain ⟨x, rfl⟩ := h
  obtain ⟨y, hy⟩ := h'
  simp only [List.append_assoc, List.append_cancel_left_eq, List.singleton_append, List.cons.injEq] at hy
  exact hy.1.symm

/-- The finished core has done everything. -/
theorem finished_core {cfg : SysCfg} {i : SysInit} {F : Sys} (h : SysInv cfg i F) (hf : finished cfg F) {t k : Nat}
    (ht : t < cfg.net.tiles) (hk : k < cfg.cores) :
    coreRan cfg.fl (cfg.noise t k) 0 (i.core t k) (i.prog t k) ((F.tile t).core k).log ((F.tile t).core k).core [] ∧
    ∀ e ∈ ((F.tile t).core k).log, ∀ dest read w v, e.op = .store dest read w v →
      ∃ r tm, .wrote r tm ∈ (F.tile t).ctrl.answers ∧ r.start = e.addr ∧ r.kind = .write e.data v.toNat := by
  have hc := (h.tile t).cores k
  obtain ⟨cv, rest, h1, h2⟩ := hc.ran
  have hph := (hf.2 t ht).2.2 k hk
  unfold CorePhaseOk at h2
  refine ⟨?_, ?_⟩
  · rcases hph with hp | ⟨hp, hq⟩
    · rw [hp] at h2; rw [h2.1]; rw [h2.2.2] at h1; exact h1
    · rw [hp] at h2; rw [h2.1]; rw [← h2.2, hq] at h1; exact h1
  · intro e he dest read w v hop
    rcases hc.stores e he dest read w v hop with h3 | h3
    · exact h3
    · rcases hph with hp | ⟨hp, hq⟩ <;> (rw [hp] at h3; cases h3)

theorem finished_tile {cfg : SysCfg} {i : SysInit} {F : Sys} (h : SysInv cfg i F) (hf : finished cfg F) {t : Nat}
    (ht : t < cfg.net.tiles) : tileRan (i.ops t, []) (F.tile t).log = some ([], []) ∧
    ∀ a s w n rows, .received a s w n rows ∈ (F.tile t).log →
      ∃ r tm, .wrote r tm ∈ (F.tile t).ctrl.answers ∧ r.start = a ∧ r.kind = .write rows.flatten n.toNat := by
  have hc := (h.tile t).tile
  obtain ⟨hp, hq, -⟩ := hf.2 t ht
  rw [hp, hq] at hc
  obtain ⟨rest, got, h1, h2, h3⟩ := hc.ran
  refine ⟨by rw [h1, h2, h3], ?_⟩
  intro a s w n rows hm
  rcases (hc.received a s w n rows hm).2 with h4 | h4
  · exact h4
  · cases h4

/-- The writes made so far are writes of the finished run. -/
theorem logsLe_writes {cfg cfg' : SysCfg} {i : SysInit} {s F : Sys} (hm : sameMachine cfg cfg')
    (hs : SysInv cfg' i s) (hF : SysInv cfg i F) (hf : finished cfg F)
    (h0 : ∀ t, GoodStart (i.mem t) (i.valid t)) (hle : logsLe s F) {t : Nat} (ht : t < cfg.net.tiles) :
    subWrites (writesOf (s.tile t).ctrl.answers) (writesOf (F.tile t).ctrl.answers) := by
  intro w hw
  have hline : CtrlLine (s.tile t).ctrl := (ctrlInv_of (h0 t) (hs.tile t).ctrl).line
  obtain ⟨tm, hw⟩ := writesOf_mem.1 hw
  have hsub := answer_submitted hline hw
  have hkind : w.isWrite = true := hline.kinds _ hw
  cases hk : w.kind with
  | read => simp [Req.isWrite, hk] at hkind
  | write data rows =>
    rcases (hs.tile t).writes w hsub data rows hk with ⟨k, hkc, e, he, dest, read, wd, v, h1, h2, h3⟩ |
      ⟨a, src, wd, n, rws, h1, h2, h3⟩
    · obtain ⟨r, tm', h4, h5, h6⟩ := (finished_core hF hf ht (hm.cores ▸ hkc)).2 e
        (((hle t).1 k).subset he) dest read wd v h1
      exact ⟨r, writesOf_mem.2 ⟨tm', h4⟩, by rw [h5, h2], data, _, _, hk, by rw [h6, h3]⟩
    · obtain ⟨r, tm', h4, h5, h6⟩ := (finished_tile hF hf ht).2 a src wd n rws ((hle t).2.subset h1)
      exact ⟨r, writesOf_mem.2 ⟨tm', h4⟩, by rw [h5, h2], data, _, _, hk, by rw [h6, h3]⟩

/-- One step of another run stays within the finished one. -/
theorem logsLe_step {cfg cfg' : SysCfg} {i : SysInit} {s s' F : Sys} (hm : sameMachine cfg cfg')
    (h0 : ∀ t, GoodStart (i.mem t) (i.valid t))
    (hs : SysInv cfg' i s) (hF : SysInv cfg i F) (hf : finished cfg F) (hv : singleAssignment cfg i F)
    (hle : logsLe s F) (st : SysStep cfg' s s') : logsLe s' F := by
  intro t
  rcases st.tile t with ⟨h1, -⟩ | ⟨ht, h1⟩
  · rw [h1]; exact hle t
  rw [hm.tiles] at ht
  have hwr := logsLe_writes hm hs hF hf h0 hle ht
  have hci := ctrlInv_of (h0 t) (hs.tile t).ctrl
  have hciF := ctrlInv_of (h0 t) (hF.tile t).ctrl
  have hone : oneValue (i.mem t) (i.valid t) (writesOf (F.tile t).ctrl.answers) := hv t ht
  have hcores := hs.tile t |>.cores
  have htile := (hs.tile t).tile
  have hl := hle t
  have hreader : (s.net.view t).reader = s.net.reader t := rfl
  have hrows := fun a => rows_prefix hs a t
  generalize hx' : s'.tile t = x' at h1 ⊢
  generalize hvv : s.net.view t = v at *
  generalize s'.net.view t = v' at h1
  -- a core that logs
  have hcore : ∀ (k : Nat) (y : CoreSt) (c : Ctrl), y.log <+: ((F.tile t).core k).log →
      (∀ j, ((TileSt.setCore { s.tile t with ctrl := c } k y).core j).log <+: ((F.tile t).core j).log) ∧
      (TileSt.setCore { s.tile t with ctrl := c } k y).log <+: (F.tile t).log := by
    intro k y c hy
    refine ⟨fun j => ?_, hl.2⟩
    rw [setCore_core]
    by_cases hj : j = k
    · rw [if_pos hj, hj]; exact hy
    · rw [if_neg hj]; exact hl.1 j
  cases h1 with
  | run k op rest c hk hp hq hop he =>
    refine hcore k _ (s.tile t).ctrl ?_
    obtain ⟨cv, rs, h1, h2⟩ := (hcores k).ran
    unfold CorePhaseOk at h2
    rw [hp] at h2
    rw [← h2.2, hq, ← h2.1, hm.fl, hm.noise] at h1
    obtain ⟨e, h3, h4, h5⟩ := core_next (hl.1 k) h1 (finished_core hF hf ht (hm.cores ▸ hk)).1
    have : (⟨op, 0, [], c⟩ : CoreEv) = e := by
      rw [hm.fl, hm.noise] at he
      obtain ⟨eop, eaddr, edata, eafter⟩ := e
      dsimp only at h4
      subst h4
      unfold CoreEv.follows at h5
      dsimp only at h5
      cases eop with
      | load => cases hop
      | store => cases hop
      | _ =>
        dsimp only at h5
        obtain ⟨h6, h7, h8⟩ := h5
        rw [he] at h6
        injection h6 with _ h6
        rw [h6, h7, h8]
    rw [this]
    exact h3
  | loaded k id addr dest read width vec data hk hp ha =>
    refine hcore k _ (s.tile t).ctrl ?_
    obtain ⟨cv, rs, h1, h2⟩ := (hcores k).ran
    unfold CorePhaseOk at h2
    rw [hp] at h2
    obtain ⟨h2, h3, r0, h4, h5, h6, h7⟩ := h2
    rw [h2, hm.fl, hm.noise] at h1
    obtain ⟨e, h8, h9, h10⟩ := core_next (hl.1 k) h1 (finished_core hF hf ht (hm.cores ▸ hk)).1
    obtain ⟨r, tm, hr1, hr2⟩ := readAnswer_mem ha
    have hr : r = r0 := answer_unique hci.line hr1 hr2 h4
    subst hr
    have hmem : e ∈ ((F.tile t).core k).log := h8.subset (by simp)
    obtain ⟨r', tm', h11, h12, h13⟩ := ((hF.tile t).cores k).loads e hmem _ _ _ _ h9
    have : (⟨.load dest read width vec, addr, data, (((s.tile t).core k).core.loadFinish dest data).2⟩ : CoreEv) = e := by
      obtain ⟨eop, eaddr, edata, eafter⟩ := e
      dsimp only at h9 h11 h12
      subst h9
      obtain ⟨c1, h14, h15⟩ := h10
      rw [h3] at h14
      injection h14 with h14 h16
      injection h14 with h14
      dsimp only at h14 h15
      subst h14
      have hd : data = edata := read_agree hci hciF hone hwr hr1 h11 (by rw [h6, h12]) (by rw [h7, h13])
      subst hd
      rw [h15, h16]
    rw [this]
    exact h8
  | store k dest read width vec rest addr data c hk hp hq he =>
    refine hcore k _ (s.tile t).ctrl ?_
    obtain ⟨cv, rs, h1, h2⟩ := (hcores k).ran
    unfold CorePhaseOk at h2
    rw [hp] at h2
    rw [← h2.2, hq, ← h2.1, hm.fl, hm.noise] at h1
    obtain ⟨e, h3, h4, h5⟩ := core_next (hl.1 k) h1 (finished_core hF hf ht (hm.cores ▸ hk)).1
    have : (⟨.store dest read width vec, addr, data, c⟩ : CoreEv) = e := by
      obtain ⟨eop, eaddr, edata, eafter⟩ := e
      dsimp only at h4
      subst h4
      unfold CoreEv.follows at h5
      dsimp only at h5
      rw [he] at h5
      injection h5 with h6 h7
      injection h6 with h6
      injection h6 with h6 h8
      rw [h6, h7, h8]
    rw [this]
    exact h3
  | sendGot id addr target width vec data hp ha hw hv' =>
    refine ⟨hl.1, ?_⟩
    rw [hp] at htile
    obtain ⟨rs, got, h5, h6, h7, r0, h8, h9, h10, h11⟩ := htile.ran
    obtain ⟨e, st1, h12, h13⟩ := tile_next hl.2 h5 (by rw [h6]; simp) (finished_tile hF hf ht).1
    obtain ⟨r, tm, hr1, hr2⟩ := readAnswer_mem ha
    have hr : r = r0 := answer_unique hci.line hr1 hr2 h8
    subst hr
    have hmem : e ∈ (F.tile t).log := h12.subset (by simp)
    rw [h6] at h13
    rcases tileNext_cases h13 with ⟨a, tg, w, v, rows, rest, he, -, rfl, -⟩ |
      ⟨a, s, w, v, x, rest, he, -⟩ | ⟨a, s, w, v, rest, he, -⟩ | ⟨rest, he, -⟩
    · injection he with he _
      injection he with e1 e2 e3 e4
      subst e1 e2 e3 e4
      obtain ⟨-, -, r', tm', data', h14, h15, h16, h17⟩ := (hF.tile t).tile.sent _ _ _ _ _ hmem
      have hd : data = data' := read_agree hci hciF hone hwr hr1 h14 (by rw [h10, h15]) (by rw [h11, h16])
      rw [hd, ← h17]
      exact h12
    · cases he
    · cases he
    · cases he
  | recvRow addr source width vec got src data hp hr =>
    refine ⟨hl.1, ?_⟩
    rw [hp] at htile
    obtain ⟨rs, g, h5, h6, h7, h8, h9, h10⟩ := htile.ran
    obtain ⟨e, st1, h12, h13⟩ := tile_next hl.2 h5 (by rw [h6]; simp) (finished_tile hF hf ht).1
    have hrd := htile.reader
    rw [hr] at hrd
    have hsrc : src = source.toNat := by
      rcases hrd with h1 | ⟨z, h1⟩
      · cases h1
      · injection h1
    have hnat : source = (src : Int) := by omega
    rw [h6, h7] at h13
    rcases tileNext_cases h13 with ⟨a, tg, w, v, rows, rest, he, -⟩ |
      ⟨a, s1, w, v, x, rest, he, rfl, -⟩ | ⟨a, s1, w, v, rest, he, rfl, hnv, -⟩ | ⟨rest, he, -⟩
    · cases he
    · injection he with he _
      injection he with e1 e2 e3 e4
      subst e1 e2 e3 e4
      have hx : data = x := by
        have hb := rowsTo_mono (d := t) (hle src).2
        have ha := hrows src
        rw [← hreader, hr] at ha
        rw [show takenFrom src (.got src data) = [data] by simp [takenFrom]] at ha
        have hc := rowsFrom_mono (d := src) h12
        rw [rowsFrom_snoc, show rowsFrom src [TileEv.row source x] = [x] by simp [rowsFrom, hnat]] at hc
        have hd := rows_prefix hF src t
        exact prefix_snoc_eq (ha.trans hb) (hc.trans ((List.prefix_append _ _).trans hd))
      rw [hx]
      exact h12
    · injection he with he _
      injection he with e1 e2 e3 e4
      subst e4
      exact absurd h8 hnv
    · cases he
  | recvAll addr source width vec got c' hp hg hc hn =>
    refine ⟨hl.1, ?_⟩
    rw [hp] at htile
    obtain ⟨rs, g, h5, h6, h7, h8, h9⟩ := htile.ran
    obtain ⟨e, st1, h12, h13⟩ := tile_next hl.2 h5 (by rw [h6]; simp) (finished_tile hF hf ht).1
    rw [h6, h7] at h13
    rcases tileNext_cases h13 with ⟨a, tg, w, v, rows, rest, he, -⟩ |
      ⟨a, s1, w, v, x, rest, he, rfl, hlt, -⟩ | ⟨a, s1, w, v, rest, he, rfl, hnv, -⟩ | ⟨rest, he, -⟩
    · cases he
    · injection he with he _
      injection he with e1 e2 e3 e4
      subst e4
      exact absurd hlt hg
    · injection he with he _
      injection he with e1 e2 e3 e4
      subst e1 e2 e3 e4
      exact h12
    · cases he
  | haltEnd c' hp hst hc hn =>
    refine ⟨hl.1, ?_⟩
    rw [hp] at htile
    obtain ⟨rs, g, h5, h6, h7⟩ := htile.ran
    obtain ⟨e, st1, h12, h13⟩ := tile_next hl.2 h5 (by rw [h6]; simp) (finished_tile hF hf ht).1
    rw [h6] at h13
    rcases tileNext_cases h13 with ⟨a, tg, w, v, rows, rest, he, -⟩ |
      ⟨a, s1, w, v, x, rest, he, rfl, hlt, -⟩ | ⟨a, s1, w, v, rest, he, rfl, hnv, -⟩ | ⟨rest, he, -, rfl, -⟩
    · cases he
    · cases he
    · cases he
    · exact h12
  | timed k => exact hcore k _ (s.tile t).ctrl (hl.1 k)
  | load k _ _ _ _ _ _ _ c' => exact hcore k _ c' (hl.1 k)
  | loadDone k => exact hcore k _ (s.tile t).ctrl (hl.1 k)
  | stored k _ _ _ c' => exact hcore k _ c' (hl.1 k)
  | storeDone k => exact hcore k _ (s.tile t).ctrl (hl.1 k)
  | halted k => exact hcore k _ (s.tile t).ctrl (hl.1 k)
  | _ => exact hl

theorem logsLe_run {cfg cfg' : SysCfg} {i : SysInit} {s F : Sys} (hm : sameMachine cfg cfg')
    (h0 : ∀ t, GoodStart (i.mem t) (i.valid t))
    (as : List SysAct) (hs : i.start.run cfg' as = some s) (hF : SysInv cfg i F) (hf : finished cfg F)
    (hv : singleAssignment cfg i F) : logsLe s F := by
  refine (sys_run_induction (P := fun s => SysInv cfg' i s ∧ logsLe s F) ?_ as _ s ?_ hs).2
  · intro s s' h st
    exact ⟨sysInv_step h0 s s' h.1 st, logsLe_step hm h0 h.1 hF hf hv h.2 st⟩
  · exact ⟨sysInv_run h0 [] _ rfl, fun t => ⟨fun k => List.nil_prefix, List.nil_prefix⟩⟩

end Ramwich
