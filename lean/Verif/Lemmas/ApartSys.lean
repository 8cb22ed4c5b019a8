import Verif.Lemmas.Apart
import Verif.Lemmas.FlowInv

/-! # No read is skipped if no write has words for two processes -/
namespace Ramwich

open Spec

/-- A Recv that has been executed is in the program. -/
theorem received_op {ops rest : List TileOp} {got : List (List I32)} {log : List TileEv}
    (h : tileRan (ops, []) log = some (rest, got)) {a s w v : Int} {rows : List (List I32)}
    (hm : .received a s w v rows ∈ log) : .receive a s w v ∈ ops := by
  obtain ⟨l1, l2, rfl⟩ := List.append_of_mem hm
  rw [tileRan_append] at h
  cases h1 : tileRan (ops, []) l1 with
  | none => rw [h1] at h; cases h
  | some st =>
    rw [h1] at h
    obtain ⟨rest1, got1⟩ := st
    obtain ⟨done, h2⟩ := tileRan_suffix _ _ _ _ _ h1
    simp only [Option.bind_some, tileRan] at h
    cases h3 : tileNext (rest1, got1) (.received a s w v rows) with
    | none => rw [h3] at h; cases h
    | some st2 =>
      unfold tileNext at h3
      split at h3 <;> try (cases h3; done)
      · rename_i h4 h5
        cases h5
      · rename_i h4 h5
        cases h5
      · rename_i h4 h5
        injection h4 with h4 h6
        injection h5
        split at h3
        · rename_i hc
          rw [h2, h4]
          obtain ⟨e1, e2, e3, e4, -⟩ := hc
          subst_vars
          simp
        · cases h3
      · rename_i h4 h5
        cases h5

section
variable {cfg : SysCfg} {c c' : Config} {p : CoreParams} {i : SysInit} {t : Nat} {evs : List (List MemEv)}

/-- What is known about the programs of a tile. -/
structure Traced (cfg : SysCfg) (cc : Config) (p : CoreParams) (i : SysInit) (t : Nat) (evs : List (List MemEv)) : Prop where
  params : ParamsOf cc p
  elec : Electrical cc.mvmuConfig
  lats : ∃ lat dlat, Latencies cc.mvmuConfig lat dlat
  start : ∀ k < cfg.cores, CoreOk cc (i.core t k)
  len : evs.length = cfg.cores
  trace : ∀ (k : Nat) es, evs[k]? = some es → p.trace [] (i.prog t k) = some es
  ops : ∀ op ∈ i.ops t, op.sensible

theorem traced_core (h : Traced cfg c' p i t evs) (h0 : GoodStart (i.mem t) (i.valid t)) {v : NetView} {x : TileSt}
    (ha : TileAll cfg i t v x) {k : Nat} (hk : k < cfg.cores) :
    ∃ es cv rest, evs[k]? = some es ∧ CorePhaseOk k x.ctrl (x.core k) cv rest ∧
      (∀ e ∈ (x.core k).log, ∀ dest read w v, e.op = .store dest read w v →
        ∃ a : Nat, e.addr = a ∧ .write a e.data.length ∈ es) ∧
      (rest = [] ∨ ∃ K' evs', CoreKnown c' cfg.fl K' cv ∧ p.trace K' rest = some evs' ∧ evs' ⊆ es) := by
  have hes := List.getElem?_eq_getElem (show k < evs.length by rw [h.len]; exact hk)
  obtain ⟨cv, rest, h1, h2⟩ := (ha.cores k).ran
  obtain ⟨lat, dlat, hl⟩ := h.lats
  obtain ⟨e1, σ, e2⟩ := h.start k hk
  have := trace_split h.params cfg.fl h.elec hl (cfg.noise t k) (x.core k).log 0 (i.core t k) (i.prog t k) [] _ cv rest
    ⟨e1, σ, e2, knows_nil _ _⟩ (h.trace k _ hes) h1 (by
      intro e he dest read w v ho
      obtain ⟨r, tm, g1, g2, g3⟩ := (ha.cores k).loads e he dest read w v ho
      obtain ⟨l1, l2, hl⟩ := List.append_of_mem g1
      have g := ((ctrlInv_of h0 ha.ctrl).ans.reads l1 r tm e.data l2 hl).value
      rw [g, List.length_map, List.length_range]
      simp only [Req.length, g3])
  exact ⟨_, cv, rest, hes, h2, this.1, this.2⟩

/-- A waiting read reads a block of its process. -/
theorem pending_block (h : Traced cfg c' p i t evs) (h0 : GoodStart (i.mem t) (i.valid t)) {v : NetView} {x : TileSt}
    (ha : TileAll cfg i t v x) (hw : TileWaits v x) {r : Req} (hr : r ∈ x.ctrl.pending) :
    ∃ b : Block, r.start = b.1 ∧ r.length = b.2 ∧
      ((b ∈ sendBlocks (i.ops t) ∧ ∃ addr target width vec, x.phase = .sendWait r.id addr target width vec) ∨
       ∃ k < cfg.cores, (∃ es, evs[k]? = some es ∧ b ∈ loadBlocks es) ∧
         ∃ addr dest read width vec, (x.core k).phase = .loadWait r.id addr dest read width vec) := by
  have hl := (ctrlInv_of h0 ha.ctrl).line
  have hget := (submitted_mem x.ctrl hl r (pending_mem x.ctrl hl r hr)).2
  rcases pending_owner h0 ha hw hr with ⟨a, tg, w, n, hp⟩ | ⟨k, hk, a, d, rd, w, n, hp⟩
  · have hran := ha.tile.ran
    rw [hp] at hran
    obtain ⟨rest, got, h1, h2, -, r', h4, -, h6, h7⟩ := hran
    rw [hget] at h4
    injection h4 with h4
    subst h4
    obtain ⟨done, h8⟩ := tileRan_suffix _ _ _ _ _ h1
    have hmem : .send a tg w n ∈ i.ops t := by rw [h8, h2]; simp
    obtain ⟨s1, s2, s3⟩ := h.ops _ hmem
    have hpos := Int.mul_pos s2 s3
    refine ⟨(a.toNat, (w * n).toNat), by rw [h6]; dsimp only; omega, ?_, .inl ⟨?_, _, _, _, _, hp⟩⟩
    · simp only [Req.length, h7]; omega
    · exact List.mem_filterMap.2 ⟨_, hmem, rfl⟩
  · obtain ⟨es, cv, rest, h1, h2, -, h4⟩ := traced_core h h0 ha hk
    unfold CorePhaseOk at h2
    rw [hp] at h2
    obtain ⟨h5, h6, r', h7, -, h8, h9⟩ := h2
    rw [hget] at h7
    injection h7 with h7
    subst h7
    rcases h4 with h4 | ⟨K', evs', g1, g2, g3⟩
    · rw [h4] at h5; cases h5
    · rw [h5] at g2
      obtain ⟨b, m, c1, -, es', k1, k2, -, -, k5, -⟩ := trace_load h.params g1 g2
      rw [k5] at h6
      injection h6 with h6 _
      injection h6 with h6
      refine ⟨(b, m), by rw [h8, ← h6], ?_, .inr ⟨k, hk, ⟨es, h1, ?_⟩, _, _, _, _, _, hp⟩⟩
      · simp only [Req.length, h9]; omega
      · exact List.mem_filterMap.2 ⟨_, g3 (by rw [k1]; exact List.mem_cons_self ..), rfl⟩

/-- A write writes a block of a store or of a Recv. -/
theorem written_block (h : Traced cfg c' p i t evs) (h0 : GoodStart (i.mem t) (i.valid t)) {v : NetView} {x : TileSt}
    (ha : TileAll cfg i t v x) {r : Req} (hr : r ∈ x.ctrl.submitted) {data : List I32} {rows : Nat}
    (hk : r.kind = .write data rows) :
    ∃ b ∈ evs.flatMap storeBlocks ++ recvBlocks (i.ops t), r.start = b.1 ∧ r.length = b.2 := by
  rcases ha.writes r hr data rows hk with ⟨k, hkc, e, he, dest, read, w, n, h1, h2, h3⟩ | ⟨a, s, w, n, rws, h1, h2, h3⟩
  · obtain ⟨es, cv, rest, g1, -, g3, -⟩ := traced_core h h0 ha hkc
    obtain ⟨a, k1, k2⟩ := g3 e he dest read w n h1
    refine ⟨(a, e.data.length), List.mem_append_left _ (List.mem_flatMap.2 ⟨es, List.mem_of_getElem? g1, ?_⟩), ?_, ?_⟩
    · exact List.mem_filterMap.2 ⟨_, k2, rfl⟩
    · rw [← h2, k1]
    · simp only [Req.length, hk, h3]
  · obtain ⟨rest, got, g1, -⟩ := ha.tile.ran
    have hm := received_op g1 h1
    obtain ⟨⟨g2, g3⟩, -⟩ := ha.tile.received a s w n rws h1
    obtain ⟨s1, s2, s3⟩ := h.ops _ hm
    refine ⟨(a.toNat, (w * n).toNat), List.mem_append_right _ (List.mem_filterMap.2 ⟨_, hm, rfl⟩), ?_, ?_⟩
    · rw [← h2]; dsimp only; omega
    · simp only [Req.length, hk, ← h3]
      have : rws.flatten.length = rws.length * w.toNat := by
        clear h3 h1 hm g1 g2
        induction rws with
        | nil => simp
        | cons y ys ih =>
          have hy := g3 y (by simp)
          rw [List.flatten_cons, List.length_append, ih fun z hz => g3 z (by simp [hz]), List.length_cons, Nat.add_mul]
          omega
      rw [this]
      have hpos := Int.mul_pos s2 s3
      rw [Int.toNat_of_nonneg hpos.le]
      push_cast
      rw [g2, Int.toNat_of_nonneg s2.le, Int.mul_comm]

/-- At most one waiting read names words of a write. -/
theorem one_waits (h : Traced cfg c' p i t evs) (ho : oneWaits evs (i.ops t)) (h0 : GoodStart (i.mem t) (i.valid t))
    {v : NetView} {x : TileSt} (ha : TileAll cfg i t v x) (hw : TileWaits v x) {r : Req} (hr : r ∈ x.ctrl.submitted)
    {data : List I32} {rows : Nat} (hk : r.kind = .write data rows) {y z : Req} (hy : y ∈ x.ctrl.pending)
    (hz : z ∈ x.ctrl.pending) {a b : Nat} (hya : covers y a) (hra : covers r a) (hzb : covers z b) (hrb : covers r b) :
    y = z := by
  have hl := (ctrlInv_of h0 ha.ctrl).line
  obtain ⟨wb, w1, w2, w3⟩ := written_block h h0 ha hr hk
  obtain ⟨yb, y1, y2, y3⟩ := pending_block h h0 ha hw hy
  obtain ⟨zb, z1, z2, z3⟩ := pending_block h h0 ha hw hz
  have m1 : meet yb wb := by unfold meet; unfold covers at hya hra; omega
  have m2 : meet zb wb := by unfold meet; unfold covers at hzb hrb; omega
  suffices hid : y.id = z.id by
    have h2 := (submitted_mem _ hl y (pending_mem _ hl y hy)).2
    have h3 := (submitted_mem _ hl z (pending_mem _ hl z hz)).2
    rw [hid, h3] at h2
    injection h2 with h2
    exact h2.symm
  have far : ∀ (j k : Nat) rs rs', j < k → (evs.map loadBlocks ++ [sendBlocks (i.ops t)])[j]? = some rs →
      (evs.map loadBlocks ++ [sendBlocks (i.ops t)])[k]? = some rs' → (∃ b ∈ rs, meet b wb) → (∃ b ∈ rs', meet b wb) →
      False := by
    intro j k rs rs' hjk h1 h2 h3 h4
    obtain ⟨i1, i2⟩ := List.getElem?_eq_some_iff.1 h1
    obtain ⟨i3, i4⟩ := List.getElem?_eq_some_iff.1 h2
    have := List.pairwise_iff_getElem.1 ho j k i1 i3 hjk wb w1
    rw [i2, i4] at this
    exact this ⟨h3, h4⟩
  have core : ∀ (k : Nat) es, evs[k]? = some es →
      (evs.map loadBlocks ++ [sendBlocks (i.ops t)])[k]? = some (loadBlocks es) ∧ k < evs.length := by
    intro k es hes
    have hlt := (List.getElem?_eq_some_iff.1 hes).1
    refine ⟨?_, hlt⟩
    rw [List.getElem?_append_left (by simpa using hlt), List.getElem?_map, hes]
    rfl
  have tile : (evs.map loadBlocks ++ [sendBlocks (i.ops t)])[evs.length]? = some (sendBlocks (i.ops t)) := by
    rw [List.getElem?_append_right (by simp)]
    simp
  rcases y3 with ⟨y3, _, _, _, _, y4⟩ | ⟨k, hkc, ⟨es, y3, y4⟩, _, _, _, _, _, y5⟩ <;>
    rcases z3 with ⟨z3, _, _, _, _, z4⟩ | ⟨j, hjc, ⟨es', z3, z4⟩, _, _, _, _, _, z5⟩
  · rw [y4] at z4; injection z4
  · exact (far j evs.length _ _ (core j _ z3).2 (core j _ z3).1 tile ⟨_, z4, m2⟩ ⟨_, y3, m1⟩).elim
  · exact (far k evs.length _ _ (core k _ y3).2 (core k _ y3).1 tile ⟨_, y4, m1⟩ ⟨_, z3, m2⟩).elim
  · rcases Nat.lt_trichotomy k j with hkj | hkj | hkj
    · exact (far k j _ _ hkj (core k _ y3).1 (core j _ z3).1 ⟨_, y4, m1⟩ ⟨_, z4, m2⟩).elim
    · subst hkj
      rw [y5] at z5; injection z5
    · exact (far j k _ _ hkj (core j _ z3).1 (core k _ y3).1 ⟨_, z4, m2⟩ ⟨_, y4, m1⟩).elim

theorem noReady_apart (h : Traced cfg c' p i t evs) (ho : oneWaits evs (i.ops t)) (h0 : GoodStart (i.mem t) (i.valid t))
    {v : NetView} {x : TileSt} (ha : TileAll cfg i t v x) (hw : TileWaits v x) (hn : NoReady x.ctrl) {act : CtrlAct}
    {d : Ctrl} (st : CtrlStep cfg.edramLat x.ctrl act d) : NoReady d := by
  have hci := ctrlInv_of h0 ha.ctrl
  generalize hx : x.ctrl = cc at st hn
  cases st with
  | toPending r h1 h2 h3 =>
    intro y hy
    rcases List.mem_append.1 hy with hy | hy
    · exact hn y hy
    · rw [List.mem_singleton.1 hy]; exact h3
  | write r rest mem data rows h1 h2 h3 h4 =>
    subst hx
    obtain ⟨hs0, hs1, -, -⟩ := mem_write_inv h4
    have hb : r.start.toNat + data.length ≤ x.ctrl.valid.length := by
      have := hci.mem.vlen; have := hci.mem.size; omega
    have hsub : r ∈ x.ctrl.submitted := hci.line.perm.subset (by simp [Ctrl.line, h1])
    intro y hy
    dsimp only at hy ⊢
    rw [updateReady_release _ _ (pending_nodup _ hci.line)] at hy
    refine release_one _ _ (pending_nodup _ hci.line) ?_ y hy
    intro a ha' b hb' ra rb
    have word : ∀ q ∈ x.ctrl.pending,
        ready (pySliceSet x.ctrl.valid r.start.toNat (List.replicate data.length true)) q = true →
        ∃ w, covers q w ∧ covers r w := by
      intro q hq hqr
      obtain ⟨bl, q1, q2, -⟩ := pending_block h h0 ha hw hq
      obtain ⟨w, g1, g2, g3⟩ := ready_change (by rw [pySliceSet_length _ _ _ (by simpa using hb)]) (by omega) (by omega)
        (hn q hq) hqr
      refine ⟨w, g1, ?_⟩
      rw [pySliceSet_getD _ _ _ _ _ (by simpa using hb)] at g3
      split at g3
      · rename_i hc
        rw [List.length_replicate] at hc
        unfold covers
        simp only [Req.length, h3]
        omega
      · rw [g2] at g3; cases g3
    obtain ⟨w, wa, wr⟩ := word a ha' ra
    obtain ⟨w', wa', wr'⟩ := word b hb' rb
    exact one_waits h ho h0 ha hw hsub h3 ha' hb' wa wr wa' wr'
  | _ => exact hn

end

theorem apart_traced {cfg : SysCfg} {c c' : Config} {size : Nat} {valid : Nat → Nat} {moves : List DryMove} {i : SysInit}
    (hs : Simulable c) (hb : c.build = .ok c') (hu : 0 < c'.mvmuConfig.xbarSize * c'.numMvmusPerCore) (sig tanh : Int → Int)
    (hc : ∀ t < cfg.net.tiles, ∀ k < cfg.cores, ∃ fl hist, i.core t k = (Core.new c').after fl hist)
    (ha : accepted (coreParamsOf c' sig tanh) size cfg.net.tiles cfg.cores valid i.prog i.ops moves)
    (h : apart (coreParamsOf c' sig tanh) cfg.net.tiles cfg.cores i.prog i.ops) {t : Nat} (ht : t < cfg.net.tiles) :
    ∃ evs, Traced cfg c' (coreParamsOf c' sig tanh) i t evs ∧ oneWaits evs (i.ops t) := by
  have h1 := h t ht
  cases hm : (List.range cfg.cores).mapM fun k => (coreParamsOf c' sig tanh).trace [] (i.prog t k) with
  | none => rw [hm] at h1; exact h1.elim
  | some evs =>
    rw [hm] at h1
    obtain ⟨k1, k2⟩ := mapM_some _ _ hm
    rw [List.length_range] at k1
    refine ⟨evs, ⟨⟨rfl, rfl, rfl⟩, electrical_of c c' hs hb, ⟨_, _, latencies_of c c' hs hb⟩, ?_, k1, ?_,
      accepted_sensible ha ht⟩, h1⟩
    · intro k hk
      obtain ⟨fl, hist, e⟩ := hc t ht k hk
      rw [e]
      exact coreOk_after c c' fl hs hb hu hist
    · intro k es hes
      obtain ⟨k', j1, j2⟩ := k2 k es hes
      obtain ⟨rfl, -⟩ := range_some j1
      exact j2

theorem apart_noReady {cfg : SysCfg} {cc : Config} {p : CoreParams} {i : SysInit} (h0 : ∀ t, GoodStart (i.mem t) (i.valid t))
    (h1 : ∀ t < cfg.net.tiles, ∃ evs, Traced cfg cc p i t evs ∧ oneWaits evs (i.ops t)) {as : List SysAct} {s : Sys}
    (h : i.start.run cfg as = some s) : ∀ t < cfg.net.tiles, NoReady (s.tile t).ctrl := by
  refine sys_reach_induction (P := fun s => ∀ t < cfg.net.tiles, NoReady (s.tile t).ctrl) ?_ ?_ as s h
  · intro t _ r hr
    cases hr
  · intro as s a s' hrun ha hp t ht
    rcases (sys_step ha).tile t with ⟨h2, -⟩ | ⟨-, h2⟩
    · rw [h2]; exact hp t ht
    · rcases tileStep_ctrlAct h2 with h3 | ⟨b, h3⟩
      · rw [h3]; exact hp t ht
      · obtain ⟨evs, k1, k2⟩ := h1 t ht
        exact noReady_apart k1 k2 (h0 t) ((sysInv_run h0 as s hrun).tile t) (tileWaits_run as s hrun t) (hp t ht)
          (act_step _ _ _ _ h3)

/-! ## The texts alone -/

/-- A program that reads the DRAM has a load. -/
theorem trace_hasLoad {p : CoreParams} (prog : List CoreOp) : ∀ (K : Known) (evs : List MemEv), p.trace K prog = some evs →
    ∀ a n, .read a n ∈ evs → hasLoad prog := by
  have later : ∀ {op : CoreOp} {prog : List CoreOp}, hasLoad prog → hasLoad (op :: prog) :=
    fun ⟨d, r, w, v, h⟩ => ⟨d, r, w, v, List.mem_cons_of_mem _ h⟩
  induction prog with
  | nil => intro K evs h; simp [CoreParams.trace] at h
  | cons op ops ih =>
    intro K evs h a n hr
    cases op with
    | hlt => simp only [CoreParams.trace, Option.some.injEq] at h; subst h; simp at hr
    | load dest read width vec => exact ⟨dest, read, width, vec, List.mem_cons_self ..⟩
    | store dest read width vec =>
      simp only [CoreParams.trace] at h
      split at h
      · cases h
      split at h
      · obtain ⟨evs', h1, rfl⟩ := Option.map_eq_some_iff.1 h
        rcases List.mem_cons.1 hr with hr | hr
        · cases hr
        · exact later (ih _ _ h1 a n hr)
      · cases h
    | set => simp only [CoreParams.trace] at h; split at h; exacts [later (ih _ _ h a n hr), nomatch h]
    | copy => simp only [CoreParams.trace] at h; split at h; exacts [later (ih _ _ h a n hr), nomatch h]
    | vfu => simp only [CoreParams.trace] at h; split at h; exacts [later (ih _ _ h a n hr), nomatch h]
    | mvm => simp only [CoreParams.trace] at h; split at h; exacts [later (ih _ _ h a n hr), nomatch h]

/-- The traces of an accepted program. -/
theorem accepted_traces {p : CoreParams} {size tiles cores : Nat} {valid : Nat → Nat} {prog : Nat → Nat → List CoreOp}
    {ops : Nat → List TileOp} {moves : List DryMove} (h : accepted p size tiles cores valid prog ops moves) {t : Nat}
    (ht : t < tiles) : ∃ evs, (List.range cores).mapM (fun k => p.trace [] (prog t k)) = some evs := by
  unfold accepted at h
  cases hd : dryStart p tiles cores valid prog ops with
  | none => rw [hd] at h; exact h.elim
  | some d =>
    obtain ⟨k1, k2⟩ := mapM_some _ _ hd
    obtain ⟨t', j1, j2⟩ := k2 t (d[t]'(by rw [k1, List.length_range]; exact ht)) (List.getElem?_eq_getElem _)
    obtain ⟨e, -⟩ := range_some j1
    subst e
    cases hm : (List.range cores).mapM (fun k => p.trace [] (prog t' k)) with
    | none => rw [hm] at j2; cases j2
    | some evs => exact ⟨evs, rfl⟩

theorem loadBlocks_ne {evs : List MemEv} {b : Block} (h : b ∈ loadBlocks evs) : ∃ a n, .read a n ∈ evs := by
  obtain ⟨e, h1, h2⟩ := List.mem_filterMap.1 h
  cases e with
  | read a n => exact ⟨a, n, h1⟩
  | write => cases h2
  | stop => cases h2

theorem sendBlocks_ne {ops : List TileOp} {b : Block} (h : b ∈ sendBlocks ops) : hasSend ops := by
  obtain ⟨e, h1, h2⟩ := List.mem_filterMap.1 h
  cases e with
  | send a t w v => exact ⟨a, t, w, v, h1⟩
  | receive => cases h2
  | halt => cases h2

end Ramwich
