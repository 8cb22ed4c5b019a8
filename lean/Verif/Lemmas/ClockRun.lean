import Verif.Lemmas.ClockProc

/-! # Runs of the check with the clock are runs of the node -/
namespace Ramwich

open Pipeline Spec

variable {cfg : SysCfg} {cc : Config} {p : CoreParams} {l : StageLat} {q : ClockPar} {size : Nat} {A A' : DNode} {f f' : FSys}
variable {t : Nat} {x x' : DTile}

theorem node_coreAct (h : NodeR cfg cc p q size A f) (hx : A.tiles[t]? = some x) {k : Nat} {y y' : DCore} (hy : x.cores[k]? = some y)
    {d' : DCtrl} {r : Option TSys} (hs : CoreStepR cfg cc p q size A.now f.ts t k y' d' r) {a : FAct}
    (ha : ∀ ts, r = some ts → t < cfg.net.tiles → k < cfg.cores → f.act cfg l a = some { f with ts := ts }) :
    ∃ f', f.act cfg l a = some f' ∧ NodeR cfg cc p q size
      { A with tiles := A.tiles.set t { x with cores := x.cores.set k y', ctrl := d', wake := 0 } } f' := by
  obtain ⟨ts, h1, h2⟩ := node_core h hx hy hs
  have hk : k < cfg.cores := by
    rw [← (h.tiles t x hx).ncores]
    exact (List.getElem?_eq_some_iff.1 hy).1
  exact ⟨_, ha ts h1 (h.lt hx) hk, h2⟩

/-- An action of the check is an action of the node. -/
theorem clockNode_act (ho : ClockOk cfg cc p l q) (hqs : q.size = size) (h : NodeR cfg cc p q size A f) {a : FAct}
    (hd : A.act q a = some A') : ∃ f', f.act cfg l a = some f' ∧ NodeR cfg cc p q size A' f' := by
  have hcr : f.ts.sys.crashed.isSome = false := by rw [h.crashed]; rfl
  unfold DNode.act at hd
  split at hd
  · cases hd
  · cases hd
  · -- pipe
    rename_i t k a h2 h3
    obtain ⟨x, x1, hx, he, rfl⟩ := onAll_some hd
    clear hd
    obtain ⟨y, y', d', hy, hd, rfl⟩ := onCore_some he
    clear he
    obtain ⟨pp, hpp, he⟩ := Option.map_eq_some_iff.1 hd
    clear hd
    injection he with hd1 hd2
    subst hd1 hd2
    have hT := h.tiles t x hx
    refine node_coreAct h hx hy (core_move ho hT.ctrl (hT.cores k y hy) (fun e => h2 e) (fun e => h3 e) hpp) ?_
    intro ts e1 e2 e3
    unfold FSys.act TSys.act
    simp only [hcr, Bool.false_eq_true, if_false, SysCfg.hasCore, e2, e3, decide_true, Bool.and_self, if_true, e1, Option.map_some]
  · -- exec
    rename_i t k
    obtain ⟨x, x1, hx, he, rfl⟩ := onAll_some hd
    clear hd
    obtain ⟨y, y', d', hy, hd, rfl⟩ := onCore_some he
    clear he
    have hT := h.tiles t x hx
    refine node_coreAct h hx hy (core_exec ho hqs h.crashed h.now hT.ctrl (hT.cores k y hy) hd) ?_
    intro ts e1 e2 e3
    unfold FSys.act TSys.act
    simp only [hcr, Bool.false_eq_true, if_false, SysCfg.hasCore, e2, e3, decide_true, Bool.and_self, if_true, e1, Option.map_some]
  · -- mid
    rename_i t k
    obtain ⟨x, x1, hx, he, rfl⟩ := onAll_some hd
    clear hd
    obtain ⟨y, y', d', hy, hd, rfl⟩ := onCore_some he
    clear he
    have hT := h.tiles t x hx
    refine node_coreAct h hx hy (core_mid ho hqs h.crashed h.now hT.ctrl (hT.cores k y hy) hd) ?_
    intro ts e1 e2 e3
    unfold FSys.act TSys.act
    simp only [hcr, Bool.false_eq_true, if_false, SysCfg.hasCore, e2, e3, decide_true, Bool.and_self, if_true, e1, Option.map_some]
  · -- fin
    rename_i t k
    obtain ⟨x, x1, hx, he, rfl⟩ := onAll_some hd
    clear hd
    obtain ⟨y, y', d', hy, hd, rfl⟩ := onCore_some he
    clear he
    obtain ⟨y1, he, hd'⟩ := Option.map_eq_some_iff.1 hd
    clear hd
    injection hd' with hd1 hd2
    subst hd1 hd2
    have hT := h.tiles t x hx
    refine node_coreAct h hx hy (core_fin h.crashed h.now hT.ctrl (hT.cores k y hy) he) ?_
    intro ts e1 e2 e3
    unfold FSys.act TSys.act
    simp only [hcr, Bool.false_eq_true, if_false, SysCfg.hasCore, e2, e3, decide_true, Bool.and_self, if_true, e1, Option.map_some]
  · -- ret
    rename_i t k
    obtain ⟨x, x1, hx, he, rfl⟩ := onAll_some hd
    clear hd
    obtain ⟨y, y', d', hy, hd, rfl⟩ := onCore_some he
    clear he
    obtain ⟨y1, he, hd'⟩ := Option.map_eq_some_iff.1 hd
    clear hd
    injection hd' with hd1 hd2
    subst hd1 hd2
    have hT := h.tiles t x hx
    refine node_coreAct h hx hy (core_ret h.crashed hT.ctrl (hT.cores k y hy) he) ?_
    intro ts e1 e2 e3
    unfold FSys.act TSys.act
    simp only [hcr, Bool.false_eq_true, if_false, SysCfg.hasCore, e2, e3, decide_true, Bool.and_self, if_true, e1, Option.map_some]
  · -- controller
    rename_i t a
    obtain ⟨x, x1, hx, he, rfl⟩ := onAll_some hd
    clear hd
    obtain ⟨d', hd, rfl⟩ := Option.map_eq_some_iff.1 he
    exact node_ctrl ho h hx hd
  · -- tile process
    rename_i t
    obtain ⟨x, x1, hx, he, rfl⟩ := onAll_some hd
    clear hd
    exact node_proc ho hqs h hx he
  · -- take
    rename_i t
    obtain ⟨x, x1, hx, he, rfl⟩ := on_some hd
    exact node_take h hx he
  · -- send thread
    rename_i t
    split at hd
    · cases hd
    rename_i x hx
    split at hd
    · rename_i dd w hs
      rw [Option.ite_none_left_eq_some] at hd
      exact node_put h hx hs hd.1 hd.2
    · obtain ⟨x0, x1, hx0, he, rfl⟩ := on_some hd
      exact node_thread ho h hx0 he
  · -- recheck
    rename_i t
    obtain ⟨x, x1, hx, he, rfl⟩ := on_some hd
    exact node_recheck h hx he
  · cases hd

/-! ## Waiting -/

/-- Nothing happens in tile `t` yet. -/
structure Waits (now : Nat) (full : Nat → Bool) (x : DTile) : Prop where
  thread : now < x.threadUntil full
  router : now < x.routerUntil
  proc : now < x.procUntil
  ctrl : now < x.ctrl.until
  cores : now < x.coresUntil

theorem coresUntil_le {x : DTile} {k : Nat} {y : DCore} (h : x.cores[k]? = some y) :
    x.coresUntil ≤ y.until x.ctrl.reads x.ctrl.writes := by
  unfold DTile.coresUntil
  generalize x.cores = ys at h
  induction ys generalizing k with
  | nil => simp at h
  | cons z zs ih =>
    rw [List.foldr_cons]
    cases k with
    | zero =>
      rw [List.getElem?_cons_zero] at h
      injection h with h
      subst h
      exact Nat.min_le_left _ _
    | succ k =>
      rw [List.getElem?_cons_succ] at h
      exact le_trans (Nat.min_le_right _ _) (ih h)

theorem tile_waits (hnow : f.ts.now = A.now) (hc : f.ts.sys.crashed = none) (hnc : f.ts.sys.net.crashed = none)
    (hlen : A.tiles.length = cfg.net.tiles) (hT : ∀ i y, A.tiles[i]? = some y → TileR cfg cc p q size A.now i y (f.view i))
    (hx : A.tiles[t]? = some x) (hw : Waits A.now (A.full t) x) :
    f.clk.routerQuiet cfg.net cfg.dataMemLat f.ts.sys.net f.ts.now t = true ∧ f.other cfg l (.tile t) = none ∧
      f.ts.tileQuiet cfg l t = true := by
  have hX := hT t x hx
  have ht : t < cfg.net.tiles := by
    have := (List.getElem?_eq_some_iff.1 hx).1
    omega
  have hst : f.ts.sys.net.stopper t = x.stopper := hX.stopper
  have hrd : ReaderR cfg.net.tiles t (f.ts.sys.net.reader t) x.reader := hX.reader
  have hadds : f.clk.adds t = x.adds := hX.adds
  have hcheck : f.clk.check t = x.check := hX.check
  have hsent : (f.ts.sys.net.stats t).sent = x.sent := hX.sent
  obtain ⟨hr1, hr2, hr3⟩ : (A.now < match x.adds with
      | [] => farOff
      | d :: _ => d) ∧ (A.now < match x.reader with
      | .idle => farOff
      | .waiting src =>
        match x.buf.getD src [] with
        | [] => farOff
        | _ => 0
      | .got .. => 0) ∧ (A.now < match x.stopper with
      | .running => farOff
      | .checking => x.check
      | .emptied => 0
      | .waiting k => if k < x.sent then 0 else farOff
      | .stopped => farOff) := by
    have := hw.router
    unfold DTile.routerUntil at this
    rw [Nat.lt_min, Nat.lt_min] at this
    exact this
  -- the end of `add_send_packet`
  have q1 : f.clk.step cfg.net cfg.dataMemLat f.ts.sys.net f.ts.now (.added t) = none := by
    unfold NetClock.step
    dsimp only
    rw [hadds]
    cases ha : x.adds with
    | nil => rfl
    | cons d rest =>
      rw [ha] at hr1
      dsimp only at hr1 ⊢
      rw [if_neg (by omega)]
  -- the send thread
  have q2 : f.clk.ready cfg.net cfg.dataMemLat f.ts.sys.net f.ts.now (.thread t) = false := by
    unfold NetClock.ready
    rw [net_act (a := .thread t) hnc ht]
    have hth := hw.thread
    unfold DTile.threadUntil at hth
    simp only [Net.actOf]
    by_cases hstop : x.stopper = .stopped
    · unfold Net.thread
      rw [if_pos (by rw [hst, hstop])]
      rfl
    · have hth : A.now < (match x.sender with
        | .idle =>
          match x.queue with
          | [] => farOff
          | _ => 0
        | .flying _ _ d => d
        | .putting target _ => if A.full t target then farOff else 0
        | _ => 0) := by
        revert hth
        cases hs : x.stopper <;> first | exact absurd hs hstop | exact id
      have hsd : SenderR cfg.net.tiles t (f.ts.sys.net.sender t) (f.clk.flight t) x.sender := hX.sender
      unfold Net.thread
      rw [if_neg (by rw [hst]; exact hstop)]
      cases hs : x.sender with
      | idle =>
        rw [hs] at hsd hth
        have hsd : f.ts.sys.net.sender t = .idle := hsd
        have hq := hX.queue
        cases hq0 : x.queue with
        | nil =>
          rw [hq0] at hq
          have hq : f.ts.sys.net.queue t = [] := List.forall₂_nil_left_iff.1 hq
          rw [hsd, hq]
          rfl
        | cons a b =>
          rw [hq0] at hth
          exact absurd hth (Nat.not_lt_zero _)
      | flying tg w d =>
        rw [hs] at hsd hth
        obtain ⟨pk, hsd, -, hfl⟩ := hsd
        dsimp only at hth
        have : f.clk.step cfg.net cfg.dataMemLat f.ts.sys.net f.ts.now (.thread t) = none := by
          unfold NetClock.step
          simp only [hsd]
          rw [if_neg (by omega)]
        rw [this]
        simp
      | putting tg w =>
        rw [hs] at hsd hth
        obtain ⟨pk, hsd, hpk⟩ := hsd
        have hfull : A.full t tg = true := by
          cases hf : A.full t tg with
          | true => rfl
          | false =>
            simp only [hf] at hth
            exact absurd hth (Nat.not_lt_zero _)
        unfold DNode.full at hfull
        obtain ⟨y, hy⟩ : ∃ y, A.tiles[tg]? = some y := by
          have := hpk.lt
          exact ⟨A.tiles[tg], List.getElem?_eq_getElem (by rw [hlen]; exact this)⟩
        rw [hy] at hfull
        have hb := (hT tg y hy).buf t
        have hb : (f.ts.sys.net.buf tg t).map List.length = y.buf.getD t [] := hb
        have hne : ¬(f.ts.sys.net.buf tg t).length < bufferCapacity := by
          intro hlt
          have h0 : f.ts.sys.net.buf tg t = [] := List.eq_nil_of_length_eq_zero (by unfold bufferCapacity at hlt; omega)
          rw [h0] at hb
          have hb : y.buf.getD t [] = [] := hb.symm
          simp only [hb] at hfull
          cases hfull
        rw [hsd]
        dsimp only
        rw [hpk.target, Int.toNat_natCast, hpk.src, if_neg hne]
        rfl
      | handed tg w => rw [hs] at hth; exact absurd hth (Nat.not_lt_zero _)
      | deposited tg w => rw [hs] at hth; exact absurd hth (Nat.not_lt_zero _)
      | delivered tg w => rw [hs] at hth; exact absurd hth (Nat.not_lt_zero _)
  -- the pending `get`
  have hread : (f.ts.sys.net.take t = none) ∧ (f.ts.sys.net.readDone t = none) := by
    unfold Net.take Net.readDone
    cases hs : x.reader with
    | idle =>
      rw [hs] at hrd
      have hrd : f.ts.sys.net.reader t = .idle := hrd
      rw [hrd]
      exact ⟨rfl, rfl⟩
    | waiting src =>
      rw [hs] at hrd hr2
      obtain ⟨hrd, -⟩ := hrd
      rw [hrd]
      have hb : (f.ts.sys.net.buf t src).map List.length = x.buf.getD src [] := hX.buf src
      dsimp only at hr2
      split at hr2
      · rename_i hb0
        rw [hb0] at hb
        dsimp only
        rw [List.map_eq_nil_iff.1 hb]
        exact ⟨rfl, rfl⟩
      · exact absurd hr2 (Nat.not_lt_zero _)
    | got s w => rw [hs] at hr2; exact absurd hr2 (Nat.not_lt_zero _)
  have q3 : f.clk.ready cfg.net cfg.dataMemLat f.ts.sys.net f.ts.now (.take t) = false := by
    unfold NetClock.ready
    rw [net_act (a := .take t) hnc ht]
    simp only [Net.actOf, hread.1]
    rfl
  have q4 : f.clk.ready cfg.net cfg.dataMemLat f.ts.sys.net f.ts.now (.readDone t) = false := by
    unfold NetClock.ready
    rw [net_act (a := .readDone t) hnc ht]
    simp only [Net.actOf, hread.2]
    rfl
  -- `stop_after_all_packets_sent`
  have q5 : f.ts.sys.net.stopStep t = none ∨
      f.clk.step cfg.net cfg.dataMemLat f.ts.sys.net f.ts.now (.stopStep t) = none := by
    unfold Net.stopStep NetClock.step
    simp only [hst]
    cases hs : x.stopper with
    | running => exact .inl rfl
    | checking =>
      rw [hs] at hr3
      dsimp only at hr3
      right
      rw [hcheck]
      dsimp only
      rw [if_neg (by omega)]
    | emptied => rw [hs] at hr3; exact absurd hr3 (Nat.not_lt_zero _)
    | waiting k =>
      rw [hs] at hr3
      dsimp only at hr3
      left
      dsimp only
      rw [hsent]
      split at hr3
      · exact absurd hr3 (Nat.not_lt_zero _)
      · rename_i h6; rw [if_neg h6]
    | stopped => exact .inl rfl
  have q5' : f.clk.ready cfg.net cfg.dataMemLat f.ts.sys.net f.ts.now (.stopStep t) = false := by
    unfold NetClock.ready
    rw [net_act (a := .stopStep t) hnc ht]
    simp only [Net.actOf]
    rcases q5 with h6 | h6 <;> rw [h6] <;> simp
  have q6 : f.clk.recheck f.ts.sys.net f.ts.now t = none := by
    unfold NetClock.recheck
    rw [hst]
    cases hs : x.stopper with
    | checking =>
      rw [hs] at hr3
      dsimp only at hr3 ⊢
      rw [if_neg (by rw [hcheck]; omega)]
    | _ => rfl
  refine ⟨?_, ?_, ?_⟩
  · unfold NetClock.routerQuiet
    rw [q2, q3, q4, q5', q6]
    have : f.clk.ready cfg.net cfg.dataMemLat f.ts.sys.net f.ts.now (.added t) = false := by
      unfold NetClock.ready; rw [q1]; simp
    rw [this]
    rfl
  · -- the tile process
    have key : f.ts.sys.tileStep cfg t = none ∨ f.netPart cfg (.tile t) = none := by
      have hph : TilePhaseR cfg.net.tiles t (f.ts.sys.tile t).ctrl (f.ts.sys.tile t).phase x.phase := hX.phase
      have hpu := hw.proc
      unfold DTile.procUntil at hpu
      cases hs : x.phase with
      | ready =>
        rw [hs] at hph hpu
        have hph : (f.ts.sys.tile t).phase = .ready := hph
        left
        unfold Sys.tileStep
        simp only [hph]
        have hops : (f.ts.sys.tile t).ops = x.ops := hX.ops
        rw [hops]
        cases ho : x.ops with
        | nil => rfl
        | cons a b => rw [ho] at hpu; exact absurd hpu (Nat.not_lt_zero _)
      | sendWait id tg w v =>
        rw [hs] at hph hpu
        obtain ⟨addr, hph, -⟩ := hph
        left
        unfold Sys.tileStep
        simp only [hph]
        cases hr : readAnswer id (f.ts.sys.tile t).ctrl.answers with
        | none => rfl
        | some data =>
          have : x.ctrl.reads.testBit id = true := by
            rw [hX.ctrl.reads]
            show (readAnswer id (f.ts.sys.tile t).ctrl.answers).isSome = true
            rw [hr]; rfl
          simp only [this, if_true] at hpu
          exact absurd hpu (Nat.not_lt_zero _)
      | sending => rw [hs] at hpu; exact absurd hpu (Nat.not_lt_zero _)
      | adding tg w rows =>
        rw [hs] at hph
        obtain ⟨todo, hph, -⟩ := hph
        right
        unfold FSys.netPart Sys.netOf
        simp only [hph]
        exact q1
      | recving => rw [hs] at hpu; exact absurd hpu (Nat.not_lt_zero _)
      | recvWait a s w v got =>
        rw [hs] at hph
        obtain ⟨gs, hph, -⟩ := hph
        left
        unfold Sys.tileStep
        simp only [hph]
        have := hread.2
        unfold Net.readDone at this
        split at this
        · cases this
        · rename_i h6
          cases hr : f.ts.sys.net.reader t with
          | got s d => exact absurd hr (h6 s d)
          | _ => rfl
      | recvWrite id =>
        rw [hs] at hph hpu
        have hph : (f.ts.sys.tile t).phase = .recvWrite id := hph
        left
        unfold Sys.tileStep
        simp only [hph]
        cases hr : wroteAnswer id (f.ts.sys.tile t).ctrl.answers with
        | false => rfl
        | true =>
          have : x.ctrl.writes.testBit id = true := by
            rw [hX.ctrl.writes]
            exact hr
          simp only [this, if_true] at hpu
          exact absurd hpu (Nat.not_lt_zero _)
      | haltCores =>
        rw [hs] at hph hpu
        have hph : (f.ts.sys.tile t).phase = .haltCores := hph
        left
        unfold Sys.tileStep
        simp only [hph]
        cases hall : x.cores.all DCore.isHalted with
        | true =>
          simp only [hall, if_true] at hpu
          exact absurd hpu (Nat.not_lt_zero _)
        | false =>
          rw [halted_some hX hall]
          rfl
      | haltRouter =>
        rw [hs] at hph hpu
        have hph : (f.ts.sys.tile t).phase = .haltRouter := hph
        have hns : f.ts.sys.net.stopper t ≠ .stopped := by
          rw [hst]
          intro h6
          simp only [h6] at hpu
          exact absurd hpu (Nat.not_lt_zero _)
        rcases q5 with h6 | h6
        · left
          unfold Sys.tileStep
          simp only [hph]
          unfold Sys.netAct
          rw [net_act (a := .stopStep t) hnc ht]
          simp only [Net.actOf, h6]
          rfl
        · right
          unfold FSys.netPart Sys.netOf
          simp only [hph]
          exact h6
    unfold FSys.other
    rcases key with h6 | h6
    · have : f.ts.act cfg l (.other (.tile t)) = none := by
        unfold TSys.act Sys.act
        rw [show f.ts.sys.crashed.isSome = false by rw [hc]; rfl]
        simp only [Bool.false_eq_true, if_false, h6]
        rw [if_pos ht]
        rfl
      rw [this]
    · rw [h6]
      cases f.ts.act cfg l (.other (.tile t)) <;> rfl
  · unfold TSys.tileQuiet
    rw [show (f.ts.sys.tile t).ctrl.quiescent = true from clock_quiescent hX.ctrl hw.ctrl, Bool.true_and, List.all_eq_true]
    intro k hk
    rw [List.mem_range, ← hX.ncores] at hk
    have hy : x.cores[k]? = some x.cores[k] := List.getElem?_eq_getElem hk
    exact core_quiet hnow hX.ctrl (hX.cores k _ hy) (lt_of_lt_of_le hw.cores (coresUntil_le hy))

/-- The clock advances by one. -/
theorem node_tick (h : NodeR cfg cc p q size A f) (hw : ∀ i y, A.tiles[i]? = some y → Waits A.now (A.full i) y) :
    ∃ f', f.run cfg l [.monitor, .t .tick] = some f' ∧ NodeR cfg cc p q size { A with now := A.now + 1 } f' := by
  have hcr : f.ts.sys.crashed.isSome = false := by rw [h.crashed]; rfl
  let k1 : NetClock := { f.clk with
    look := f.ts.now + 1
    busy := if f.ts.sys.net.anyQueued cfg.net then f.clk.busy + 1 else f.clk.busy
    looks := f.clk.looks ++ [f.ts.sys.net.anyQueued cfg.net] }
  let f1 : FSys := { f with clk := k1 }
  have a1 : f.act cfg l .monitor = some f1 := by
    unfold FSys.act NetClock.monitor
    simp only [hcr, Bool.false_eq_true, if_false]
    rw [if_pos (by rw [h.look, h.now])]
    rfl
  have hv : ∀ i, f1.view i = f.view i := fun _ => rfl
  have hT1 : ∀ i y, A.tiles[i]? = some y → TileR cfg cc p q size A.now i y (f1.view i) := fun i y hy => by
    rw [hv]; exact h.tiles i y hy
  have hall : ∀ i, i < cfg.net.tiles → f1.clk.routerQuiet cfg.net cfg.dataMemLat f1.ts.sys.net f1.ts.now i = true ∧
      f1.other cfg l (.tile i) = none ∧ f1.ts.tileQuiet cfg l i = true := by
    intro i hi
    have hy : A.tiles[i]? = some (A.tiles[i]'(by rw [h.len]; exact hi)) := List.getElem?_eq_getElem _
    exact tile_waits (f := f1) h.now h.crashed h.netCrashed h.len hT1 hy (hw i _ hy)
  have hquiet : f1.quiet cfg l = true := by
    unfold FSys.quiet NetClock.quiet
    have hm : f1.clk.monitor cfg.net f1.ts.sys.net f1.ts.now = none := by
      unfold NetClock.monitor
      rw [if_neg]
      show ¬(f.ts.now + 1 = f.ts.now)
      omega
    rw [hm]
    simp only [Option.isNone_none, Bool.true_and, Bool.and_eq_true, List.all_eq_true, List.mem_range]
    refine ⟨fun i hi => (hall i hi).1, fun i hi => ?_⟩
    rw [(hall i hi).2.1]
    rfl
  let ts2 : TSys := { f.ts with
    sys := { f.ts.sys with tile := fun t => if t < cfg.net.tiles then (f.ts.sys.tile t).tick else f.ts.sys.tile t }
    pipe := fun t k => if cfg.hasCore t k then { f.ts.pipe t k with now := f.ts.now + 1 } else f.ts.pipe t k
    now := f.ts.now + 1 }
  have a2 : f1.act cfg l (.t .tick) = some { f1 with ts := ts2 } := by
    unfold FSys.act TSys.act
    have : f1.ts.sys.crashed.isSome = false := hcr
    simp only [this, Bool.false_eq_true, if_false, hquiet, if_true]
    unfold TSys.tick
    rw [if_pos (by
      rw [List.all_eq_true]
      intro i hi
      exact (hall i (List.mem_range.1 hi)).2.2)]
    rfl
  refine ⟨{ f1 with ts := ts2 }, ?_, ?_⟩
  · simp only [FSys.run, a1, a2, Option.bind_some]
  · have hnow := h.now
    refine ⟨by show f.ts.now + 1 = _; rw [hnow], by show f.ts.now + 1 = _; rw [hnow], h.crashed, h.netCrashed, h.len, fun i y hy => ?_⟩
    have hX := h.tiles i y hy
    have hi : i < cfg.net.tiles := by
      have hy : A.tiles[i]? = some y := hy
      have := (List.getElem?_eq_some_iff.1 hy).1
      have := h.len
      omega
    have hvi : FSys.view { f1 with ts := ts2 } i = { f.view i with
        tile := (f.ts.sys.tile i).tick
        pipe := fun k => if cfg.hasCore i k then { f.ts.pipe i k with now := f.ts.now + 1 } else f.ts.pipe i k } := by
      unfold FSys.view
      dsimp only [ts2]
      rw [if_pos hi]
    rw [hvi]
    refine { hX with
      ctrl := clock_tick hX.ctrl, phase := hX.phase.mono fun _ _ => ticket_tick, cores := ?_ }
    intro k z hz
    have hk : k < cfg.cores := by
      rw [← hX.ncores]
      exact (List.getElem?_eq_some_iff.1 hz).1
    have := core_tick (c' := { (f.ts.sys.tile i).ctrl with now := (f.ts.sys.tile i).ctrl.now + 1 }) (hX.cores k z hz)
      (fun _ _ => ticket_tick)
    show CoreR cfg cc p q (A.now + 1) { (f.ts.sys.tile i).ctrl with now := (f.ts.sys.tile i).ctrl.now + 1 } z ((f.ts.sys.tile i).core k)
      (if cfg.hasCore i k then { f.ts.pipe i k with now := f.ts.now + 1 } else f.ts.pipe i k) (f.ts.due i k)
    rw [if_pos (by unfold SysCfg.hasCore; rw [decide_eq_true hi, decide_eq_true hk]; rfl), h.now]
    exact this

theorem run_append (f : FSys) : ∀ (as bs : List FAct), f.run cfg l (as ++ bs) = (f.run cfg l as).bind fun f => f.run cfg l bs := by
  intro as
  induction as generalizing f with
  | nil => intro bs; rfl
  | cons a as ih =>
    intro bs
    rw [List.cons_append, FSys.run, FSys.run]
    cases f.act cfg l a with
    | none => rfl
    | some f1 => exact ih f1 bs

theorem node_ticks (T : Nat) : ∀ (d : Nat) {A : DNode} {f : FSys}, NodeR cfg cc p q size A f → A.now + d = T →
    (∀ i y, A.tiles[i]? = some y → ∀ n, n < T → Waits n (A.full i) y) →
    ∃ as f', f.run cfg l as = some f' ∧ NodeR cfg cc p q size { A with now := T } f' := by
  intro d
  induction d with
  | zero =>
    intro A f h hd _
    refine ⟨[], f, rfl, ?_⟩
    have : A.now = T := by omega
    rw [← this]
    exact h
  | succ d ih =>
    intro A f h hd hw
    obtain ⟨f1, h1, h2⟩ := node_tick (l := l) h fun i y hy => hw i y hy A.now (by omega)
    obtain ⟨as, f2, h3, h4⟩ := ih h2 (by show A.now + 1 + d = T; omega) hw
    refine ⟨[.monitor, .t .tick] ++ as, f2, ?_, h4⟩
    rw [run_append, h1]
    exact h3

theorem rests_some {T : Nat} {full : Nat → Bool} (h : x.rests T full = some x') (hwk : x.wake ≤ x.coresUntil) :
    (∀ n, n < T → Waits n full x) ∧ (∃ w, x' = { x with wake := w } ∧ w ≤ x.coresUntil) := by
  unfold DTile.rests at h
  rw [Option.ite_none_right_eq_some] at h
  obtain ⟨⟨h1, h2, h3, h4⟩, h⟩ := h
  split at h
  · rename_i h5
    injection h with h
    subst h
    exact ⟨fun n hn => ⟨by omega, by omega, by omega, by omega, by omega⟩, x.wake, rfl, hwk⟩
  · dsimp only at h
    rw [Option.ite_none_right_eq_some] at h
    obtain ⟨h5, h⟩ := h
    injection h with h
    subst h
    exact ⟨fun n hn => ⟨by omega, by omega, by omega, by omega, by omega⟩, x.coresUntil, rfl, le_refl _⟩

theorem restAll_some {T : Nat} {full : Nat → Nat → Bool} : ∀ {xs ys : List DTile} {t : Nat}, restAll T full t xs = some ys →
    ys.length = xs.length ∧ ∀ (i : Nat) x, xs[i]? = some x → ∃ y, ys[i]? = some y ∧ x.rests T (full (t + i)) = some y
  | [], ys, t, h => by
    injection h with h
    subst h
    exact ⟨rfl, fun i x hx => by simp at hx⟩
  | x0 :: xs, ys, t, h => by
    unfold restAll at h
    split at h
    · cases h
    rename_i y hy
    split at h
    · cases h
    rename_i ys' hys
    injection h with h
    subst h
    obtain ⟨ih1, ih2⟩ := restAll_some hys
    refine ⟨by rw [List.length_cons, List.length_cons, ih1], fun i x hx => ?_⟩
    cases i with
    | zero =>
      rw [List.getElem?_cons_zero] at hx
      injection hx with hx
      subst hx
      exact ⟨y, rfl, hy⟩
    | succ i =>
      rw [List.getElem?_cons_succ] at hx
      obtain ⟨z, h1, h2⟩ := ih2 i x hx
      refine ⟨z, h1, ?_⟩
      rw [← h2, Nat.add_assoc, Nat.add_comm 1 i]

theorem node_wait (h : NodeR cfg cc p q size A f) {d : Nat} (hd : A.wait (A.now + d) = some A') :
    ∃ as f', f.run cfg l as = some f' ∧ NodeR cfg cc p q size A' f' := by
  obtain ⟨ys, h1, rfl⟩ := Option.map_eq_some_iff.1 hd
  obtain ⟨h2, h3⟩ := restAll_some h1
  have hr : ∀ (i : Nat) (y : DTile), A.tiles[i]? = some y → ∃ z, ys[i]? = some z ∧ y.rests (A.now + d) (A.full i) = some z := by
    intro i y hy
    obtain ⟨z, h4, h5⟩ := h3 i y hy
    rw [Nat.zero_add] at h5
    exact ⟨z, h4, h5⟩
  obtain ⟨as, f', h4, h5⟩ := node_ticks (l := l) (A.now + d) d h rfl (fun i y hy => by
    obtain ⟨z, -, h6⟩ := hr i y hy
    exact (rests_some h6 (h.tiles i y hy).wake).1)
  refine ⟨as, f', h4, h5.now, h5.look, h5.crashed, h5.netCrashed, h2.trans h5.len, fun i z hz => ?_⟩
  have hi : i < A.tiles.length := by rw [← h2]; exact (List.getElem?_eq_some_iff.1 hz).1
  have hy : A.tiles[i]? = some A.tiles[i] := List.getElem?_eq_getElem hi
  obtain ⟨z', h6, h7⟩ := hr i _ hy
  have : z' = z := by rw [h6] at hz; injection hz
  subst this
  obtain ⟨-, w, h8, h9⟩ := rests_some h7 (h.tiles i _ hy).wake
  have hX := h5.tiles i _ hy
  rw [h8]
  exact { hX with wake := h9 }

/-- A step of the check is a run of the node. -/
theorem node_step (ho : ClockOk cfg cc p l q) (hqs : q.size = size) (h : NodeR cfg cc p q size A f) {a : DStep}
    (hd : A.step q a = some A') : ∃ as f', f.run cfg l as = some f' ∧ NodeR cfg cc p q size A' f' := by
  cases a with
  | act a =>
    obtain ⟨f', h1, h2⟩ := clockNode_act ho hqs h hd
    refine ⟨[a], f', ?_, h2⟩
    simp only [FSys.run, h1, Option.bind_some]
  | wait d => exact node_wait h hd

theorem node_follow (ho : ClockOk cfg cc p l q) (hqs : q.size = size) : ∀ (n code : Nat) {A A' : DNode} {f : FSys},
    NodeR cfg cc p q size A f → A.follow q n code = some A' → ∃ as f', f.run cfg l as = some f' ∧ NodeR cfg cc p q size A' f'
  | 0, _, A, A', f, h, hd => by
    injection hd with hd
    subst hd
    exact ⟨[], f, rfl, h⟩
  | n + 1, code, A, A', f, h, hd => by
    unfold DNode.follow at hd
    split at hd
    · cases hd
    rename_i A1 hA1
    obtain ⟨as, f1, h1, h2⟩ := node_step ho hqs h hA1
    obtain ⟨bs, f2, h3, h4⟩ := node_follow ho hqs n _ h2 hd
    refine ⟨as ++ bs, f2, ?_, h4⟩
    rw [run_append, h1]
    exact h3

end Ramwich
