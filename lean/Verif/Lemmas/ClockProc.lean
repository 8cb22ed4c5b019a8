import Verif.Lemmas.ClockThread

/-! # The tile processes of the check with the clock -/
namespace Ramwich

open Pipeline Spec

variable {cfg : SysCfg} {cc : Config} {p : CoreParams} {l : StageLat} {q : ClockPar} {size : Nat} {A A' : DNode} {f f' : FSys}
variable {t : Nat} {x x' : DTile}

theorem clockTile_act (h : NodeR cfg cc p q size A f) (ht : t < cfg.net.tiles) {X : TileSt} {n' : Net} {k' : NetClock}
    (h1 : f.ts.sys.tileStep cfg t = some { f.ts.sys with tile := upd f.ts.sys.tile t X, net := n' })
    (h2 : f.netPart cfg (.tile t) = some k') :
    f.act cfg l (.t (.other (.tile t))) = some ((f.putTile t X n' k').mark t (f.ts.sys.tile t) X) := by
  have hact : f.ts.sys.act cfg (.tile t) = some { f.ts.sys with tile := upd f.ts.sys.tile t X, net := n' } := by
    unfold Sys.act
    rw [show f.ts.sys.crashed.isSome = false by rw [h.crashed]; rfl]
    simp only [Bool.false_eq_true, if_false]
    rw [if_pos ht]
    exact h1
  rw [act_other h.crashed (by simp) (by simp) hact h.crashed (k := k') h2]
  simp only [upd_same]
  rfl

theorem clockCtrl_ok {s : Sys} {a : CtrlAct} {c' : Ctrl} {g : Sys → Sys} (h1 : (s.tile t).ctrl.act cfg.edramLat a = some c')
    (h2 : c'.crashed = none) : s.ctrlAct cfg t a g = some (g (s.setTile t { s.tile t with ctrl := c' })) := by
  unfold Sys.ctrlAct
  rw [h1]
  simp only [Option.map_some, h2]

theorem clock_reshape {v w : Nat} {data : List I32} (h : data.length = w * v) :
    (reshape v w data).length = v ∧ ∀ r ∈ reshape v w data, r.length = w := by
  unfold reshape
  refine ⟨by simp, fun r hr => ?_⟩
  obtain ⟨i, hi, rfl⟩ := List.mem_map.1 hr
  rw [List.mem_range] at hi
  rw [List.length_take, List.length_drop, h]
  have : (i + 1) * w ≤ v * w := Nat.mul_le_mul_right w hi
  rw [Nat.add_mul, Nat.one_mul] at this
  rw [Nat.mul_comm w v]
  omega

theorem clock_flatten {w : Nat} : ∀ {gs : List (List I32)}, (∀ r ∈ gs, r.length = w) → gs.flatten.length = gs.length * w
  | [], _ => by simp
  | g :: gs, h => by
    rw [List.flatten_cons, List.length_append, clock_flatten fun r hr => h r (List.mem_cons_of_mem _ hr), h g (List.mem_cons_self ..),
      List.length_cons, Nat.add_mul]
    omega

theorem halted_all (hT : TileR cfg cc p q size A.now t x (f.view t)) (h : x.cores.all DCore.isHalted = true) :
    f.ts.sys.coresHalted cfg t = true := by
  unfold Sys.coresHalted
  rw [List.all_eq_true]
  intro k hk
  rw [List.mem_range, ← hT.ncores] at hk
  have hy : x.cores[k]? = some x.cores[k] := List.getElem?_eq_getElem hk
  have h1 := hT.cores k _ hy
  have h2 := List.all_eq_true.1 h _ (List.getElem_mem hk)
  have hp := h1.phase
  unfold DCore.isHalted at h2
  split at h2
  · rename_i e
    rw [e] at hp
    have hp : ((f.ts.sys.tile t).core k).phase = .halted := hp
    rw [hp]; rfl
  · cases h2

theorem halted_some (hT : TileR cfg cc p q size A.now t x (f.view t)) (h : x.cores.all DCore.isHalted = false) :
    f.ts.sys.coresHalted cfg t = false := by
  cases hh : f.ts.sys.coresHalted cfg t with
  | false => rfl
  | true =>
    exfalso
    rw [List.all_eq_false] at h
    obtain ⟨y, hy, hny⟩ := h
    obtain ⟨k, hk, rfl⟩ := List.getElem_of_mem hy
    unfold Sys.coresHalted at hh
    have h1 := List.all_eq_true.1 hh k (by rw [List.mem_range, ← hT.ncores]; exact hk)
    have h2 := (hT.cores k _ (List.getElem?_eq_getElem hk)).phase
    apply hny
    unfold DCore.isHalted
    have h2 : PhaseR cfg cc p (f.ts.sys.tile t).ctrl (f.ts.pipe t k) x.cores[k].evs ((f.ts.sys.tile t).core k) (f.ts.due t k)
      x.cores[k].phase := h2
    cases e : x.cores[k].phase <;> rw [e] at h2 <;> simp only [PhaseR] at h2
    case true.loadWait =>
      obtain ⟨_, _, _, _, _, h2, _⟩ := h2
      rw [h2] at h1; cases h1
    case true.loadGot =>
      obtain ⟨_, _, _, h2, _⟩ := h2
      rw [h2] at h1; cases h1
    case true.storeDelay =>
      obtain ⟨_, h2, _⟩ := h2
      rw [h2] at h1; cases h1
    all_goals
      rw [h2.1] at h1; cases h1

theorem node_proc (ho : ClockOk cfg cc p l q) (hqs : q.size = size) (h : NodeR cfg cc p q size A f) (hx : A.tiles[t]? = some x)
    (hd : x.proc q A.now t = some x') :
    ∃ f', f.act cfg l (.t (.other (.tile t))) = some f' ∧
      NodeR cfg cc p q size { A with tiles := A.tiles.set t { x' with wake := 0 } } f' := by
  have hT := h.tiles t x hx
  have ht := h.lt hx
  have hp := hT.phase
  have hops : (f.ts.sys.tile t).ops = x.ops := hT.ops
  have hnet := h.netCrashed
  unfold DTile.proc at hd
  split at hd
  · -- ready
    rename_i e
    rw [e] at hp
    have hp : (f.ts.sys.tile t).phase = .ready := hp
    have hk : f.netPart cfg (.tile t) = some f.clk := by
      unfold FSys.netPart Sys.netOf
      simp only [hp]
    split at hd
    · cases hd
    · -- send
      rename_i addr target width vec rest eo
      rw [Option.ite_none_right_eq_some] at hd
      obtain ⟨⟨c1, c2, c3, c4, c5, c6⟩, hd⟩ := hd
      obtain ⟨d', hsub, hd⟩ := Option.map_eq_some_iff.1 hd
      subst hd
      obtain ⟨cc', m1, m2, m3, m4, m5⟩ := clock_submit hT.ctrl hqs hsub cfg.edramLat (-1) (start := addr) (by omega)
        (kind := .read width vec) rfl (by
          show width * vec = _
          have : 0 < width * vec := Int.mul_pos c5 c6
          omega) (by show vec = _; omega)
      have m1 : (f.ts.sys.tile t).ctrl.act cfg.edramLat (.submit (-1) addr (.read width vec)) = some cc' := m1
      let X : TileSt := { f.ts.sys.tile t with
        ctrl := cc', ops := rest, phase := .sendWait (f.ts.sys.tile t).ctrl.submitted.length addr target width vec }
      refine ⟨_, clockTile_act h ht (X := X) (n' := f.ts.sys.net) ?_ hk, ?_⟩
      · unfold Sys.tileStep
        simp only [hp, hops, eo]
        unfold Sys.tileStart
        dsimp only
        rw [clockCtrl_ok m1 m2]
        unfold Sys.setTile
        simp only [upd_same, upd_upd]
        rfl
      · refine node_tile h (NetFrame.refl hnet) ClkFrame.refl ?_
        rw [if_neg (by rw [hp]; simp [TilePhase.isReady])]
        refine { hT with ctrl := m3, cores := fun k y hy => (hT.cores k y hy).mono m5, ops := rfl, phase := ?_, wake := Nat.zero_le _ }
        refine ⟨addr, ?_, ?_, ?_, ?_⟩
        · show TilePhase.sendWait _ _ _ _ _ = _
          rw [hT.ctrl.next, Int.toNat_of_nonneg c2, Int.toNat_of_nonneg (by omega), Int.toNat_of_nonneg (by omega)]
          rfl
        · rw [hT.ctrl.next, ← Int.toNat_mul (by omega) (by omega)]
          exact m4
        · rw [← ho.tiles]; omega
        · omega
    · -- receive
      rename_i addr source width vec rest eo
      rw [Option.ite_none_right_eq_some] at hd
      obtain ⟨⟨c1, c2, c3, c4, c5, c6⟩, hd⟩ := hd
      injection hd with hd
      subst hd
      let X : TileSt := { f.ts.sys.tile t with ops := rest, phase := .recving addr source width vec [] }
      refine ⟨_, clockTile_act h ht (X := X) (n' := f.ts.sys.net) ?_ hk, ?_⟩
      · unfold Sys.tileStep
        simp only [hp, hops, eo]
        unfold Sys.tileStart
        dsimp only
        rw [if_neg (by omega)]
        rfl
      · refine node_tile h (NetFrame.refl hnet) ClkFrame.refl ?_
        rw [if_neg (by rw [hp]; simp [TilePhase.isReady])]
        refine { hT with ops := rfl, phase := ?_, wake := Nat.zero_le _ }
        refine ⟨[], ?_, rfl, by simp, ?_, ?_⟩
        · show TilePhase.recving _ _ _ _ _ = _
          rw [Int.toNat_of_nonneg c1, Int.toNat_of_nonneg c2, Int.toNat_of_nonneg (by omega), Int.toNat_of_nonneg (by omega)]
        · rw [← ho.tiles]; omega
        · omega
    · -- halt
      rename_i rest eo
      injection hd with hd
      subst hd
      let X : TileSt := { f.ts.sys.tile t with ops := rest, phase := .haltCores }
      refine ⟨_, clockTile_act h ht (X := X) (n' := f.ts.sys.net) ?_ hk, ?_⟩
      · unfold Sys.tileStep
        simp only [hp, hops, eo]
        rfl
      · refine node_tile h (NetFrame.refl hnet) ClkFrame.refl ?_
        rw [if_neg (by rw [hp]; simp [TilePhase.isReady])]
        exact { hT with ops := rfl, phase := rfl, wake := Nat.zero_le _ }
  · -- sendWait
    rename_i id tg w v e
    rw [e] at hp
    obtain ⟨addr, hp, htk, h3, h4⟩ := hp
    have hp : (f.ts.sys.tile t).phase = .sendWait id addr tg w v := hp
    rw [Option.ite_none_right_eq_some] at hd
    obtain ⟨hbit, hd⟩ := hd
    injection hd with hd
    subst hd
    rw [hT.ctrl.reads] at hbit
    obtain ⟨data, hdata⟩ := Option.isSome_iff_exists.1 hbit
    have hlen := htk.answer _ hdata
    have hdata : readAnswer id (f.ts.sys.tile t).ctrl.answers = some data := hdata
    obtain ⟨r1, r2⟩ := clock_reshape hlen
    have hk : f.netPart cfg (.tile t) = some f.clk := by
      unfold FSys.netPart Sys.netOf
      simp only [hp]
    let X : TileSt := { f.ts.sys.tile t with
      phase := .sending tg (reshape v w data), log := (f.ts.sys.tile t).log ++ [.sent addr tg w v (reshape v w data)] }
    refine ⟨_, clockTile_act h ht (X := X) (n' := f.ts.sys.net) ?_ hk, ?_⟩
    · unfold Sys.tileStep
      simp only [hp, hdata]
      rw [if_neg (by omega)]
      rfl
    · refine node_tile h (NetFrame.refl hnet) ClkFrame.refl ?_
      rw [if_neg (by simp [X, TilePhase.isReady])]
      exact { hT with phase := ⟨_, rfl, r1, r2, h3, h4⟩, wake := Nat.zero_le _ }
  · -- sending
    rename_i tg w rows e
    rw [e] at hp
    obtain ⟨todo, hp, hl, hr, h3, h4⟩ := hp
    have hp : (f.ts.sys.tile t).phase = .sending tg todo := hp
    have hbd : badDelay (.ok cfg.dataMemLat) = none := by
      unfold badDelay; dsimp only; rw [ho.mem, if_neg (by omega)]
    split at hd
    · injection hd with hd
      subst hd
      have htodo : todo = [] := List.eq_nil_of_length_eq_zero hl
      subst htodo
      have hk : f.netPart cfg (.tile t) = some f.clk := by
        unfold FSys.netPart Sys.netOf
        simp only [hp]
      let X : TileSt := { f.ts.sys.tile t with phase := .ready }
      refine ⟨_, clockTile_act h ht (X := X) (n' := f.ts.sys.net) ?_ hk, ?_⟩
      · unfold Sys.tileStep
        simp only [hp]
        rfl
      · refine node_tile h (NetFrame.refl hnet) ClkFrame.refl ?_
        refine { hT with phase := rfl, wake := Nat.zero_le _, active := ?_ }
        show (if (f.ts.sys.tile t).phase.isReady = false ∧ TilePhase.ready.isReady = true ∧ (f.ts.sys.tile t).ops.isEmpty = true then some A.now
          else f.active t) = if x.ops.isEmpty then some A.now else x.active
        rw [hp, hops, show f.active t = x.active from hT.active]
        simp [TilePhase.isReady]
    · rename_i nrows
      split at hd
      rotate_left
      · cases hd
      rename_i est
      injection hd with hd
      subst hd
      obtain ⟨row, rows', rfl⟩ : ∃ r rs, todo = r :: rs := by
        cases todo with
        | nil => simp at hl
        | cons r rs => exact ⟨r, rs, rfl⟩
      have hst : f.ts.sys.net.stopper t = .running := hT.stopper.trans est
      have hk : f.netPart cfg (.tile t) = some { f.clk with
          adds := upd f.clk.adds t (f.clk.adds t ++ [f.ts.now + q.mem])
          queued := upd f.clk.queued t (f.clk.queued t ++ [f.ts.now]) } := by
        unfold FSys.netPart Sys.netOf
        simp only [hp]
        rw [if_neg (by rw [ho.mem]; omega)]
        simp only [NetClock.step, ho.mem, Int.toNat_natCast]
      let X : TileSt := { f.ts.sys.tile t with phase := .adding tg rows' }
      have hrow := hr row (List.mem_cons_self ..)
      refine ⟨_, clockTile_act h ht (X := X) (n' := f.ts.sys.net.send t tg row) ?_ hk, ?_⟩
      · unfold Sys.tileStep
        simp only [hp, hbd]
        rw [clockNet_ok (n' := f.ts.sys.net.send t tg row) (by
          rw [net_act (a := .send t tg row) hnet ht]
          simp only [Net.actOf, Net.sendIf, hst]) hnet]
        rfl
      · refine node_tile h (n := f.ts.sys.net.send t tg row) (k := { f.clk with
            adds := upd f.clk.adds t (f.clk.adds t ++ [f.ts.now + q.mem])
            queued := upd f.clk.queued t (f.clk.queued t ++ [f.ts.now]) })
          ⟨hnet, fun i hi => upd_ne _ _ _ _ hi, fun _ _ => rfl, fun _ _ => rfl, fun _ _ => rfl, fun i hi => upd_ne _ _ _ _ hi, fun _ _ => rfl,
            fun _ _ => rfl⟩ ⟨rfl, fun _ _ => rfl, fun i hi => upd_ne _ _ _ _ hi, fun _ _ => rfl⟩ ?_
        rw [if_neg (by simp [X, TilePhase.isReady])]
        have ha : f.clk.adds t = x.adds := hT.adds
        have hb : f.ts.sys.net.adding t = x.adds.length := hT.adding
        refine { hT with
          phase := ⟨rows', rfl, by simpa using hl, fun r h => hr r (List.mem_cons_of_mem _ h), h3, h4⟩
          queue := ?_, adds := ?_, adding := ?_, wake := Nat.zero_le _ }
        · show List.Forall₂ _ (x.queue ++ [(tg, w)]) (upd f.ts.sys.net.queue t _ t)
          rw [upd_same]
          exact List.rel_append hT.queue (.cons ⟨rfl, rfl, h3, h4, hrow⟩ .nil)
        · show upd f.clk.adds t _ t = x.adds ++ [A.now + q.mem]
          rw [upd_same, ha, h.now]
        · show upd f.ts.sys.net.adding t _ t = (x.adds ++ [A.now + q.mem]).length
          rw [upd_same, hb, List.length_append]
          rfl
  · -- adding
    rename_i tg w rows e
    rw [e] at hp
    obtain ⟨todo, hp, hl, hr, h3, h4⟩ := hp
    have hp : (f.ts.sys.tile t).phase = .adding tg todo := hp
    split at hd
    rotate_left
    · cases hd
    rename_i d rest ea
    rw [Option.ite_none_right_eq_some] at hd
    obtain ⟨hdn, hd⟩ := hd
    injection hd with hd
    subst hd
    have ha : f.clk.adds t = d :: rest := hT.adds.trans ea
    have hb : f.ts.sys.net.adding t = rest.length + 1 := by
      have := hT.adding
      rw [ea] at this
      exact this
    have hk : f.netPart cfg (.tile t) = some { f.clk with
        adds := upd f.clk.adds t rest, returned := upd f.clk.returned t (f.clk.returned t ++ [f.ts.now]) } := by
      unfold FSys.netPart Sys.netOf
      simp only [hp, NetClock.step, ha]
      rw [if_pos (by rw [hdn, h.now])]
    let X : TileSt := { f.ts.sys.tile t with phase := .sending tg todo }
    let n' : Net := { f.ts.sys.net with
      adding := upd f.ts.sys.net.adding t rest.length
      stats := upd f.ts.sys.net.stats t { f.ts.sys.net.stats t with created := (f.ts.sys.net.stats t).created + 1 } }
    refine ⟨_, clockTile_act h ht (X := X) (n' := n') ?_ hk, ?_⟩
    · unfold Sys.tileStep
      simp only [hp]
      rw [clockNet_ok (n' := n') (by
        rw [net_act (a := .added t) hnet ht]
        simp only [Net.actOf, Net.added, hb]
        rfl) hnet]
      rfl
    · refine node_tile h (n := n') (k := { f.clk with
          adds := upd f.clk.adds t rest, returned := upd f.clk.returned t (f.clk.returned t ++ [f.ts.now]) })
        ⟨hnet, fun _ _ => rfl, fun _ _ => rfl, fun _ _ => rfl, fun _ _ => rfl, fun i hi => upd_ne _ _ _ _ hi, fun _ _ => rfl,
          fun i hi => by
            show (upd f.ts.sys.net.stats t _ i).sent = _
            rw [upd_ne _ _ _ _ hi]⟩ ⟨rfl, fun _ _ => rfl, fun i hi => upd_ne _ _ _ _ hi, fun _ _ => rfl⟩ ?_
      rw [if_neg (by simp [X, TilePhase.isReady])]
      refine { hT with
        phase := ⟨todo, rfl, hl, hr, h3, h4⟩, adds := upd_same _ _ _, adding := upd_same _ _ _, sent := ?_, wake := Nat.zero_le _ }
      show (upd f.ts.sys.net.stats t _ t).sent = x.sent
      rw [upd_same]
      exact hT.sent
  · -- recving
    rename_i a s w v got e
    rw [e] at hp
    obtain ⟨gs, hp, hl, hr, h3, h4⟩ := hp
    have hp : (f.ts.sys.tile t).phase = .recving a s w v gs := hp
    split at hd
    · rename_i hgv
      split at hd
      rotate_left
      · cases hd
      rename_i er
      injection hd with hd
      subst hd
      have hrd := hT.reader
      rw [er] at hrd
      have hrd : f.ts.sys.net.reader t = .idle := hrd
      have hlt : (gs.length : Int) < v := by rw [hl]; exact_mod_cast hgv
      have hk : f.netPart cfg (.tile t) = some { f.clk with
          asked := updAt f.clk.asked t s (f.clk.asked t s ++ [f.ts.now]) } := by
        unfold FSys.netPart Sys.netOf
        simp only [hp]
        rw [if_pos hlt]
        simp only [NetClock.step, Int.toNat_natCast]
      let X : TileSt := { f.ts.sys.tile t with phase := .recvWait a s w v gs }
      let n' : Net := { f.ts.sys.net with reader := upd f.ts.sys.net.reader t (.waiting s) }
      have hbuf : cfg.net.hasBuffer t s = true := by
        unfold NetConfig.hasBuffer
        have h5 := ho.nodes
        have h6 : cfg.net.tiles ≤ cfg.net.nodes * cfg.net.tiles := Nat.le_mul_of_pos_left _ h5
        have h7 : s < cfg.net.nodes * cfg.net.tiles := by omega
        simp only [Bool.and_eq_true, decide_eq_true_eq]
        exact ⟨⟨by omega, by exact_mod_cast h7⟩, by exact_mod_cast h4⟩
      refine ⟨_, clockTile_act h ht (X := X) (n' := n') ?_ hk, ?_⟩
      · unfold Sys.tileStep
        simp only [hp]
        rw [if_pos hlt, clockNet_ok (n' := n') (by
          rw [net_act (a := .startRead t s) hnet ht]
          simp only [Net.actOf, Net.startRead, hrd, hbuf, if_true, Int.toNat_natCast]
          rfl) hnet]
        rfl
      · refine node_tile h (n := n') (k := { f.clk with asked := updAt f.clk.asked t s (f.clk.asked t s ++ [f.ts.now]) })
          ⟨hnet, fun _ _ => rfl, fun _ _ => rfl, fun _ _ => rfl, fun i hi => upd_ne _ _ _ _ hi, fun _ _ => rfl, fun _ _ => rfl,
            fun _ _ => rfl⟩ ⟨rfl, fun _ _ => rfl, fun _ _ => rfl, fun _ _ => rfl⟩ ?_
        rw [if_neg (by simp [X, TilePhase.isReady])]
        exact { hT with phase := ⟨gs, rfl, hl, hr, h3, h4⟩, reader := ⟨upd_same _ _ _, h3, h4⟩, wake := Nat.zero_le _ }
    · rename_i hgv
      obtain ⟨d', hsub, hd⟩ := Option.map_eq_some_iff.1 hd
      subst hd
      have hlt : ¬(gs.length : Int) < v := by rw [hl]; exact_mod_cast hgv
      obtain ⟨cc', m1, m2, m3, m4, m5⟩ := clock_submit hT.ctrl hqs hsub cfg.edramLat (-1) (start := (a : Int)) rfl
        (kind := .write gs.flatten v) rfl (by
          show ((gs.flatten.length : Nat) : Int) = _
          rw [clock_flatten hr, hl]) rfl
      have m1 : (f.ts.sys.tile t).ctrl.act cfg.edramLat (.submit (-1) a (.write gs.flatten v)) = some cc' := m1
      have hk : f.netPart cfg (.tile t) = some f.clk := by
        unfold FSys.netPart Sys.netOf
        simp only [hp]
        rw [if_neg hlt]
      let X : TileSt := { f.ts.sys.tile t with
        ctrl := cc', phase := .recvWrite (f.ts.sys.tile t).ctrl.submitted.length
        log := (f.ts.sys.tile t).log ++ [.received a s w v gs] }
      refine ⟨_, clockTile_act h ht (X := X) (n' := f.ts.sys.net) ?_ hk, ?_⟩
      · unfold Sys.tileStep
        simp only [hp]
        rw [if_neg hlt, Int.toNat_natCast, clockCtrl_ok m1 m2]
        unfold Sys.logPhase Sys.setTile
        simp only [upd_same, upd_upd]
        rfl
      · refine node_tile h (NetFrame.refl hnet) ClkFrame.refl ?_
        rw [if_neg (by simp [X, TilePhase.isReady])]
        refine { hT with ctrl := m3, cores := fun k y hy => (hT.cores k y hy).mono m5, phase := ?_, wake := Nat.zero_le _ }
        show TilePhase.recvWrite _ = .recvWrite _
        rw [hT.ctrl.next]
        rfl
  · -- recvWait
    rename_i a s w v got e
    rw [e] at hp
    obtain ⟨gs, hp, hl, hr, h3, h4⟩ := hp
    have hp : (f.ts.sys.tile t).phase = .recvWait a s w v gs := hp
    split at hd
    rotate_left
    · cases hd
    rename_i src w' er
    rw [Option.ite_none_right_eq_some] at hd
    obtain ⟨hw, hd⟩ := hd
    injection hd with hd
    subst hd
    have hrd := hT.reader
    rw [er] at hrd
    obtain ⟨data, hrd, hdl⟩ := hrd
    have hrd : f.ts.sys.net.reader t = .got src data := hrd
    have hk : f.netPart cfg (.tile t) = some f.clk := by
      unfold FSys.netPart Sys.netOf
      simp only [hp, hrd, NetClock.step]
    let X : TileSt := { f.ts.sys.tile t with
      phase := .recving a s w v (gs ++ [data]), log := (f.ts.sys.tile t).log ++ [.row s data] }
    let n' : Net := { f.ts.sys.net with
      reader := upd f.ts.sys.net.reader t .idle
      stats := upd f.ts.sys.net.stats t { f.ts.sys.net.stats t with read := (f.ts.sys.net.stats t).read + 1 }
      readLog := upd f.ts.sys.net.readLog t (upd (f.ts.sys.net.readLog t) src (f.ts.sys.net.readLog t src ++ [data])) }
    refine ⟨_, clockTile_act h ht (X := X) (n' := n') ?_ hk, ?_⟩
    · unfold Sys.tileStep
      simp only [hp, hrd]
      rw [clockNet_ok (n' := n') (by
        rw [net_act (a := .readDone t) hnet ht]
        simp only [Net.actOf, Net.readDone, hrd, Option.map_some]
        rfl) hnet, if_pos (by rw [hdl, hw])]
      rfl
    · refine node_tile h (n := n') (k := f.clk)
        ⟨hnet, fun _ _ => rfl, fun _ _ => rfl, fun _ _ => rfl, fun i hi => upd_ne _ _ _ _ hi, fun _ _ => rfl, fun _ _ => rfl,
          fun i hi => by
            show (upd f.ts.sys.net.stats t _ i).sent = _
            rw [upd_ne _ _ _ _ hi]⟩ ClkFrame.refl ?_
      rw [if_neg (by simp [X, TilePhase.isReady])]
      refine { hT with phase := ⟨gs ++ [data], rfl, ?_, ?_, h3, h4⟩, reader := upd_same _ _ _, sent := ?_, wake := Nat.zero_le _ }
      · rw [List.length_append, hl]; rfl
      · intro r hr'
        rcases List.mem_append.1 hr' with h5 | h5
        · exact hr r h5
        · rw [List.mem_singleton.1 h5, hdl, hw]
      · show (upd f.ts.sys.net.stats t _ t).sent = x.sent
        rw [upd_same]
        exact hT.sent
  · -- recvWrite
    rename_i id e
    rw [e] at hp
    have hp : (f.ts.sys.tile t).phase = .recvWrite id := hp
    rw [Option.ite_none_right_eq_some] at hd
    obtain ⟨hbit, hd⟩ := hd
    injection hd with hd
    subst hd
    rw [hT.ctrl.writes] at hbit
    have hbit : wroteAnswer id (f.ts.sys.tile t).ctrl.answers = true := hbit
    have hk : f.netPart cfg (.tile t) = some f.clk := by
      unfold FSys.netPart Sys.netOf
      simp only [hp]
    let X : TileSt := { f.ts.sys.tile t with phase := .ready }
    refine ⟨_, clockTile_act h ht (X := X) (n' := f.ts.sys.net) ?_ hk, ?_⟩
    · unfold Sys.tileStep
      simp only [hp, hbit, if_true]
      rfl
    · refine node_tile h (NetFrame.refl hnet) ClkFrame.refl ?_
      refine { hT with phase := rfl, wake := Nat.zero_le _, active := ?_ }
      show (if (f.ts.sys.tile t).phase.isReady = false ∧ TilePhase.ready.isReady = true ∧ (f.ts.sys.tile t).ops.isEmpty = true then some A.now
        else f.active t) = if x.ops.isEmpty then some A.now else x.active
      rw [hp, hops, show f.active t = x.active from hT.active]
      simp [TilePhase.isReady]
  · -- haltCores
    rename_i e
    rw [e] at hp
    have hp : (f.ts.sys.tile t).phase = .haltCores := hp
    rw [Option.ite_none_right_eq_some] at hd
    obtain ⟨hall, hd⟩ := hd
    have hh := halted_all hT hall
    split at hd
    rotate_left
    · cases hd
    rename_i est
    injection hd with hd
    subst hd
    have hst : f.ts.sys.net.stopper t = .running := hT.stopper.trans est
    have hk : f.netPart cfg (.tile t) = some { f.clk with
        check := upd f.clk.check t f.ts.now, haltAt := upd f.clk.haltAt t (some f.ts.now) } := by
      unfold FSys.netPart Sys.netOf
      simp only [hp, hst, hh, if_true, NetClock.step]
    let X : TileSt := { f.ts.sys.tile t with phase := .haltRouter }
    let n' : Net := { f.ts.sys.net with stopper := upd f.ts.sys.net.stopper t .checking }
    refine ⟨_, clockTile_act h ht (X := X) (n' := n') ?_ hk, ?_⟩
    · unfold Sys.tileStep
      simp only [hp, hst, hh, if_true]
      rw [clockNet_ok (n' := n') (by
        rw [net_act (a := .halt t) hnet ht]
        simp only [Net.actOf, Net.halt, hst]
        rfl) hnet]
      rfl
    · refine node_tile h (n := n') (k := { f.clk with
          check := upd f.clk.check t f.ts.now, haltAt := upd f.clk.haltAt t (some f.ts.now) })
        ⟨hnet, fun _ _ => rfl, fun _ _ => rfl, fun _ _ => rfl, fun _ _ => rfl, fun _ _ => rfl, fun i hi => upd_ne _ _ _ _ hi,
          fun _ _ => rfl⟩ ⟨rfl, fun _ _ => rfl, fun _ _ => rfl, fun i hi => upd_ne _ _ _ _ hi⟩ ?_
      rw [if_neg (by simp [X, TilePhase.isReady])]
      exact { hT with
        phase := rfl, stopper := upd_same _ _ _, check := (upd_same _ _ _).trans h.now, wake := Nat.zero_le _ }
  · -- haltRouter
    rename_i e
    rw [e] at hp
    have hp : (f.ts.sys.tile t).phase = .haltRouter := hp
    have hst0 : f.ts.sys.net.stopper t = x.stopper := hT.stopper
    split at hd
    · rename_i est
      rw [est] at hst0
      rw [Option.ite_none_right_eq_some] at hd
      obtain ⟨⟨hup, hpe⟩, hd⟩ := hd
      injection hd with hd
      subst hd
      obtain ⟨cc', m1, m3, m5⟩ := clock_stop hT.ctrl hup hpe cfg.edramLat
      have m1 : (f.ts.sys.tile t).ctrl.act cfg.edramLat .stop = some cc' := m1
      have hk : f.netPart cfg (.tile t) = some f.clk := by
        unfold FSys.netPart Sys.netOf
        simp only [hp, hst0]
      let X : TileSt := { f.ts.sys.tile t with ctrl := cc', phase := .ready, log := (f.ts.sys.tile t).log ++ [.halted] }
      refine ⟨_, clockTile_act h ht (X := X) (n' := f.ts.sys.net) ?_ hk, ?_⟩
      · unfold Sys.tileStep
        simp only [hp, hst0]
        rw [clockCtrl_ok m1 m3.crashed]
        unfold Sys.logPhase Sys.setTile
        simp only [upd_same, upd_upd]
        rfl
      · refine node_tile h (NetFrame.refl hnet) ClkFrame.refl ?_
        refine { hT with
          ctrl := m3, cores := fun k y hy => (hT.cores k y hy).mono m5, phase := rfl, wake := Nat.zero_le _, active := ?_ }
        show (if (f.ts.sys.tile t).phase.isReady = false ∧ TilePhase.ready.isReady = true ∧ (f.ts.sys.tile t).ops.isEmpty = true then some A.now
          else f.active t) = if x.ops.isEmpty then some A.now else x.active
        rw [hp, hops, show f.active t = x.active from hT.active]
        simp [TilePhase.isReady]
    · rename_i hns
      -- the steps of `stop_after_all_packets_sent`
      have main : ∀ (st : Stopper) (k' : NetClock), f.ts.sys.net.stopper t ≠ .stopped →
          f.ts.sys.net.stopStep t = some { f.ts.sys.net with stopper := upd f.ts.sys.net.stopper t st } →
          f.clk.step cfg.net cfg.dataMemLat f.ts.sys.net f.ts.now (.stopStep t) = some k' → ClkFrame t f.clk k' →
          k'.flight t = f.clk.flight t → k'.adds t = f.clk.adds t → k'.check t = f.clk.check t →
          ∃ f', f.act cfg l (.t (.other (.tile t))) = some f' ∧
            NodeR cfg cc p q size { A with tiles := A.tiles.set t { x with stopper := st, wake := 0 } } f' := by
        intro st k' hs0 hs1 hs2 hs3 hs4 hs5 hs6
        have hno : f.ts.sys.netOf cfg (.tile t) = some (.stopStep t) := by
          unfold Sys.netOf
          simp only [hp]
        have hk : f.netPart cfg (.tile t) = some k' := by
          unfold FSys.netPart
          rw [hno]
          exact hs2
        let n' : Net := { f.ts.sys.net with stopper := upd f.ts.sys.net.stopper t st }
        refine ⟨_, clockTile_act h ht (X := f.ts.sys.tile t) (n' := n') ?_ hk, ?_⟩
        · unfold Sys.tileStep
          simp only [hp]
          rw [clockNet_ok (n' := n') (by
            rw [net_act (a := .stopStep t) hnet ht]
            exact hs1) hnet, upd_keep]
          rfl
        · refine node_tile h (n := n') (k := k')
            ⟨hnet, fun _ _ => rfl, fun _ _ => rfl, fun _ _ => rfl, fun _ _ => rfl, fun _ _ => rfl, fun i hi => upd_ne _ _ _ _ hi,
              fun _ _ => rfl⟩ hs3 ?_
          rw [if_neg (by rw [hp]; simp [TilePhase.isReady])]
          exact { hT with
            stopper := upd_same _ _ _, sender := by rw [show k'.flight t = _ from hs4]; exact hT.sender
            adds := hs5.trans hT.adds, check := hs6.trans hT.check, wake := Nat.zero_le _ }
      unfold DTile.stopStep at hd
      split at hd
      · rename_i est
        rw [est] at hst0
        rw [Option.ite_none_right_eq_some] at hd
        obtain ⟨⟨hc, hqe⟩, hd⟩ := hd
        injection hd with hd
        subst hd
        have hq0 : f.ts.sys.net.queue t = [] := by
          have := hT.queue
          rw [List.isEmpty_iff.1 hqe] at this
          exact List.forall₂_nil_left_iff.1 this
        refine main .emptied f.clk (by rw [hst0]; simp) ?_ ?_ ClkFrame.refl rfl rfl rfl
        · unfold Net.stopStep
          rw [hst0]
          dsimp only
          rw [if_pos hq0]
        · unfold NetClock.step
          simp only [hst0]
          rw [if_pos (by rw [show f.clk.check t = x.check from hT.check, hc, h.now])]
      · rename_i est
        rw [est] at hst0
        have hs := hT.sender
        split at hd
        · cases hd
        · rename_i es
          injection hd with hd
          subst hd
          rw [es] at hs
          have hs : f.ts.sys.net.sender t = .idle := hs
          refine main .stopped { f.clk with stopAt := upd f.clk.stopAt t (some f.ts.now) } (by rw [hst0]; simp) ?_ ?_
            ⟨rfl, fun _ _ => rfl, fun _ _ => rfl, fun _ _ => rfl⟩ rfl rfl rfl
          · unfold Net.stopStep
            rw [hst0, hs]
            rfl
          · unfold NetClock.step
            simp only [hst0, hs, Sender.busy, Bool.false_eq_true, if_false]
        · rename_i hn1 hn2
          injection hd with hd
          subst hd
          have hsn : (f.ts.sys.net.stats t).sent = x.sent := hT.sent
          have hbusy : (f.ts.sys.net.sender t).busy = true ∧ ∀ pk, f.ts.sys.net.sender t ≠ .handed pk := by
            have hs : SenderR cfg.net.tiles t (f.ts.sys.net.sender t) (f.clk.flight t) x.sender := hs
            cases es : x.sender <;> rw [es] at hs <;> simp only [SenderR] at hs
            case idle => exact absurd es hn2
            case handed tg w => exact absurd es (hn1 tg w)
            all_goals
              obtain ⟨pk, hs, -⟩ := hs
              rw [hs]
              exact ⟨rfl, by simp⟩
          refine main (.waiting x.sent) f.clk (by rw [hst0]; simp) ?_ ?_ ClkFrame.refl rfl rfl rfl
          · unfold Net.stopStep
            rw [hst0]
            dsimp only
            split
            · rename_i pk h6; exact absurd h6 (hbusy.2 pk)
            · rw [if_pos hbusy.1, hsn]
          · unfold NetClock.step
            simp only [hst0, hbusy.1, if_true]
      · rename_i kk est
        rw [est] at hst0
        rw [Option.ite_none_right_eq_some] at hd
        obtain ⟨hlt, hd⟩ := hd
        injection hd with hd
        subst hd
        have hsn : (f.ts.sys.net.stats t).sent = x.sent := hT.sent
        refine main .stopped { f.clk with stopAt := upd f.clk.stopAt t (some f.ts.now) } (by rw [hst0]; simp) ?_ ?_
          ⟨rfl, fun _ _ => rfl, fun _ _ => rfl, fun _ _ => rfl⟩ rfl rfl rfl
        · unfold Net.stopStep
          rw [hst0]
          dsimp only
          rw [hsn, if_pos hlt]
        · unfold NetClock.step
          simp only [hst0]
      · cases hd

end Ramwich
