import Verif.Lemmas.ClockTile

/-! # The send threads of the check with the clock -/
namespace Ramwich

open Pipeline Spec

variable {cfg : SysCfg} {cc : Config} {p : CoreParams} {l : StageLat} {q : ClockPar} {size : Nat} {A A' : DNode} {f f' : FSys}
variable {t : Nat} {x x' : DTile}

theorem thread_act (h : NodeR cfg cc p q size A f) (ht : t < cfg.net.tiles) {n' : Net} {k' : NetClock}
    (h1 : f.ts.sys.net.thread cfg.net t = some n') (h3 : n'.crashed = none)
    (h2 : f.clk.step cfg.net cfg.dataMemLat f.ts.sys.net f.ts.now (.thread t) = some k') :
    f.act cfg l (.t (.other (.thread t))) = some (f.putTile t (f.ts.sys.tile t) n' k') := by
  have hact : f.ts.sys.act cfg (.thread t) = some { f.ts.sys with net := n' } := by
    unfold Sys.act
    rw [show f.ts.sys.crashed.isSome = false by rw [h.crashed]; rfl]
    simp only [Bool.false_eq_true, if_false]
    refine clockNet_ok (s := f.ts.sys) (n' := n') (g := id) ?_ h3
    rw [net_act (a := .thread t) h.netCrashed ht]
    exact h1
  rw [act_other h.crashed (by simp) (by simp) hact h.crashed (k := k') h2]
  unfold FSys.putTile
  rw [upd_keep]

theorem intra_latency (ho : ClockOk cfg cc p l q) (ht : t < cfg.net.tiles) {d : Nat × Nat} {pk : Packet}
    (hp : PacketR cfg.net.tiles t d pk) : cfg.net.latency pk.src pk.target = (some (q.noc : Int), false) := by
  unfold NetConfig.latency
  rw [hp.src, hp.target, ho.noc, if_pos]
  refine .inr (.inr ?_)
  rw [Int.ediv_eq_zero_of_lt (by omega) (by exact_mod_cast ht), Int.ediv_eq_zero_of_lt (by omega) (by exact_mod_cast hp.lt)]

theorem node_thread (ho : ClockOk cfg cc p l q) (h : NodeR cfg cc p q size A f) (hx : A.tiles[t]? = some x)
    (hd : x.thread q A.now = some x') :
    ∃ f', f.act cfg l (.t (.other (.thread t))) = some f' ∧ NodeR cfg cc p q size { A with tiles := A.tiles.set t x' } f' := by
  have hT := h.tiles t x hx
  have ht := h.lt hx
  unfold DTile.thread at hd
  rw [Option.ite_none_left_eq_some] at hd
  obtain ⟨hst, hd⟩ := hd
  have hst' : f.ts.sys.net.stopper t ≠ .stopped := by
    rw [show f.ts.sys.net.stopper t = x.stopper from hT.stopper]; exact hst
  have hs := hT.sender
  split at hd
  · -- idle
    rename_i e
    rw [e] at hs
    have hs : f.ts.sys.net.sender t = .idle := hs
    have hq := hT.queue
    split at hd
    · cases hd
    rename_i tg w rest hqe
    injection hd with hd
    subst hd
    rw [hqe] at hq
    obtain ⟨pk, pks, hpk, hpks, hqq⟩ := List.forall₂_cons_left_iff.1 hq
    have hqq : f.ts.sys.net.queue t = pk :: pks := hqq
    refine ⟨_, thread_act h ht (n' := { f.ts.sys.net with
        queue := upd f.ts.sys.net.queue t pks, sender := upd f.ts.sys.net.sender t (.handed pk) })
      (k' := { f.clk with taken := upd f.clk.taken t (f.clk.taken t ++ [f.ts.now]) }) ?_ h.netCrashed ?_, ?_⟩
    · unfold Net.thread
      rw [if_neg hst', hs, hqq]
    · unfold NetClock.step
      simp only [hs]
    · refine node_router h (n := { f.ts.sys.net with
          queue := upd f.ts.sys.net.queue t pks, sender := upd f.ts.sys.net.sender t (.handed pk) })
        (k := { f.clk with taken := upd f.clk.taken t (f.clk.taken t ++ [f.ts.now]) })
        ⟨h.netCrashed, fun i hi => upd_ne _ _ _ _ hi, fun i hi => upd_ne _ _ _ _ hi, fun _ _ => rfl, fun _ _ => rfl, fun _ _ => rfl,
          fun _ _ => rfl, fun _ _ => rfl⟩ ⟨rfl, fun _ _ => rfl, fun _ _ => rfl, fun _ _ => rfl⟩ ?_
      refine { hT with queue := ?_, sender := ⟨pk, upd_same _ _ _, hpk⟩ }
      show List.Forall₂ _ rest (upd f.ts.sys.net.queue t pks t)
      rw [upd_same]
      exact hpks
  · -- handed
    rename_i tg w e
    injection hd with hd
    subst hd
    rw [e] at hs
    obtain ⟨pk, hs, hpk⟩ := hs
    have hs : f.ts.sys.net.sender t = .handed pk := hs
    have hlat := intra_latency ho ht hpk
    refine ⟨_, thread_act h ht (n' := { f.ts.sys.net with sender := upd f.ts.sys.net.sender t (.flying pk false) })
      (k' := { f.clk with flight := upd f.clk.flight t (f.ts.now + q.noc) }) ?_ h.netCrashed ?_, ?_⟩
    · unfold Net.thread
      rw [if_neg hst', hs]
      dsimp only
      rw [if_neg (by
        rw [hpk.target]
        have := hpk.lt
        simp only [not_not]
        exact ⟨by omega, by exact_mod_cast this⟩), hlat]
      dsimp only
      rw [if_neg (by omega)]
    · unfold NetClock.step
      simp only [hs, hlat, Option.getD_some, Int.toNat_natCast]
    · refine node_router h (n := { f.ts.sys.net with sender := upd f.ts.sys.net.sender t (.flying pk false) })
        (k := { f.clk with flight := upd f.clk.flight t (f.ts.now + q.noc) })
        ⟨h.netCrashed, fun _ _ => rfl, fun i hi => upd_ne _ _ _ _ hi, fun _ _ => rfl, fun _ _ => rfl, fun _ _ => rfl,
          fun _ _ => rfl, fun _ _ => rfl⟩ ⟨rfl, fun i hi => upd_ne _ _ _ _ hi, fun _ _ => rfl, fun _ _ => rfl⟩ ?_
      exact { hT with sender := ⟨pk, upd_same _ _ _, hpk, (upd_same _ _ _).trans (by rw [h.now])⟩ }
  · -- flying
    rename_i tg w d e
    rw [Option.ite_none_right_eq_some] at hd
    obtain ⟨hdn, hd⟩ := hd
    injection hd with hd
    subst hd
    rw [e] at hs
    obtain ⟨pk, hs, hpk, hfl⟩ := hs
    have hs : f.ts.sys.net.sender t = .flying pk false := hs
    have hfl : f.clk.flight t = d := hfl
    refine ⟨_, thread_act h ht (n' := { f.ts.sys.net with sender := upd f.ts.sys.net.sender t (.putting pk false) })
      (k' := { f.clk with arrived := upd f.clk.arrived t (f.clk.arrived t ++ [f.ts.now]) }) ?_ h.netCrashed ?_, ?_⟩
    · unfold Net.thread
      rw [if_neg hst', hs]
      dsimp only
      rw [if_pos]
      unfold NetConfig.hasBuffer
      rw [hpk.src, hpk.target]
      have h1 := hpk.lt
      have h2 := hpk.ne
      have h3 := ho.nodes
      have h4 : cfg.net.tiles ≤ cfg.net.nodes * cfg.net.tiles := Nat.le_mul_of_pos_left _ h3
      simp only [Bool.and_eq_true, decide_eq_true_eq, Int.toNat_natCast]
      refine ⟨⟨by omega, ?_⟩, by exact_mod_cast (Ne.symm h2)⟩
      have : t < cfg.net.nodes * cfg.net.tiles := by omega
      exact_mod_cast this
    · unfold NetClock.step
      simp only [hs]
      rw [if_pos (by rw [hfl, hdn, h.now])]
    · refine node_router h (n := { f.ts.sys.net with sender := upd f.ts.sys.net.sender t (.putting pk false) })
        (k := { f.clk with arrived := upd f.clk.arrived t (f.clk.arrived t ++ [f.ts.now]) })
        ⟨h.netCrashed, fun _ _ => rfl, fun i hi => upd_ne _ _ _ _ hi, fun _ _ => rfl, fun _ _ => rfl, fun _ _ => rfl,
          fun _ _ => rfl, fun _ _ => rfl⟩ ⟨rfl, fun _ _ => rfl, fun _ _ => rfl, fun _ _ => rfl⟩ ?_
      exact { hT with sender := ⟨pk, upd_same _ _ _, hpk⟩ }
  · cases hd
  · -- deposited
    rename_i tg w e
    injection hd with hd
    subst hd
    rw [e] at hs
    obtain ⟨pk, hs, hpk⟩ := hs
    have hs : f.ts.sys.net.sender t = .deposited pk false := hs
    have hsent : ∀ i, (upd f.ts.sys.net.stats tg { f.ts.sys.net.stats tg with
        received := (f.ts.sys.net.stats tg).received + 1 } i).sent = (f.ts.sys.net.stats i).sent := by
      intro i
      rw [upd_apply]
      split
      · rename_i hi; rw [hi]
      · rfl
    refine ⟨_, thread_act h ht (n' := { f.ts.sys.net with
        sender := upd f.ts.sys.net.sender t (.delivered pk false)
        stats := upd f.ts.sys.net.stats tg { f.ts.sys.net.stats tg with received := (f.ts.sys.net.stats tg).received + 1 } })
      (k' := f.clk) ?_ h.netCrashed ?_, ?_⟩
    · unfold Net.thread
      rw [if_neg hst', hs]
      dsimp only
      rw [hpk.target, Int.toNat_natCast]
    · unfold NetClock.step
      simp only [hs]
    · refine node_router h (n := { f.ts.sys.net with
          sender := upd f.ts.sys.net.sender t (.delivered pk false)
          stats := upd f.ts.sys.net.stats tg { f.ts.sys.net.stats tg with received := (f.ts.sys.net.stats tg).received + 1 } })
        (k := f.clk)
        ⟨h.netCrashed, fun _ _ => rfl, fun i hi => upd_ne _ _ _ _ hi, fun _ _ => rfl, fun _ _ => rfl, fun _ _ => rfl,
          fun _ _ => rfl, fun i _ => hsent i⟩ ClkFrame.refl ?_
      exact { hT with sender := ⟨pk, upd_same _ _ _, hpk⟩, sent := (hsent t).trans hT.sent }
  · -- delivered
    rename_i tg w e
    injection hd with hd
    subst hd
    rw [e] at hs
    obtain ⟨pk, hs, hpk⟩ := hs
    have hs : f.ts.sys.net.sender t = .delivered pk false := hs
    refine ⟨_, thread_act h ht (n' := { f.ts.sys.net with
        sender := upd f.ts.sys.net.sender t .idle
        stats := upd f.ts.sys.net.stats t ((f.ts.sys.net.stats t).addSent false) })
      (k' := { f.clk with done := upd f.clk.done t (f.clk.done t ++ [f.ts.now]) }) ?_ h.netCrashed ?_, ?_⟩
    · unfold Net.thread
      rw [if_neg hst', hs]
    · unfold NetClock.step
      simp only [hs]
    · refine node_router h (n := { f.ts.sys.net with
          sender := upd f.ts.sys.net.sender t .idle
          stats := upd f.ts.sys.net.stats t ((f.ts.sys.net.stats t).addSent false) })
        (k := { f.clk with done := upd f.clk.done t (f.clk.done t ++ [f.ts.now]) })
        ⟨h.netCrashed, fun _ _ => rfl, fun i hi => upd_ne _ _ _ _ hi, fun _ _ => rfl, fun _ _ => rfl, fun _ _ => rfl,
          fun _ _ => rfl, fun i hi => by
            show (upd f.ts.sys.net.stats t _ i).sent = _
            rw [upd_ne _ _ _ _ hi]⟩ ⟨rfl, fun _ _ => rfl, fun _ _ => rfl, fun _ _ => rfl⟩ ?_
      refine { hT with sender := upd_same _ _ _, sent := ?_ }
      show (upd f.ts.sys.net.stats t _ t).sent = x.sent + 1
      rw [upd_same]
      show (f.ts.sys.net.stats t).sent + 1 = _
      rw [show (f.ts.sys.net.stats t).sent = x.sent from hT.sent]

theorem node_put {dd w : Nat} (h : NodeR cfg cc p q size A f) (hx : A.tiles[t]? = some x) (hsd : x.sender = .putting dd w)
    (hst : x.stopper ≠ .stopped) (hd : A.put t x dd w = some A') :
    ∃ f', f.act cfg l (.t (.other (.thread t))) = some f' ∧ NodeR cfg cc p q size A' f' := by
  have hT := h.tiles t x hx
  have ht := h.lt hx
  have hst' : f.ts.sys.net.stopper t ≠ .stopped := by
    rw [show f.ts.sys.net.stopper t = x.stopper from hT.stopper]; exact hst
  have hs := hT.sender
  rw [hsd] at hs
  obtain ⟨pk, hs, hpk⟩ := hs
  have hs : f.ts.sys.net.sender t = .putting pk false := hs
  unfold DNode.put at hd
  split at hd
  · cases hd
  rename_i y hy
  split at hd
  rotate_left
  · cases hd
  rename_i hbuf
  rw [Option.ite_none_left_eq_some] at hd
  obtain ⟨hdt, hd⟩ := hd
  injection hd with hd
  subst hd
  have hY := h.tiles dd y hy
  have hb : f.ts.sys.net.buf dd t = [] := by
    have := hY.buf t
    rw [hbuf] at this
    exact List.map_eq_nil_iff.1 this
  let n' : Net := { f.ts.sys.net with
    buf := upd f.ts.sys.net.buf dd (upd (f.ts.sys.net.buf dd) t [pk.data])
    sender := upd f.ts.sys.net.sender t (.deposited pk false) }
  let k' : NetClock := { f.clk with put := upd f.clk.put t (f.clk.put t ++ [f.ts.now]) }
  refine ⟨_, thread_act h ht (n' := n') (k' := k') ?_ h.netCrashed ?_, ?_⟩
  · unfold Net.thread
    rw [if_neg hst', hs]
    dsimp only
    rw [hpk.target, hpk.src, Int.toNat_natCast, hb]
    rfl
  · unfold NetClock.step
    simp only [hs]
    rfl
  have hv : ∀ i, (f.putTile t (f.ts.sys.tile t) n' k').view i = { f.view i with sender := n'.sender i, buf := n'.buf i } := by
    intro i
    unfold FSys.view FSys.putTile
    rw [upd_keep]
  refine ⟨h.now, h.look, h.crashed, h.netCrashed, by rw [List.length_set, List.length_set]; exact h.len, fun i z hz => ?_⟩
  rw [hv i]
  by_cases hi : i = t
  · subst hi
    have hz : ((A.tiles.set dd { y with buf := y.buf.set i [w] }).set i { x with sender := .deposited dd w })[i]? = some z := hz
    rw [List.getElem?_set, if_pos rfl] at hz
    split at hz
    rotate_left
    · cases hz
    injection hz with hz
    subst hz
    refine { hT with sender := ⟨pk, upd_same _ _ _, hpk⟩, buf := ?_ }
    intro s
    show (upd f.ts.sys.net.buf dd _ i s).map List.length = _
    rw [upd_ne _ _ _ _ (Ne.symm hdt)]
    exact hT.buf s
  · have hz : ((A.tiles.set dd { y with buf := y.buf.set t [w] }).set t { x with sender := .deposited dd w })[i]? = some z := hz
    rw [List.getElem?_set, if_neg (Ne.symm hi)] at hz
    have hsi : n'.sender i = f.ts.sys.net.sender i := upd_ne _ _ _ _ hi
    rw [hsi]
    by_cases hid : i = dd
    · subst hid
      rw [List.getElem?_set, if_pos rfl] at hz
      split at hz
      rotate_left
      · cases hz
      injection hz with hz
      subst hz
      refine { hY with buflen := (List.length_set ..).trans hY.buflen, buf := ?_ }
      intro s
      show (upd f.ts.sys.net.buf i _ i s).map List.length = (y.buf.set t [w]).getD s []
      rw [upd_same]
      by_cases hss : s = t
      · subst hss
        rw [upd_same, List.getD_eq_getElem?_getD, List.getElem?_set_self (by rw [hY.buflen]; exact ht)]
        simp [hpk.len]
      · rw [upd_ne _ _ _ _ hss, List.getD_eq_getElem?_getD, List.getElem?_set_ne (Ne.symm hss), ← List.getD_eq_getElem?_getD]
        exact hY.buf s
    · rw [List.getElem?_set, if_neg (Ne.symm hid)] at hz
      have hbi : n'.buf i = f.ts.sys.net.buf i := upd_ne _ _ _ _ hid
      rw [hbi]
      exact h.tiles i z hz

end Ramwich
