import Verif.Lemmas.WaitTiles

/-! # Moves with processes that wait are a run -/
namespace Ramwich

open Pipeline (upd)
open Spec

variable {cfg : SysCfg} {cc : Config} {p : CoreParams} {size : Nat}

structure SysRelW (cfg : SysCfg) (cc : Config) (p : CoreParams) (size : Nat) (d : List WaitTile) (s : Sys) : Prop where
  len : d.length = cfg.net.tiles
  crashed : s.crashed = none
  tile : ∀ (t : Nat) x, d[t]? = some x → TileRelW cfg cc p size t x (s.tile t)
  net : NetRest cfg.net.tiles (outsOf (d.map WaitTile.dry)) (upsOf (d.map WaitTile.dry)) s.net

theorem after_dry (w : WaitTile) (x : DryTile) : (w.after x).dry = x := by
  unfold WaitTile.after
  split <;> rfl

theorem after_self (w : WaitTile) : w.after w.dry = w := by
  unfold WaitTile.after
  rw [if_pos rfl]

theorem map_dry {d : List WaitTile} {t : Nat} {x : WaitTile} (h : d[t]? = some x) :
    (d.map WaitTile.dry)[t]? = some x.dry := by rw [List.getElem?_map, h]; rfl

theorem SysRelW.put {d : List WaitTile} {s : Sys} (h : SysRelW cfg cc p size d s)
    {t : Nat} (ht : t < cfg.net.tiles) {x : WaitTile} {y : TileSt} {n : Net} (hx : TileRelW cfg cc p size t x y)
    (hn : NetRest cfg.net.tiles (upd (outsOf (d.map WaitTile.dry)) t x.dry.out) (upd (upsOf (d.map WaitTile.dry)) t x.dry.up) n) :
    SysRelW cfg cc p size (d.set t x) (s.put t y n) := by
  have ht' : t < d.length := by rw [h.len]; exact ht
  have ht'' : t < (d.map WaitTile.dry).length := by rw [List.length_map]; exact ht'
  refine ⟨by rw [List.length_set, h.len], rfl, ?_, by rw [List.map_set, outsOf_set ht'', upsOf_set ht'']; exact hn⟩
  intro u z hz
  by_cases hu : u = t
  · subst hu
    rw [List.getElem?_set_self ht'] at hz
    injection hz with hz
    subst hz
    rw [put_tile]
    exact hx
  · rw [List.getElem?_set_ne (Ne.symm hu)] at hz
    show TileRelW cfg cc p size u z (upd s.tile t y u)
    rw [upd_ne _ _ _ _ hu]
    exact h.tile u z hz

theorem zip_set {d : List WaitTile} {t : Nat} {x : WaitTile} (h : d[t]? = some x) (y : DryTile) :
    ((d.zip ((d.map WaitTile.dry).set t y)).map fun q => q.1.after q.2) = d.set t (x.after y) := by
  refine List.ext_getElem? fun u => ?_
  by_cases hu : u = t
  · subst hu
    have hl := lt_of_some h
    rw [List.getElem?_map, List.getElem?_set_self hl, (List.getElem?_zip_eq_some (z := (x, y))).2 ⟨h, List.getElem?_set_self (by
      rw [List.length_map]; exact hl)⟩]
    rfl
  · rw [List.getElem?_map, List.getElem?_set_ne (Ne.symm hu)]
    cases hz : d[u]? with
    | none =>
      have : (d.zip ((d.map WaitTile.dry).set t y))[u]? = none := by
        rw [List.getElem?_eq_none_iff] at hz ⊢
        rw [List.length_zip]
        omega
      rw [this]; rfl
    | some z =>
      rw [(List.getElem?_zip_eq_some (z := (z, z.dry))).2 ⟨hz, by rw [List.getElem?_set_ne (Ne.symm hu)]; exact map_dry hz⟩]
      dsimp only [Option.map_some]
      rw [after_self]

theorem zip_set_set {d : List WaitTile} {t v : Nat} {x z : WaitTile} (h : d[t]? = some x) (hv : d[v]? = some z) (hne : v ≠ t)
    (y yv : DryTile) (hyv : yv.valid = z.dry.valid) :
    ((d.zip (((d.map WaitTile.dry).set v yv).set t y)).map fun q => q.1.after q.2) =
      (d.set v { z with dry := yv }).set t (x.after y) := by
  have h1 := zip_set (d := d.set v { z with dry := yv }) (t := t) (x := x) (by
    rw [List.getElem?_set_ne hne]; exact h) y
  rw [← h1, List.map_set]
  refine List.ext_getElem? fun u => ?_
  rw [List.getElem?_map, List.getElem?_map]
  by_cases hu : u = v
  · subst hu
    have hl := lt_of_some hv
    rw [(List.getElem?_zip_eq_some (z := (z, yv))).2 ⟨hv, by
      rw [List.getElem?_set_ne (Ne.symm hne), List.getElem?_set_self (by rw [List.length_map]; exact hl)]⟩,
      (List.getElem?_zip_eq_some (z := ({ z with dry := yv }, yv))).2 ⟨List.getElem?_set_self hl, by
      rw [List.getElem?_set_ne (Ne.symm hne), List.getElem?_set_self (by rw [List.length_map]; exact hl)]⟩]
    simp only [Option.map_some, Option.some.injEq]
    unfold WaitTile.after
    rw [if_pos hyv, if_pos rfl]
  · congr 1
    rw [List.zip_eq_zipWith, List.zip_eq_zipWith, List.getElem?_zipWith, List.getElem?_zipWith, List.getElem?_set_ne (Ne.symm hu)]

/-- One move of a tile process. -/
theorem wait_tile (hi : Instant cfg) {d d' : List WaitTile} {s : Sys} (h : SysRelW cfg cc p size d s) {t : Nat}
    (hm : waitStep size d (.go (.tile t)) = some d') : ∃ s', Reaches cfg s s' ∧ SysRelW cfg cc p size d' s' := by
  unfold waitStep at hm
  dsimp only at hm
  cases hx : d[t]? with
  | none => rw [hx] at hm; cases hm
  | some x =>
  rw [hx] at hm
  dsimp only at hm
  split at hm
  · cases hm
  rename_i hnw
  rw [not_or] at hnw
  obtain ⟨hq, hs⟩ := hnw
  obtain ⟨ys, hm, hd'⟩ := Option.map_eq_some_iff.1 hm
  have hxd := map_dry hx
  have hdl : (d.map WaitTile.dry).length = cfg.net.tiles := by rw [List.length_map, h.len]
  have ht : t < cfg.net.tiles := by rw [← h.len]; exact lt_of_some hx
  have hT := h.tile t x hx
  have hu := upsOf_some hxd
  have ho := outsOf_some hxd
  unfold dryStep at hm
  dsimp only at hm
  rw [hxd] at hm
  dsimp only at hm
  split at hm
  · rename_i addr target width vec rest hops
    split at hm
    · rename_i hc
      obtain ⟨c1, c2, c3, c4, c5, c6, c7⟩ := hc
      injection hm with hm
      obtain ⟨addr, rfl⟩ := Int.eq_ofNat_of_zero_le c1
      rw [hdl] at c3
      obtain ⟨x', n', r, q1, q2⟩ := wait_send hi h.crashed ht hT hq hs h.net hu hops c2 c3 c4 c5 c6 c7
      refine ⟨_, r, ?_⟩
      rw [← hd', ← hm, zip_set hx]
      refine h.put ht q1 ?_
      rw [after_dry]
      dsimp only
      rw [← hu, upd_self, ← ho]
      exact q2
    · cases hm
  · rename_i addr source width vec rest hops
    cases hy : (d.map WaitTile.dry)[source.toNat]? with
    | none => rw [hy] at hm; cases hm
    | some y =>
    rw [hy] at hm
    dsimp only at hm
    split at hm
    · rename_i hc
      obtain ⟨c1, c2, c3, c4, c5, c6, c7⟩ := hc
      injection hm with hm
      obtain ⟨addr, rfl⟩ := Int.eq_ofNat_of_zero_le c1
      obtain ⟨src, rfl⟩ := Int.eq_ofNat_of_zero_le c2
      obtain ⟨w, rfl⟩ := Int.eq_ofNat_of_zero_le c4.le
      obtain ⟨v, rfl⟩ := Int.eq_ofNat_of_zero_le c5.le
      simp only [Int.toNat_natCast] at hy c6
      have hs' : src < cfg.net.tiles := by rw [← hdl]; exact lt_of_some hy
      have hne : src ≠ t := by omega
      obtain ⟨z, hz⟩ : ∃ z, d[src]? = some z := ⟨_, List.getElem?_eq_getElem (by rw [h.len]; exact hs')⟩
      have hzy := map_dry hz
      rw [hy] at hzy
      injection hzy with hzy
      subst hzy
      have hwv : ((w : Int) * (v : Int)).toNat = w * v := by
        rw [← Int.natCast_mul, Int.toNat_natCast]
      rw [Int.toNat_natCast, hwv] at c7
      have hyo : z.dry.out = List.replicate v (t, w) ++ z.dry.out.drop v := by
        rw [← c6, List.take_append_drop]
      have h0 : 0 < v := by omega
      have hyu : z.dry.up = true := by
        cases hu : z.dry.up with
        | true => rfl
        | false =>
          have := ((h.tile src z hz).down hu).2.1
          rw [this] at hyo
          obtain ⟨v', rfl⟩ : ∃ v', v = v' + 1 := ⟨v - 1, by omega⟩
          rw [List.replicate_succ] at hyo
          cases hyo
      obtain ⟨x', n', r, q1, q2⟩ := wait_recv hi h.crashed ht hT hq hs h.net hs' hne (by rw [upsOf_some hy]; exact hyu) hops
        (Nat.mul_pos (by omega) h0) c7 ((outsOf_some hy).trans hyo)
      refine ⟨_, r, ?_⟩
      rw [← hd', ← hm]
      simp only [Int.toNat_natCast, hwv]
      rw [zip_set_set hx hz hne _ { z.dry with out := z.dry.out.drop v } rfl]
      have hmid : SysRelW cfg cc p size (d.set src { z with dry := { z.dry with out := z.dry.out.drop v } })
          (s.put t (s.tile t) n') := by
        refine ⟨by rw [List.length_set, h.len], rfl, ?_, ?_⟩
        · intro u z' hz'
          show TileRelW cfg cc p size u z' (upd s.tile t (s.tile t) u)
          rw [upd_self]
          by_cases hus : u = src
          · subst hus
            rw [List.getElem?_set_self (lt_of_some hz)] at hz'
            injection hz' with hz'
            subst hz'
            have hZ := h.tile u z hz
            have hAsk : ∀ q r, Asks cfg cc p u z.dry (s.tile u) q r →
                Asks cfg cc p u { z.dry with out := z.dry.out.drop v } (s.tile u) q r := by
              intro q r ha
              cases q <;> exact ha
            obtain ⟨P, e1, e2⟩ := hZ.ctrl
            refine ⟨⟨P, e1, forall_imp e2 fun a _ b _ => hAsk a b⟩, ?_, hZ.nodup, hZ.len, ?_, ?_⟩
            · intro q hq
              obtain ⟨r, data, f1, f2, f3⟩ := hZ.served q hq
              exact ⟨r, data, hAsk q r f1, f2, f3⟩
            · intro q f1 f2
              have := hZ.free q f1 f2
              cases q <;> exact this
            · intro hd
              dsimp only at hd
              rw [hyu] at hd
              cases hd
          · rw [List.getElem?_set_ne (Ne.symm hus)] at hz'
            exact h.tile u z' hz'
        · have hsl : src < (d.map WaitTile.dry).length := lt_of_some hy
          rw [List.map_set, outsOf_set hsl, upsOf_set hsl]
          dsimp only
          rw [upd_up hy]
          exact q2
      have hfin := hmid.put ht q1 (n := n') (by
        have hsl : src < (d.map WaitTile.dry).length := lt_of_some hy
        have e1 : ((d.set src { z with dry := { z.dry with out := z.dry.out.drop v } }).map WaitTile.dry)[t]? = some x.dry := by
          rw [List.getElem?_map, List.getElem?_set_ne hne, hx]; rfl
        rw [after_dry]
        dsimp only
        rw [upd_out e1, upd_up e1]
        exact hmid.net)
      have e2 : (s.put t (s.tile t) n').put t x' n' = s.put t x' n' := by
        unfold Sys.put
        dsimp only
        rw [upd_twice]
      rw [e2] at hfin
      exact hfin
    · cases hm
  · rename_i hops
    split at hm
    · rename_i hc
      obtain ⟨c1, c2⟩ := hc
      injection hm with hm
      obtain ⟨x', n', r, q1, q2⟩ := wait_halt h.crashed ht hT hq hs h.net hu ho hops c1 c2
      refine ⟨_, r, ?_⟩
      rw [← hd', ← hm, zip_set hx]
      refine h.put ht q1 ?_
      rw [after_dry]
      dsimp only
      rw [upd_out hxd]
      exact q2
    · cases hm
  · cases hm

/-- One move. -/
theorem wait_step (hi : Instant cfg) (hpp : ParamsOf cc p) (he : Electrical cc.mvmuConfig) {lat dlat : Nat}
    (hlat : Latencies cc.mvmuConfig lat dlat) {d d' : List WaitTile} {s : Sys} (h : SysRelW cfg cc p size d s) {m : WaitMove}
    (hm : waitStep size d m = some d') : ∃ s', Reaches cfg s s' ∧ SysRelW cfg cc p size d' s' := by
  cases m with
  | go m =>
    cases m with
    | tile t => exact wait_tile hi h hm
    | core t k =>
      unfold waitStep at hm
      dsimp only at hm
      cases hx : d[t]? with
      | none => rw [hx] at hm; cases hm
      | some x =>
      rw [hx] at hm
      dsimp only at hm
      split at hm
      · cases hm
      rename_i hnw
      rw [not_or] at hnw
      obtain ⟨hq, hs⟩ := hnw
      obtain ⟨y, hm, hd'⟩ := Option.map_eq_some_iff.1 hm
      have ht : t < cfg.net.tiles := by rw [← h.len]; exact lt_of_some hx
      obtain ⟨x', r, q1, q2, q3⟩ := wait_core hi hpp he hlat h.crashed ht (h.tile t x hx) hq hs hm
      refine ⟨_, r, ?_⟩
      rw [← hd']
      refine h.put ht q1 ?_
      rw [after_dry, q2, q3, upd_out (map_dry hx), upd_up (map_dry hx)]
      exact h.net
  | ask t w =>
    unfold waitStep at hm
    dsimp only at hm
    cases hx : d[t]? with
    | none => rw [hx] at hm; cases hm
    | some x =>
    rw [hx] at hm
    dsimp only at hm
    cases hw : x.dry.wants w with
    | none => rw [hw] at hm; cases hm
    | some an =>
    obtain ⟨a, n⟩ := an
    rw [hw] at hm
    dsimp only at hm
    split at hm
    · rename_i hc
      obtain ⟨hq, hs, hno, hsz, hca⟩ := hc
      injection hm with hm
      have ht : t < cfg.net.tiles := by rw [← h.len]; exact lt_of_some hx
      have key : ∃ x', Reaches cfg s (s.put t x' s.net) ∧
          TileRelW cfg cc p size t { x with waiting := x.waiting ++ [w] } x' := by
        cases w with
        | core k => exact ask_core hi hpp he hlat h.crashed ht (h.tile t x hx) hq hs hw hno hsz
        | tile =>
          simp only [DryTile.canAsk] at hca
          split at hca
          · rename_i addr target width vec rest hops
            obtain ⟨c1, c2, c3, c4, c5, c6⟩ := hca
            obtain ⟨addr, rfl⟩ := Int.eq_ofNat_of_zero_le c1
            rw [h.len] at c3
            simp only [DryTile.wants, hops, Int.toNat_natCast, Option.some.injEq, Prod.mk.injEq] at hw
            obtain ⟨rfl, rfl⟩ := hw
            exact ask_tile hi h.crashed ht (h.tile t x hx) hq hs hops c2 c3 c4 c5 c6 hno hsz
          · exact hca.elim
      obtain ⟨x', r, q1⟩ := key
      refine ⟨_, r, ?_⟩
      rw [← hm]
      refine h.put ht q1 ?_
      dsimp only
      rw [upd_out (map_dry hx), upd_up (map_dry hx)]
      exact h.net
    · cases hm
  | resume t w =>
    unfold waitStep at hm
    dsimp only at hm
    cases hx : d[t]? with
    | none => rw [hx] at hm; cases hm
    | some x =>
    rw [hx] at hm
    dsimp only at hm
    split at hm
    · rename_i hs
      obtain ⟨y, hm, hd'⟩ := Option.map_eq_some_iff.1 hm
      have ht : t < cfg.net.tiles := by rw [← h.len]; exact lt_of_some hx
      have hu := upsOf_some (map_dry hx)
      have ho := outsOf_some (map_dry hx)
      have key : ∃ x' n', Reaches cfg s (s.put t x' n') ∧
          TileRelW cfg cc p size t { x with dry := y, served := x.served.erase w } x' ∧
          NetRest cfg.net.tiles (upd (outsOf (d.map WaitTile.dry)) t y.out) (upsOf (d.map WaitTile.dry)) n' ∧ y.up = x.dry.up := by
        cases w with
        | core k =>
          obtain ⟨x', r, q1, q2, q3⟩ := resume_core hi h.crashed ht (h.tile t x hx) hs hm
          exact ⟨x', s.net, r, q1, by rw [q2, upd_out (map_dry hx)]; exact h.net, q3⟩
        | tile => exact resume_tile hi h.crashed ht (h.tile t x hx) hs h.net hu ho hm
      obtain ⟨x', n', r, q1, q2, q3⟩ := key
      refine ⟨_, r, ?_⟩
      rw [← hd']
      refine h.put ht q1 ?_
      dsimp only
      rw [q3, upd_up (map_dry hx)]
      exact q2
    · cases hm

theorem wait_run (hi : Instant cfg) (hpp : ParamsOf cc p) (he : Electrical cc.mvmuConfig) {lat dlat : Nat}
    (hlat : Latencies cc.mvmuConfig lat dlat) (ms : List WaitMove) :
    ∀ {d d' : List WaitTile} {s : Sys}, SysRelW cfg cc p size d s → waitRun size d ms = some d' →
      ∃ s', Reaches cfg s s' ∧ SysRelW cfg cc p size d' s' := by
  induction ms with
  | nil =>
    intro d d' s h hr
    injection hr with hr
    subst hr
    exact ⟨s, .refl _ _, h⟩
  | cons m ms ih =>
    intro d d' s h hr
    simp only [waitRun] at hr
    cases hm : waitStep size d m with
    | none => rw [hm] at hr; cases hr
    | some d1 =>
      rw [hm] at hr
      obtain ⟨s1, r1, k1⟩ := wait_step hi hpp he hlat h hm
      obtain ⟨s2, r2, k2⟩ := ih k1 hr
      exact ⟨s2, r1.trans r2, k2⟩

/-- Before the first move nobody waits. -/
theorem wait_start {mask0 : Nat → Nat} {d : List DryTile} {s : Sys} (h : SysRel cfg cc p size mask0 d s) :
    SysRelW cfg cc p size (d.map fun x => { dry := x }) s := by
  have hmm : (d.map fun x => ({ dry := x } : WaitTile)).map WaitTile.dry = d := by
    rw [List.map_map]
    exact List.map_id' d
  refine ⟨by rw [List.length_map, h.len], h.crashed, ?_, by rw [hmm]; exact h.net⟩
  intro t x hx
  rw [List.getElem?_map] at hx
  obtain ⟨y, hy, rfl⟩ := Option.map_eq_some_iff.1 hx
  have hT := h.tile t y hy
  have hc := hT.ctrl
  refine ⟨⟨[], ⟨hc.crashed, hc.queue, hc.handed, hc.pending, hc.bus, hc.deadline, hc.running, hc.alive, hc.msize, hc.clen,
    hc.vlen, hc.bits, hc.bound, hc.ids, ?_, ?_, ?_⟩, .nil⟩, ?_, ?_, hT.len, ?_, hT.down⟩
  · intro r hr; cases hr
  · intro r hr; cases hr
  · exact List.nodup_nil
  · intro q hq; cases hq
  · exact List.nodup_nil
  · intro q _ _
    cases q with
    | tile => exact ⟨hT.phase, hT.ops⟩
    | core k => exact hT.cores k

end Ramwich
