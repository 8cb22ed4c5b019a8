import Verif.Lemmas.DryTiles
import Verif.Lemmas.SysOneReader

/-! # A dry run is a run -/
namespace Ramwich

open Pipeline (upd)
open Spec

variable {cfg : SysCfg} {cc : Config} {p : CoreParams}

structure TileRel (cfg : SysCfg) (cc : Config) (p : CoreParams) (size mask0 : Nat) (d : DryTile) (x : TileSt) : Prop where
  ctrl : CtrlQuiet size mask0 d.valid d.up x.ctrl
  len : d.cores.length = cfg.cores
  cores : ∀ (k : Nat) evs, d.cores[k]? = some evs → CoreRel cc p cfg.fl evs (x.core k)
  phase : x.phase = .ready
  ops : x.ops = d.ops
  down : d.up = false → d.ops = [] ∧ d.out = [] ∧ ∀ c ∈ d.cores, c = []

def outsOf (d : List DryTile) (t : Nat) : List (Nat × Nat) := (d[t]?.map DryTile.out).getD []

def upsOf (d : List DryTile) (t : Nat) : Bool := (d[t]?.map DryTile.up).getD true

theorem outsOf_set {d : List DryTile} {t : Nat} (ht : t < d.length) (x : DryTile) :
    outsOf (d.set t x) = upd (outsOf d) t x.out := by
  funext u
  unfold outsOf
  by_cases hu : u = t
  · subst hu; rw [upd_same, List.getElem?_set_self ht]; rfl
  · rw [upd_ne _ _ _ _ hu, List.getElem?_set_ne (Ne.symm hu)]

theorem upsOf_set {d : List DryTile} {t : Nat} (ht : t < d.length) (x : DryTile) :
    upsOf (d.set t x) = upd (upsOf d) t x.up := by
  funext u
  unfold upsOf
  by_cases hu : u = t
  · subst hu; rw [upd_same, List.getElem?_set_self ht]; rfl
  · rw [upd_ne _ _ _ _ hu, List.getElem?_set_ne (Ne.symm hu)]

theorem outsOf_some {d : List DryTile} {t : Nat} {x : DryTile} (h : d[t]? = some x) : outsOf d t = x.out := by
  unfold outsOf; rw [h]; rfl

theorem upsOf_some {d : List DryTile} {t : Nat} {x : DryTile} (h : d[t]? = some x) : upsOf d t = x.up := by
  unfold upsOf; rw [h]; rfl

structure SysRel (cfg : SysCfg) (cc : Config) (p : CoreParams) (size : Nat) (mask0 : Nat → Nat) (d : List DryTile) (s : Sys) :
    Prop where
  len : d.length = cfg.net.tiles
  crashed : s.crashed = none
  tile : ∀ (t : Nat) x, d[t]? = some x → TileRel cfg cc p size (mask0 t) x (s.tile t)
  net : NetRest cfg.net.tiles (outsOf d) (upsOf d) s.net

theorem lt_of_some {α : Type} {l : List α} {t : Nat} {x : α} (h : l[t]? = some x) : t < l.length :=
  (List.getElem?_eq_some_iff.1 h).1

/-- One tile and the routers change. -/
theorem SysRel.put {size : Nat} {mask0 : Nat → Nat} {d : List DryTile} {s : Sys} (h : SysRel cfg cc p size mask0 d s)
    {t : Nat} (ht : t < cfg.net.tiles) {x : DryTile} {y : TileSt} {n : Net} (hx : TileRel cfg cc p size (mask0 t) x y)
    (hn : NetRest cfg.net.tiles (upd (outsOf d) t x.out) (upd (upsOf d) t x.up) n) :
    SysRel cfg cc p size mask0 (d.set t x) (s.put t y n) := by
  have ht' : t < d.length := by rw [h.len]; exact ht
  refine ⟨by rw [List.length_set, h.len], rfl, ?_, by rw [outsOf_set ht', upsOf_set ht']; exact hn⟩
  intro u z hz
  by_cases hu : u = t
  · subst hu
    rw [List.getElem?_set_self ht'] at hz
    injection hz with hz
    subst hz
    rw [put_tile]
    exact hx
  · rw [List.getElem?_set_ne (Ne.symm hu)] at hz
    show TileRel cfg cc p size (mask0 u) z (upd s.tile t y u)
    rw [upd_ne _ _ _ _ hu]
    exact h.tile u z hz

theorem upd_out {d : List DryTile} {t : Nat} {x : DryTile} (h : d[t]? = some x) : upd (outsOf d) t x.out = outsOf d := by
  rw [← outsOf_some h, upd_self]

theorem upd_up {d : List DryTile} {t : Nat} {x : DryTile} (h : d[t]? = some x) : upd (upsOf d) t x.up = upsOf d := by
  rw [← upsOf_some h, upd_self]

theorem dry_core (hi : Instant cfg) (hpp : ParamsOf cc p) (he : Electrical cc.mvmuConfig) {lat dlat : Nat}
    (hlat : Latencies cc.mvmuConfig lat dlat) {size : Nat} {mask0 : Nat → Nat} {d : List DryTile} {s : Sys}
    (h : SysRel cfg cc p size mask0 d s) {t k : Nat} {x x' : DryTile} (hx : d[t]? = some x)
    (hm : x.coreMove size k = some x') : ∃ s', Reaches cfg s s' ∧ SysRel cfg cc p size mask0 (d.set t x') s' := by
  have ht : t < cfg.net.tiles := by rw [← h.len]; exact lt_of_some hx
  have hT := h.tile t x hx
  cases hk : x.cores[k]? with
  | none => unfold DryTile.coreMove at hm; rw [hk] at hm; cases hm
  | some l =>
    have hkc : k < cfg.cores := by rw [← hT.len]; exact lt_of_some hk
    cases l with
    | nil => unfold DryTile.coreMove at hm; rw [hk] at hm; cases hm
    | cons e evs =>
      have hup : x.up = true := by
        cases hu : x.up with
        | true => rfl
        | false => cases (hT.down hu).2.2 _ (List.mem_of_getElem? hk)
      have hc := hT.ctrl
      rw [hup] at hc
      obtain ⟨c', z, r, q1, q2, q3⟩ := move_core hi hpp he hlat s ht hkc (s.tile t) hc s.net hk hm (hT.cores k _ hk)
      rw [put_cc_self, put_self h.crashed] at r
      refine ⟨_, r, h.put ht ?_ ?_⟩
      · rw [q3]
        refine ⟨?_, ?_, ?_, hT.phase, hT.ops, ?_⟩
        · dsimp only
          rw [hup]
          exact q1
        · dsimp only
          rw [List.length_set]
          exact hT.len
        · intro j evs' hj
          dsimp only at hj
          by_cases hjk : j = k
          · subst hjk
            rw [List.getElem?_set_self (lt_of_some hk)] at hj
            injection hj with hj
            subst hj
            rw [cc_core]
            exact q2
          · rw [List.getElem?_set_ne (Ne.symm hjk)] at hj
            show CoreRel cc p cfg.fl evs' (upd (s.tile t).core k z j)
            rw [upd_ne _ _ _ _ hjk]
            exact hT.cores j evs' hj
        · intro hu
          dsimp only at hu
          rw [hup] at hu
          cases hu
      · rw [q3]
        dsimp only
        rw [upd_out hx, upd_up hx]
        exact h.net

theorem dry_tile (hi : Instant cfg) {size : Nat} {mask0 : Nat → Nat} {d d' : List DryTile} {s : Sys}
    (h : SysRel cfg cc p size mask0 d s) {t : Nat} (hm : dryStep size d (.tile t) = some d') :
    ∃ s', Reaches cfg s s' ∧ SysRel cfg cc p size mask0 d' s' := by
  unfold dryStep at hm
  dsimp only at hm
  cases hx : d[t]? with
  | none => rw [hx] at hm; cases hm
  | some x =>
  rw [hx] at hm
  dsimp only at hm
  have ht : t < cfg.net.tiles := by rw [← h.len]; exact lt_of_some hx
  have ht' : t < d.length := lt_of_some hx
  have hT := h.tile t x hx
  have hup : x.ops ≠ [] → x.up = true := by
    intro hne
    cases hu : x.up with
    | true => rfl
    | false => exact absurd (hT.down hu).1 hne
  split at hm
  · rename_i addr target width vec rest hops
    split at hm
    · rename_i hc
      obtain ⟨c1, c2, c3, c4, c5, c6, c7⟩ := hc
      injection hm with hm
      have hup := hup (by rw [hops]; simp)
      have hcq := hT.ctrl
      rw [hup] at hcq
      obtain ⟨addr, rfl⟩ := Int.eq_ofNat_of_zero_le c1
      rw [h.len] at c3
      obtain ⟨c', log, n', r, q1, q2⟩ := move_send hi s ht c2 c3 c4 c5 c6 (by rw [upsOf_some hx]; exact hup) hcq
        (has_bit c7) hT.phase (hT.ops.trans hops) h.net
      rw [put_self h.crashed] at r
      refine ⟨_, r, ?_⟩
      rw [← hm]
      refine h.put ht ⟨by dsimp only; rw [hup]; exact q1, hT.len, hT.cores, hT.phase, rfl, ?_⟩ ?_
      · intro hu; dsimp only at hu; rw [hup] at hu; cases hu
      · dsimp only
        rw [upd_up hx, ← outsOf_some hx]
        exact q2
    · cases hm
  · rename_i addr source width vec rest hops
    cases hy : d[source.toNat]? with
    | none => rw [hy] at hm; cases hm
    | some y =>
    rw [hy] at hm
    dsimp only at hm
    split at hm
    · rename_i hc
      obtain ⟨c1, c2, c3, c4, c5, c6, c7⟩ := hc
      injection hm with hm
      have hup := hup (by rw [hops]; simp)
      have hcq := hT.ctrl
      rw [hup] at hcq
      obtain ⟨addr, rfl⟩ := Int.eq_ofNat_of_zero_le c1
      obtain ⟨src, rfl⟩ := Int.eq_ofNat_of_zero_le c2
      obtain ⟨w, rfl⟩ := Int.eq_ofNat_of_zero_le c4.le
      obtain ⟨v, rfl⟩ := Int.eq_ofNat_of_zero_le c5.le
      simp only [Int.toNat_natCast] at hy c6
      have hs : src < d.length := lt_of_some hy
      have hne : src ≠ t := by omega
      have hwv : ((w : Int) * (v : Int)).toNat = w * v := by
        rw [← Int.natCast_mul, Int.toNat_natCast]
      rw [Int.toNat_natCast, hwv] at c7
      have hyo : y.out = List.replicate v (t, w) ++ y.out.drop v := by
        rw [← c6, List.take_append_drop]
      have hyu : y.up = true := by
        cases hu : y.up with
        | true => rfl
        | false =>
          have := ((h.tile src y hy).down hu).2.1
          rw [this] at hyo
          have h0 : 0 < v := by omega
          obtain ⟨v', rfl⟩ : ∃ v', v = v' + 1 := ⟨v - 1, by omega⟩
          rw [List.replicate_succ] at hyo
          cases hyo
      obtain ⟨c', log, n', r, q1, q2⟩ := move_recv hi s ht (by rw [← h.len]; exact hs) hne (by rw [upsOf_some hy]; exact hyu)
        hcq c7.1 (free_bit c7) hT.phase (hT.ops.trans hops) ((outsOf_some hy).trans hyo) h.net
      rw [put_self h.crashed] at r
      refine ⟨_, r, ?_⟩
      rw [← hm]
      have hmid : ((d.set src { y with out := y.out.drop v }) : List DryTile)[t]? = some x := by
        rw [List.getElem?_set_ne hne]; exact hx
      have hmidT : ∀ (u : Nat) z, (d.set src { y with out := y.out.drop v })[u]? = some z →
          TileRel cfg cc p size (mask0 u) z (s.tile u) := by
        intro u z hz
        by_cases hu : u = src
        · subst hu
          rw [List.getElem?_set_self hs] at hz
          injection hz with hz
          subst hz
          have hY := h.tile u y hy
          refine ⟨hY.ctrl, hY.len, hY.cores, hY.phase, hY.ops, ?_⟩
          intro hd
          dsimp only at hd
          rw [hyu] at hd
          cases hd
        · rw [List.getElem?_set_ne (Ne.symm hu)] at hz
          exact h.tile u z hz
      simp only [Int.toNat_natCast, hwv]
      have hrel : TileRel cfg cc p size (mask0 t) { x with ops := rest, valid := x.valid ||| span addr (w * v) }
          { s.tile t with ctrl := c', ops := rest, log := log } := by
        refine ⟨by dsimp only; rw [hup]; exact q1, hT.len, hT.cores, hT.phase, rfl, ?_⟩
        intro hu; dsimp only at hu; rw [hup] at hu; cases hu
      have ht'' : t < (d.set src { y with out := y.out.drop v }).length := by rw [List.length_set]; exact ht'
      refine ⟨by rw [List.length_set, List.length_set, h.len], rfl, ?_, ?_⟩
      · intro u z hz
        by_cases hu : u = t
        · subst hu
          rw [List.getElem?_set_self ht''] at hz
          injection hz with hz
          subst hz
          rw [put_tile]
          exact hrel
        · rw [List.getElem?_set_ne (Ne.symm hu)] at hz
          show TileRel cfg cc p size (mask0 u) z (upd s.tile t _ u)
          rw [upd_ne _ _ _ _ hu]
          exact hmidT u z hz
      · rw [outsOf_set ht'', upsOf_set ht'']
        dsimp only
        rw [upd_out hmid, upd_up hmid, outsOf_set hs, upsOf_set hs]
        dsimp only
        rw [upd_up hy]
        exact q2
    · cases hm
  · rename_i hops
    split at hm
    · rename_i hc
      obtain ⟨c1, c2⟩ := hc
      injection hm with hm
      have hup := hup (by rw [hops]; simp)
      have hcq := hT.ctrl
      rw [hup] at hcq
      have hk : ∀ k < cfg.cores, ((s.tile t).core k).phase = .halted := by
        intro k hk
        rw [← hT.len] at hk
        have h1 := List.getElem?_eq_getElem hk
        have h2 := c2 _ (List.mem_of_getElem? h1)
        rcases hT.cores k _ h1 with ⟨-, h3⟩ | ⟨-, K, -, h3⟩
        · exact h3
        · rw [h2] at h3
          exact absurd h3 (trace_ne_nil p _ K)
      obtain ⟨c', log, n', r, q1, q2⟩ := move_halt s ht (by rw [upsOf_some hx]; exact hup) hcq hT.phase
        (hT.ops.trans hops) hk (by rw [outsOf_some hx]; exact c1) h.net
      rw [put_self h.crashed] at r
      refine ⟨_, r, ?_⟩
      rw [← hm]
      refine h.put ht ⟨q1, hT.len, hT.cores, hT.phase, rfl, fun _ => ⟨rfl, c1, c2⟩⟩ ?_
      dsimp only
      rw [upd_out hx]
      exact q2
    · cases hm
  · cases hm

end Ramwich
