import Verif.Spec.DataFree
import Verif.Lemmas.SysDet

/-! # The shapes of the transfers of a tile do not depend on data or time -/
namespace Ramwich

open Spec

@[simp] theorem blank_length (l : List I32) : (blank l).length = l.length := by simp [blank]

theorem blank_eq {l l' : List I32} (h : l.length = l'.length) : blank l = blank l' := by
  simp [blank, List.map_const', h]

theorem blankRows_eq {rows rows' : List (List I32)} {w v : Int} (h : (rows.length : Int) = v ∧ ∀ r ∈ rows, (r.length : Int) = w)
    (h' : (rows'.length : Int) = v ∧ ∀ r ∈ rows', (r.length : Int) = w) : rows.map blank = rows'.map blank := by
  have key : ∀ rows : List (List I32), (∀ r ∈ rows, (r.length : Int) = w) →
      rows.map blank = List.replicate rows.length (List.replicate w.toNat 0) := by
    intro rows h
    rw [List.eq_replicate_iff]
    refine ⟨by simp, fun b hb => ?_⟩
    obtain ⟨r, hr, rfl⟩ := List.mem_map.1 hb
    have := h r hr
    simp only [blank, List.map_const']
    congr 1
    omega
  rw [key rows h.2, key rows' h'.2]
  congr 1
  have := h.1
  have := h'.1
  omega

theorem tileNext_blank {ops : List TileOp} {got : List (List I32)} {e : TileEv} {st : List TileOp × List (List I32)}
    (h : tileNext (ops, got) e = some st) :
    tileNext (ops, got.map blank) (blankEv e) = some (st.1, st.2.map blank) := by
  rcases tileNext_cases h with ⟨a, t, w, v, rows, rest, rfl, rfl, rfl, rfl⟩ |
    ⟨a, s, w, v, x, rest, rfl, rfl, h1, rfl⟩ | ⟨a, s, w, v, rest, rfl, rfl, h1, rfl⟩ | ⟨rest, rfl, rfl, rfl, rfl⟩
  · simp [tileNext, blankEv]
  · by_cases hx : (x.length : Int) = w
    · simp [tileNext, blankEv, h1, hx]
    · simp [tileNext, blankEv, h1, hx]
  · simp only [tileNext, blankEv, List.length_map]
    simp [h1]
  · simp [tileNext, blankEv]

theorem tileRan_blank (log : List TileEv) : ∀ {ops : List TileOp} {got : List (List I32)}
    {st : List TileOp × List (List I32)}, tileRan (ops, got) log = some st →
    tileRan (ops, got.map blank) (log.map blankEv) = some (st.1, st.2.map blank) := by
  induction log with
  | nil => intro ops got st h; injection h with h; subst h; rfl
  | cons e log ih =>
    intro ops got st h
    obtain ⟨⟨ops1, got1⟩, h1, h2⟩ := tileRan_cons h
    simp only [List.map_cons, tileRan, tileNext_blank h1, Option.bind_some]
    exact ih h2

theorem rowsTo_blank (d : Nat) (log : List TileEv) : rowsTo d (log.map blankEv) = (rowsTo d log).map blank := by
  unfold rowsTo
  rw [List.flatMap_map, List.map_flatMap]
  congr 1
  funext e
  cases e <;> simp only [blankEv, List.map_nil]
  split <;> rfl

theorem rowsFrom_blank (i : Nat) (log : List TileEv) : rowsFrom i (log.map blankEv) = (rowsFrom i log).map blank := by
  unfold rowsFrom
  rw [List.flatMap_map, List.map_flatMap]
  congr 1
  funext e
  cases e <;> simp only [blankEv, List.map_nil]
  split <;> rfl

theorem answer_read_length {cfg : SysCfg} {i : SysInit} {s : Sys} (h0 : ∀ t, GoodStart (i.mem t) (i.valid t))
    (hs : SysInv cfg i s) {t : Nat} {r : Req} {tm : Nat} {data : List I32} {w v : Int}
    (hm : .read r tm data ∈ (s.tile t).ctrl.answers) (hk : r.kind = .read w v) : data.length = (w * v).toNat := by
  obtain ⟨before, after, hl⟩ := List.append_of_mem hm
  have g := (ctrlInv_of (h0 t) (hs.tile t).ctrl).ans.reads before r tm data after hl
  rw [g.value, List.length_map, List.length_range]
  simp only [Req.length, hk]

theorem reshape_shape {w v : Int} (hw : 0 ≤ w) (hv : 0 ≤ v) {data : List I32} (h : data.length = (w * v).toNat) :
    ((reshape v.toNat w.toNat data).length : Int) = v ∧
      ∀ r ∈ reshape v.toNat w.toNat data, (r.length : Int) = w := by
  have hd : data.length = w.toNat * v.toNat := by rw [h, Int.toNat_mul hw hv]
  refine ⟨by rw [reshape_length]; omega, fun r hr => ?_⟩
  have := reshape_rows _ _ _ hd r hr
  omega

/-- The shapes of what the tile processes of `s` have done are the beginning of those of `F`. -/
def shapesLe (s F : Sys) : Prop := ∀ t, (s.tile t).log.map blankEv <+: (F.tile t).log.map blankEv

theorem shapesLe_step {cfg cfg' : SysCfg} {i i' : SysInit} {s s' F : Sys} (htiles : cfg'.net.tiles = cfg.net.tiles)
    (hops : ∀ t, i'.ops t = i.ops t)
    (h0 : ∀ t, GoodStart (i.mem t) (i.valid t)) (h0' : ∀ t, GoodStart (i'.mem t) (i'.valid t))
    (hs : SysInv cfg' i' s) (hF : SysInv cfg i F) (hf : finished cfg F)
    (hle : shapesLe s F) (st : SysStep cfg' s s') : shapesLe s' F := by
  intro t
  rcases st.tile t with ⟨h1, -⟩ | ⟨ht, h1⟩
  · rw [h1]; exact hle t
  rw [htiles] at ht
  have htile := (hs.tile t).tile
  have hl := hle t
  have hreader : (s.net.view t).reader = s.net.reader t := rfl
  have hrows := fun a => rows_prefix hs a t
  have hranF := tileRan_blank _ (finished_tile hF hf ht).1
  have hci := ctrlInv_of (h0' t) (hs.tile t).ctrl
  rw [← hops] at hranF
  generalize hx' : s'.tile t = x' at h1 ⊢
  generalize hvv : s.net.view t = v at *
  generalize s'.net.view t = v' at h1
  cases h1 with
  | sendGot id addr target width vec data hp ha hw hv' =>
    rw [hp] at htile
    obtain ⟨rs, got, h5, h6, h7, r0, h8, h9, h10, h11⟩ := htile.ran
    obtain ⟨e, st1, h12, h13⟩ := tile_next hl (tileRan_blank _ h5) (by dsimp only; rw [h6]; simp) hranF
    obtain ⟨r, tm, hr1, hr2⟩ := readAnswer_mem ha
    have hr : r = r0 := answer_unique hci.line hr1 hr2 h8
    subst hr
    have hmem : e ∈ (F.tile t).log.map blankEv := h12.subset (by simp)
    dsimp only at h13
    rw [h6] at h13
    rcases tileNext_cases h13 with ⟨a, tg, w, v, rows, rest, he, -, rfl, -⟩ |
      ⟨a, s, w, v, x, rest, he, -⟩ | ⟨a, s, w, v, rest, he, -⟩ | ⟨rest, he, -⟩
    · injection he with he _
      injection he with e1 e2 e3 e4
      subst e1 e2 e3 e4
      obtain ⟨e, hm, he⟩ := List.mem_map.1 hmem
      cases e <;> simp only [blankEv, TileEv.sent.injEq, reduceCtorEq] at he
      obtain ⟨rfl, rfl, rfl, rfl, rfl⟩ := he
      obtain ⟨g1, g2, r', tm', data', h14, h15, h16, rfl⟩ := (hF.tile t).tile.sent _ _ _ _ _ hm
      rw [List.map_append, List.map_cons, List.map_nil]
      have := blankRows_eq (reshape_shape g1 g2 (answer_read_length h0' hs hr1 h11))
        (reshape_shape g1 g2 (answer_read_length h0 hF h14 h16))
      rw [blankEv, this]
      exact h12
    · cases he
    · cases he
    · cases he
  | recvRow addr source width vec got src data hp hr =>
    rw [hp] at htile
    obtain ⟨rs, g, h5, h6, h7, h8, h9, h10⟩ := htile.ran
    obtain ⟨e, st1, h12, h13⟩ := tile_next hl (tileRan_blank _ h5) (by dsimp only; rw [h6]; simp) hranF
    have hrd := htile.reader
    rw [hr] at hrd
    have hsrc : src = source.toNat := by
      rcases hrd with h1 | ⟨z, h1⟩
      · cases h1
      · injection h1
    have hnat : source = (src : Int) := by omega
    dsimp only at h13
    rw [h6, h7] at h13
    rcases tileNext_cases h13 with ⟨a, tg, w, v, rows, rest, he, -⟩ |
      ⟨a, s1, w, v, x, rest, he, rfl, -⟩ | ⟨a, s1, w, v, rest, he, rfl, hnv, -⟩ | ⟨rest, he, -⟩
    · cases he
    · injection he with he _
      injection he with e1 e2 e3 e4
      subst e1 e2 e3 e4
      have hx : blank data = x := by
        have hb := rowsTo_mono (d := t) (hle src)
        have ha := hrows src
        rw [← hreader, hr] at ha
        rw [show takenFrom src (.got src data) = [data] by simp [takenFrom]] at ha
        have ha := ha.map blank
        rw [List.map_append, ← rowsFrom_blank, ← rowsTo_blank] at ha
        have hc := rowsFrom_mono (d := src) h12
        rw [rowsFrom_snoc, show rowsFrom src [TileEv.row source x] = [x] by simp [rowsFrom, hnat]] at hc
        have hd := ((List.prefix_append _ _).trans (rows_prefix hF src t)).map blank
        rw [← rowsFrom_blank, ← rowsTo_blank] at hd
        exact prefix_snoc_eq (ha.trans hb) (hc.trans hd)
      rw [List.map_append, List.map_cons, List.map_nil, blankEv, hx]
      exact h12
    · injection he with he _
      injection he with e1 e2 e3 e4
      subst e4
      rw [List.length_map] at hnv
      exact absurd h8 hnv
    · cases he
  | recvAll addr source width vec got c' hp hg hc hn =>
    rw [hp] at htile
    obtain ⟨rs, g, h5, h6, h7, h8, h9⟩ := htile.ran
    obtain ⟨e, st1, h12, h13⟩ := tile_next hl (tileRan_blank _ h5) (by dsimp only; rw [h6]; simp) hranF
    dsimp only at h13
    rw [h6, h7] at h13
    rcases tileNext_cases h13 with ⟨a, tg, w, v, rows, rest, he, -⟩ |
      ⟨a, s1, w, v, x, rest, he, rfl, hlt, -⟩ | ⟨a, s1, w, v, rest, he, rfl, hnv, -⟩ | ⟨rest, he, -⟩
    · cases he
    · injection he with he _
      injection he with e1 e2 e3 e4
      subst e4
      rw [List.length_map] at hlt
      exact absurd hlt hg
    · injection he with he _
      injection he with e1 e2 e3 e4
      subst e1 e2 e3 e4
      rw [List.map_append, List.map_cons, List.map_nil, blankEv]
      exact h12
    · cases he
  | haltEnd c' hp hst hc hn =>
    rw [hp] at htile
    obtain ⟨rs, g, h5, h6, h7⟩ := htile.ran
    obtain ⟨e, st1, h12, h13⟩ := tile_next hl (tileRan_blank _ h5) (by dsimp only; rw [h6]; simp) hranF
    dsimp only at h13
    rw [h6] at h13
    rcases tileNext_cases h13 with ⟨a, tg, w, v, rows, rest, he, -⟩ |
      ⟨a, s1, w, v, x, rest, he, rfl, hlt, -⟩ | ⟨a, s1, w, v, rest, he, rfl, hnv, -⟩ | ⟨rest, he, -, rfl, -⟩
    · cases he
    · cases he
    · cases he
    · rw [List.map_append, List.map_cons, List.map_nil, blankEv]
      exact h12
  | _ => exact hl

theorem shapesLe_run {cfg cfg' : SysCfg} {i i' : SysInit} {s F : Sys} (htiles : cfg'.net.tiles = cfg.net.tiles)
    (hops : ∀ t, i'.ops t = i.ops t)
    (h0 : ∀ t, GoodStart (i.mem t) (i.valid t)) (h0' : ∀ t, GoodStart (i'.mem t) (i'.valid t))
    (as : List SysAct) (hs : i'.start.run cfg' as = some s) (hF : SysInv cfg i F) (hf : finished cfg F) :
    shapesLe s F := by
  refine (sys_run_induction (P := fun s => SysInv cfg' i' s ∧ shapesLe s F) ?_ as _ s ?_ hs).2
  · intro s s' h st
    exact ⟨sysInv_step h0' s s' h.1 st, shapesLe_step htiles hops h0 h0' h.1 hF hf h.2 st⟩
  · exact ⟨sysInv_run h0' [] _ rfl, fun t => List.nil_prefix⟩

/-- Two finished runs have the same shapes. -/
theorem shapes_eq {cfg cfg' : SysCfg} {i i' : SysInit} {F F' : Sys} (htiles : cfg'.net.tiles = cfg.net.tiles)
    (hops : ∀ t, i'.ops t = i.ops t)
    (h0 : ∀ t, GoodStart (i.mem t) (i.valid t)) (h0' : ∀ t, GoodStart (i'.mem t) (i'.valid t))
    (as as' : List SysAct) (hF : i.start.run cfg as = some F) (hF' : i'.start.run cfg' as' = some F')
    (hf : finished cfg F) (hf' : finished cfg' F') {t : Nat} (ht : t < cfg.net.tiles) :
    (F'.tile t).log.map blankEv = (F.tile t).log.map blankEv := by
  have hi := sysInv_run h0 as F hF
  have hle := shapesLe_run htiles hops h0 h0' as' hF' hi hf t
  have h1 := tileRan_blank _ (finished_tile (sysInv_run h0' as' F' hF') hf' (htiles ▸ ht)).1
  have h2 := tileRan_blank _ (finished_tile hi hf ht).1
  rw [hops] at h1
  exact tileRan_eq hle h1 h2

end Ramwich
