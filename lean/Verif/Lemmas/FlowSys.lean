import Verif.Lemmas.FlowInv
import Verif.Lemmas.TileBlank
import Verif.Props.System

/-! # Every run follows the equations -/
namespace Ramwich

open Spec

theorem words_of_rows (mem : Nat → Int) (n : Nat) (rows : List (List I32)) : ∀ a : Nat, (∀ r ∈ rows, r.length = n) →
    ((List.range rows.length).map fun j => wordsAt mem (a + j * n) n) = rows.map (List.map BitVec.toInt) →
    rows.flatten.map BitVec.toInt = wordsAt mem a rows.flatten.length := by
  induction rows with
  | nil => intro _ _ _; rfl
  | cons r rows ih =>
    intro a hn h
    have hr := hn r (by simp)
    rw [List.length_cons, List.range_succ_eq_map, List.map_cons, List.map_cons, List.map_map] at h
    injection h with h1 h2
    rw [Nat.zero_mul, Nat.add_zero] at h1
    rw [List.flatten_cons, List.length_append, wordsAt_add, List.map_append, hr, ← h1]
    congr 1
    refine ih (a + n) (fun x hx => hn x (by simp [hx])) ?_
    rw [← h2]
    apply List.map_congr_left
    intro j _
    show wordsAt mem (a + n + j * n) n = wordsAt mem (a + (j + 1) * n) n
    rw [Nat.add_mul, Nat.one_mul]
    congr 1
    omega

/-- The history of a tile agrees with `mem`. -/
structure TileFlow (cfg : SysCfg) (mem : Nat → Int) (x : TileSt) : Prop where
  loads : ∀ k < cfg.cores, ∀ e ∈ (x.core k).log, ∀ dest read w v, e.op = .load dest read w v →
    e.data.map BitVec.toInt = wordsAt mem e.addr.toNat (w * v).toNat
  stores : ∀ k < cfg.cores, ∀ e ∈ (x.core k).log, ∀ dest read w v, e.op = .store dest read w v →
    e.data.map BitVec.toInt = wordsAt mem e.addr.toNat e.data.length
  sent : ∀ a t w v rows, .sent a t w v rows ∈ x.log → rowsAt mem a w v = rows.map (List.map BitVec.toInt)
  received : ∀ a s w v rows, .received a s w v rows ∈ x.log → rowsAt mem a w v = rows.map (List.map BitVec.toInt)

theorem tileFlow_writes {cfg : SysCfg} {i : SysInit} {t : Nat} {v : NetView} {x : TileSt} {mem : Nat → Int}
    (h0 : GoodStart (i.mem t) (i.valid t)) (ha : TileAll cfg i t v x) (h : TileFlow cfg mem x) :
    ∀ w ∈ writesOf x.ctrl.answers, ∀ a, covers w a → (w.value a).toInt = mem a := by
  intro w hw a hc
  have hci := ctrlInv_of h0 ha.ctrl
  obtain ⟨tm, hm⟩ := writesOf_mem.1 hw
  have hsub := answer_submitted hci.line hm
  have hkind : w.isWrite = true := hci.line.kinds _ hm
  have hin := hci.ans.writes w tm hm
  cases hk : w.kind with
  | read => simp [Req.isWrite, hk] at hkind
  | write data rows =>
    refine write_mem hk hin.1 ?_ hc
    rcases ha.writes w hsub data rows hk with ⟨k, hkc, e, he, dest, read, wd, v, h1, h2, h3⟩ |
      ⟨a, src, wd, n, rws, h1, h2, h3⟩
    · rw [← h2, ← h3]
      exact h.stores k hkc e he dest read wd v h1
    · obtain ⟨⟨g1, g2⟩, -⟩ := ha.tile.received a src wd n rws h1
      have g3 := h.received a src wd n rws h1
      rw [← h2, ← h3]
      refine words_of_rows mem wd.toNat rws a.toNat (fun r hr => by have := g2 r hr; omega) ?_
      rw [← g3]
      unfold rowsAt
      rw [show n.toNat = rws.length by omega]

theorem tileFlow_step {cfg : SysCfg} {i : SysInit} {t : Nat} {v v' : NetView} {x x' : TileSt} {mem : Nat → Int}
    (h0 : GoodStart (i.mem t) (i.valid t)) (ha : TileAll cfg i t v x) (h : TileFlow cfg mem x)
    (hin : ∀ a < (i.mem t).size, (i.valid t).getD a false = true → mem a = ((i.mem t).cells.getD a 0).toInt)
    (hstore : ∀ k < cfg.cores, ∀ dest read w n rest addr data c, (x.core k).phase = .ready →
      (x.core k).prog = .store dest read w n :: rest →
      (x.core k).core.storeRequest dest read w n = (.ok (addr, data), c) →
      data.map BitVec.toInt = wordsAt mem addr.toNat data.length)
    (hrecv : ∀ a s w n got, x.phase = .recving a s w n got → ¬(got.length : Int) < n →
      rowsAt mem a w n = got.map (List.map BitVec.toInt))
    (st : TileStep cfg t x v x' v') : TileFlow cfg mem x' := by
  have hci := ctrlInv_of h0 ha.ctrl
  have hread : ∀ r tm d, .read r tm d ∈ x.ctrl.answers → d.map BitVec.toInt = wordsAt mem r.start.toNat r.length.toNat :=
    fun r tm d hm => read_mem hci hin (tileFlow_writes h0 ha h) hm
  -- a core that logs nothing
  have same : ∀ (k : Nat) (y : CoreSt) (c : Ctrl), y.log = (x.core k).log →
      TileFlow cfg mem (TileSt.setCore { x with ctrl := c } k y) := by
    intro k y c hy
    have hl : ∀ j, ((TileSt.setCore { x with ctrl := c } k y).core j).log = (x.core j).log := by
      intro j
      rw [setCore_core]
      by_cases hj : j = k
      · rw [if_pos hj, hj, hy]
      · rw [if_neg hj]
    refine ⟨fun j hj e he => ?_, fun j hj e he => ?_, h.sent, h.received⟩
    · rw [hl] at he; exact h.loads j hj e he
    · rw [hl] at he; exact h.stores j hj e he
  -- a core that logs `e`
  have logs : ∀ (k : Nat) (y : CoreSt) (e : CoreEv), y.log = (x.core k).log ++ [e] →
      (∀ dest read w v, e.op = .load dest read w v → e.data.map BitVec.toInt = wordsAt mem e.addr.toNat (w * v).toNat) →
      (∀ dest read w v, e.op = .store dest read w v → e.data.map BitVec.toInt = wordsAt mem e.addr.toNat e.data.length) →
      TileFlow cfg mem (TileSt.setCore x k y) := by
    intro k y e hy h1 h2
    have hl : ∀ j, ∀ e' ∈ ((TileSt.setCore x k y).core j).log, e' ∈ (x.core j).log ∨ e' = e := by
      intro j e' he'
      rw [setCore_core] at he'
      by_cases hj : j = k
      · rw [if_pos hj, hy] at he'
        rcases List.mem_append.1 he' with he' | he'
        · exact .inl (hj ▸ he')
        · exact .inr (List.mem_singleton.1 he')
      · rw [if_neg hj] at he'
        exact .inl he'
    refine ⟨fun j hj e' he' => ?_, fun j hj e' he' => ?_, h.sent, h.received⟩
    · rcases hl j e' he' with he' | rfl
      · exact h.loads j hj e' he'
      · exact h1
    · rcases hl j e' he' with he' | rfl
      · exact h.stores j hj e' he'
      · exact h2
  -- the tile process logs `e`
  have tlogs : ∀ (c : Ctrl) (ph : TilePhase) (ops : List TileOp) (e : TileEv),
      (∀ a t w v rows, e = .sent a t w v rows → rowsAt mem a w v = rows.map (List.map BitVec.toInt)) →
      (∀ a t w v rows, e = .received a t w v rows → rowsAt mem a w v = rows.map (List.map BitVec.toInt)) →
      TileFlow cfg mem { x with ctrl := c, phase := ph, ops := ops, log := x.log ++ [e] } := by
    intro c ph ops e h1 h2
    refine ⟨h.loads, h.stores, fun a t w v rows hm => ?_, fun a t w v rows hm => ?_⟩
    · rcases List.mem_append.1 hm with hm | hm
      · exact h.sent a t w v rows hm
      · exact h1 a t w v rows (List.mem_singleton.1 hm).symm
    · rcases List.mem_append.1 hm with hm | hm
      · exact h.received a t w v rows hm
      · exact h2 a t w v rows (List.mem_singleton.1 hm).symm
  cases st with
  | run k op rest c hk hp hq hop he =>
    refine logs k _ ⟨op, 0, [], c⟩ rfl ?_ ?_
    · rintro _ _ _ _ rfl; cases hop
    · rintro _ _ _ _ rfl; cases hop
  | loaded k id addr dest read width vec data hk hp hans =>
    refine logs k _ _ rfl ?_ (fun _ _ _ _ hx => by cases hx)
    intro d r w n hx
    injection hx with e1 e2 e3 e4
    subst e1 e2 e3 e4
    obtain ⟨cv, rs, h1, h2⟩ := (ha.cores k).ran
    unfold CorePhaseOk at h2
    rw [hp] at h2
    obtain ⟨h2, h3, r0, h4, h5, h6, h7⟩ := h2
    obtain ⟨r, tm, hr1, hr2⟩ := readAnswer_mem hans
    have hr : r = r0 := answer_unique hci.line hr1 hr2 h4
    subst hr
    have := hread r tm data hr1
    rw [h6] at this
    simp only [Req.length, h7] at this
    exact this
  | store k dest read width vec rest addr data c hk hp hq he =>
    refine logs k _ _ rfl (fun _ _ _ _ hx => by cases hx) ?_
    intro d r w n hx
    exact hstore k hk dest read width vec rest addr data c hp hq he
  | sendGot id addr target width vec data hp hans hw hv' =>
    refine tlogs x.ctrl _ x.ops _ ?_ (fun _ _ _ _ _ hx => by cases hx)
    intro a tg w n rows hx
    injection hx with e1 e2 e3 e4 e5
    subst e1 e2 e3 e4 e5
    have htile := ha.tile
    rw [hp] at htile
    obtain ⟨rs, got, h5, h6, h7, r0, h8, h9, h10, h11⟩ := htile.ran
    obtain ⟨r, tm, hr1, hr2⟩ := readAnswer_mem hans
    have hr : r = r0 := answer_unique hci.line hr1 hr2 h8
    subst hr
    have hd := hread r tm data hr1
    rw [h10] at hd
    simp only [Req.length, h11] at hd
    have hlen := congrArg List.length hd
    rw [List.length_map, wordsAt_length] at hlen
    have hlen' : data.length = width.toNat * vec.toNat := by rw [hlen, Int.toNat_mul hw hv']
    obtain ⟨g1, g2⟩ := reshape_shape hw hv' hlen
    refine rowsAt_of_words (by omega) g2 ?_
    rw [reshape_flatten _ _ _ hlen', hd, hlen]
  | recvAll addr source width vec got c' hp hg hc hn =>
    refine tlogs c' _ x.ops _ (fun _ _ _ _ _ hx => by cases hx) ?_
    intro a tg w n rows hx
    injection hx with e1 e2 e3 e4 e5
    subst e1 e2 e3 e4 e5
    exact hrecv _ _ _ _ _ hp hg
  | recvRow => exact tlogs x.ctrl _ x.ops _ (fun _ _ _ _ _ hx => by cases hx) (fun _ _ _ _ _ hx => by cases hx)
  | haltEnd c' => exact tlogs c' _ x.ops _ (fun _ _ _ _ _ hx => by cases hx) (fun _ _ _ _ _ hx => by cases hx)
  | timed k => exact same k _ x.ctrl rfl
  | load k _ _ _ _ _ _ _ c' => exact same k _ c' rfl
  | loadDone k => exact same k _ x.ctrl rfl
  | stored k _ _ _ c' => exact same k _ c' rfl
  | storeDone k => exact same k _ x.ctrl rfl
  | halted k => exact same k _ x.ctrl rfl
  | _ => exact ⟨h.loads, h.stores, h.sent, h.received⟩

/-- What the tile process logs in a step. -/
theorem tileStep_log {cfg : SysCfg} {t : Nat} {v v' : NetView} {x x' : TileSt} (st : TileStep cfg t x v x' v') :
    x'.log = x.log ∨ ∃ e, x'.log = x.log ++ [e] ∧
      ∀ s y, e = .row s y → ∃ a w n got, x.phase = .recvWait a s w n got := by
  cases st with
  | sendGot => exact .inr ⟨_, rfl, fun _ _ hx => by cases hx⟩
  | recvAll => exact .inr ⟨_, rfl, fun _ _ hx => by cases hx⟩
  | haltEnd => exact .inr ⟨_, rfl, fun _ _ hx => by cases hx⟩
  | recvRow addr source width vec got src data hp hr =>
    refine .inr ⟨_, rfl, fun s y hx => ?_⟩
    injection hx with e1 e2
    subst e1 e2
    exact ⟨_, _, _, _, hp⟩
  | _ => exact .inl rfl

/-- The histories of all tiles agree with `mem`. -/
structure FlowAll (cfg : SysCfg) (i : SysInit) (mem : Nat → Nat → Int) (s : Sys) : Prop where
  tile : ∀ t < cfg.net.tiles, TileFlow cfg (mem t) (s.tile t)
  rows : ∀ t < cfg.net.tiles, ∀ rest got, tileRan (i.ops t, []) (s.tile t).log = some (rest, got) →
    ∀ src, RowsIn (mem t) src (i.ops t) (s.tile t).log rest got
  outside : ∀ t, ¬t < cfg.net.tiles → (s.tile t).log = []

section
variable {cfg : SysCfg} {c c' : Config} {weights : Nat → Nat → List (Nat × List (List ℚ))} {i : SysInit}
  {mem : Nat → Nat → Int} {final : Nat → Nat → CoreState}

/-- The rows that a tile has received are the first ones at the places of its Recvs. -/
theorem flow_prefix (he : equations cfg c' weights i mem final) {s : Sys} (hi : SysInv cfg i s)
    (hsent : ∀ t < cfg.net.tiles, ∀ a d w v rows, .sent a d w v rows ∈ (s.tile t).log →
      rowsAt (mem t) a w v = rows.map (List.map BitVec.toInt))
    (hout : ∀ t, ¬t < cfg.net.tiles → (s.tile t).log = []) {t : Nat} (ht : t < cfg.net.tiles) (src : Nat) :
    (rowsFrom src (s.tile t).log).map (List.map BitVec.toInt) <+: recvRows (mem t) src (i.ops t) := by
  have hpre : rowsFrom src (s.tile t).log <+: rowsTo t (s.tile src).log :=
    (List.prefix_append _ _).trans (rows_prefix hi src t)
  by_cases hs : src < cfg.net.tiles
  · obtain ⟨rest, got, h1, -⟩ := (hi.tile src).tile.ran
    rw [he.transfer src hs t ht, sent_split t _ _ _ _ _ h1 (hsent src hs)]
    exact (hpre.map _).trans (List.prefix_append _ _)
  · rw [hout src hs] at hpre
    rw [List.prefix_nil.1 (show _ <+: [] from hpre)]
    exact List.nil_prefix

/-- How far a core is in its program. -/
theorem flow_core (h : composed cfg c c' weights i) (he : equations cfg c' weights i mem final) {s : Sys}
    (hi : SysInv cfg i s) (hf : ∀ t < cfg.net.tiles, TileFlow cfg (mem t) (s.tile t)) {t k : Nat}
    (ht : t < cfg.net.tiles) (hk : k < cfg.cores) :
    ∃ cv rest s' stores, CorePhaseOk k (s.tile t).ctrl ((s.tile t).core k) cv rest ∧ cv.config = c' ∧
      CoreRefines cv s' ∧ (∀ op ∈ upToHlt rest, CoreOp.positive op) ∧
      (∀ x ∈ stores, x.2 = wordsAt (mem t) x.1 x.2.length) ∧
      (coreParamsWith c' cfg.fl).flow (mem t) (fun n => errorsOf (cfg.noise t k n)) ((s.tile t).core k).log.length s' rest
        = .ok (final t k, stores) := by
  obtain ⟨cv, rest, h1, h2⟩ := ((hi.tile t).cores k).ran
  obtain ⟨fl0, hc0⟩ := h.cores t ht k hk
  obtain ⟨hkc, hkr⟩ := core_loads c c' fl0 h.simulable h.build h.unit (weights t k) (h.matrices t ht k hk)
  rw [← hc0] at hkc hkr
  obtain ⟨all, h3, h4⟩ := he.core t ht k hk
  obtain ⟨s', stores, g1, g2, g3, g4, g5⟩ := flow_split cfg.fl (electrical_of c c' h.simulable h.build) _ _
    (latencies_of c c' h.simulable h.build) (cfg.noise t k) (mem t) ((s.tile t).core k).log 0 (i.core t k) (i.prog t k)
    (CoreState.loadAll {} (weights t k)) cv rest _ hkc hkr h1 (h.positive t ht k hk) ((hf t ht).loads k hk) h3
  rw [Nat.zero_add] at g5
  exact ⟨cv, rest, s', stores, h2, g1, g2, g3, fun x hx => h4 x (by rw [show all = _ from g4]; exact List.mem_append_right _ hx), g5⟩

theorem flowAll_step (h : composed cfg c c' weights i) (he : equations cfg c' weights i mem final) {s s' : Sys}
    (hi : SysInv cfg i s) (hh : ∀ t, TileHist cfg i t (s.tile t)) (hf : FlowAll cfg i mem s) (st : SysStep cfg s s') :
    FlowAll cfg i mem s' := by
  have hi' := sysInv_step h.lists.good s s' hi st
  have htile : ∀ t < cfg.net.tiles, TileFlow cfg (mem t) (s'.tile t) := by
    intro t ht
    rcases st.tile t with ⟨h1, -⟩ | ⟨-, h1⟩
    · rw [h1]; exact hf.tile t ht
    refine tileFlow_step (h.lists.good t) (hi.tile t) (hf.tile t ht) (fun a ha hv => he.input t ht a ⟨ha, hv⟩) ?_ ?_ h1
    · intro k hk dest read w n rest addr data cA hp hq hreq
      obtain ⟨cv, rs, sv, stores, g1, g2, g3, g4, g5, g6⟩ := flow_core h he hi hf.tile ht hk
      unfold CorePhaseOk at g1
      rw [hp] at g1
      obtain ⟨rfl, rfl⟩ := g1
      rw [hq] at g4 g6
      have hmine : CoreOp.positive (.store dest read w n) := g4 _ (by unfold upToHlt; split <;> simp)
      obtain ⟨st', k1, -⟩ := flow_store cfg.fl g2 g3 hmine.1 hmine.2 hreq g6
      injection k1 with _ k1
      have := g5 (addr.toNat, data.map BitVec.toInt) (by rw [k1]; simp)
      dsimp only at this
      rw [List.length_map] at this
      exact this
    · intro a src w n got hp hn
      have hran := (hi.tile t).tile.ran
      rw [hp] at hran
      obtain ⟨rest, g, h2, h3, h4, h5, h6⟩ := hran
      subst h3 h4
      by_cases hg : g = []
      · subst hg
        unfold rowsAt
        rw [show n.toNat = 0 by simp at hn; omega]
        rfl
      · have hsrc : 0 ≤ src := by
          rcases got_rows _ _ _ _ _ h2 hg with ⟨-, h7⟩ | ⟨a', s1, w', v', tl, y, h7, h8⟩
          · exact absurd rfl h7
          · injection h7 with h7 _
            injection h7 with _ h7
            have := (hh t).rows s1 y h8
            unfold NetConfig.hasBuffer at this
            simp at this
            omega
        obtain ⟨m, rfl⟩ := Int.eq_ofNat_of_zero_le hsrc
        exact rowsIn_all (hf.rows t ht _ _ h2 m)
          (flow_prefix he hi (fun t ht => (hf.tile t ht).sent) hf.outside ht m) hn
  have hout : ∀ t, ¬t < cfg.net.tiles → (s'.tile t).log = [] := by
    intro t ht
    rcases st.tile t with ⟨h1, -⟩ | ⟨h1, -⟩
    · rw [h1]; exact hf.outside t ht
    · exact absurd h1 ht
  refine ⟨htile, ?_, hout⟩
  intro t ht rest' got' hr' src
  rcases st.tile t with ⟨h1, -⟩ | ⟨-, h1⟩
  · rw [h1] at hr' ⊢; exact hf.rows t ht rest' got' hr' src
  rcases tileStep_log h1 with h2 | ⟨e, h2, h3⟩
  · rw [h2] at hr' ⊢; exact hf.rows t ht rest' got' hr' src
  · have hpre := flow_prefix he hi' (fun t ht => (htile t ht).sent) hout ht src
    obtain ⟨rest, got, h4, h5⟩ := (hi.tile t).tile.ran
    rw [h2] at hr' hpre ⊢
    rw [tileRan_snoc _ _ _ _ h4] at hr'
    refine rowsIn_step (hf.rows t ht rest got h4 src) hr' hpre ?_
    intro a sr w n tl y h6 h7
    obtain ⟨a', w', n', g, h8⟩ := h3 sr y h7
    unfold TilePhaseOk at h5
    rw [h8] at h5
    have h9 := h5.1
    obtain ⟨done, h10, h11⟩ := (hh t).ops
    obtain ⟨d2, h12⟩ := tileRan_suffix _ _ _ _ _ h4
    rw [h9, h10] at h12
    have h13 : done ++ (s.tile t).ops = (d2 ++ [.receive a' sr w' n']) ++ (s.tile t).ops := by
      rw [h12]; simp
    have h14 := List.append_cancel_right h13
    have := (h11 a' sr w' n' (by rw [h14]; simp)).1
    rw [h9] at h6
    injection h6 with h6 _
    injection h6 with _ _ h6 _
    omega

theorem flowAll_run (h : composed cfg c c' weights i) (he : equations cfg c' weights i mem final) (as : List SysAct)
    (s : Sys) (hs : i.start.run cfg as = some s) : FlowAll cfg i mem s := by
  refine (sys_run_induction (P := fun s => (SysInv cfg i s ∧ ∀ t, TileHist cfg i t (s.tile t)) ∧ FlowAll cfg i mem s)
    ?_ as _ s ?_ hs).2
  · intro s s' hp st
    refine ⟨⟨sysInv_step h.lists.good s s' hp.1.1 st, fun t => ?_⟩, flowAll_step h he hp.1.1 hp.1.2 hp.2 st⟩
    rcases st.tile t with ⟨h1, -⟩ | ⟨-, h1⟩
    · rw [h1]; exact hp.1.2 t
    · exact tileHist_step (hp.1.1.tile t) (hp.1.2 t) h1
  · refine ⟨⟨sysInv_run h.lists.good [] _ rfl, tileHist_run h.lists.good [] _ rfl⟩, ?_, ?_, fun _ _ => rfl⟩
    · exact fun t _ => ⟨fun _ _ _ h => (nomatch h), fun _ _ _ h => (nomatch h), fun _ _ _ _ _ h => (nomatch h),
        fun _ _ _ _ _ h => (nomatch h)⟩
    · intro t _ rest got hr src
      injection hr with hr
      injection hr with h1 h2
      subst h1 h2
      exact rowsIn_nil _ _ _

end

end Ramwich
