import Verif.Spec.Apart
import Verif.Lemmas.DryStart
import Verif.Lemmas.SysOneReader

/-! # Tiles in which no write has words for two waiting processes -/
namespace Ramwich

open Spec

/-! ## One pass over the waiting list -/

theorem release_one (ok : Req → Bool) (l : List Req) (hn : l.Nodup)
    (h : ∀ x ∈ l, ∀ y ∈ l, ok x = true → ok y = true → x = y) : ∀ r ∈ (release ok l).2, ok r = false := by
  induction l using release.induct (ok := ok) with
  | case1 => simp [release]
  | case2 r hr => simp [release, hr]
  | case3 r hr x rest ih =>
    simp only [release, hr, if_true]
    have hx : ∀ y ∈ x :: rest, ok y = false := by
      intro y hy
      by_contra hne
      have := h r (by simp) y (by simp at hy ⊢; tauto) hr (by simpa using hne)
      subst this
      exact (List.nodup_cons.1 hn).1 hy
    intro y hy
    rcases List.mem_cons.1 hy with rfl | hy
    · exact hx _ (by simp)
    · refine ih ((List.nodup_cons.1 (List.nodup_cons.1 hn).2).2) ?_ y hy
      intro a ha b hb h1 h2
      exact h a (by simp [ha]) b (by simp [hb]) h1 h2
  | case4 r rest hr ih =>
    have e : release ok (r :: rest) = ((release ok rest).1, r :: (release ok rest).2) := by
      cases rest <;> simp [release, hr]
    rw [e]
    intro y hy
    rcases List.mem_cons.1 hy with rfl | hy
    · simpa using hr
    · exact ih (List.nodup_cons.1 hn).2 (fun a ha b hb => h a (by simp [ha]) b (by simp [hb])) y hy

/-- A read that becomes ready names a word that becomes valid. -/
theorem ready_change {v v' : List Bool} {r : Req} (hl : v'.length = v.length) (h0 : 0 ≤ r.start) (h9 : 0 ≤ r.length)
    (h1 : ready v r = false) (h2 : ready v' r = true) :
    ∃ a, covers r a ∧ v.getD a false = false ∧ v'.getD a false = true := by
  by_contra hno
  have hno : ∀ a, covers r a → v'.getD a false = true → v.getD a false = true := by
    intro a ha hv
    by_contra hne
    exact hno ⟨a, ha, by simpa using hne, hv⟩
  have : ready v r = true := by
    unfold ready pySlice at h2 ⊢
    rw [hl] at h2
    rw [List.all_eq_true] at h2 ⊢
    intro x hx
    obtain ⟨i, hi, hx⟩ := List.mem_iff_getElem.1 hx
    simp only [List.length_take, List.length_drop] at hi
    rw [List.getElem_take, List.getElem_drop] at hx
    have h3 : pySliceBound v.length r.start + i < v.length := by omega
    have h4 := h2 (v'[pySliceBound v.length r.start + i]'(by omega)) (by
      rw [List.mem_iff_getElem]
      exact ⟨i, by simp; omega, by rw [List.getElem_take, List.getElem_drop]⟩)
    have h5 := hno (pySliceBound v.length r.start + i) (by
      have hb : pySliceBound v.length r.start = min r.start.toNat v.length := by
        unfold pySliceBound; rw [if_neg (by omega)]
      unfold covers
      have : i < pySliceBound v.length (r.start + r.length) - pySliceBound v.length r.start := by omega
      unfold pySliceBound at this ⊢
      rw [if_neg (by omega), if_neg (by omega)] at this
      rw [if_neg (by omega)]
      omega) (by
      rw [List.getD_eq_getElem?_getD, List.getElem?_eq_getElem (by omega)]; exact h4)
    rw [List.getD_eq_getElem?_getD, List.getElem?_eq_getElem h3] at h5
    rw [← hx]
    exact h5
  rw [this] at h1
  cases h1

/-! ## A core and the texts of its program -/

/-- What a core has done and what it has left to do, in the trace of its program. -/
theorem trace_split {cfg : Config} {p : CoreParams} (hp : ParamsOf cfg p) (fl : FloatActs) (he : Electrical cfg.mvmuConfig)
    {lat dlat : Nat} (hlat : Latencies cfg.mvmuConfig lat dlat) (noise : Nat → Nat → Nat → Noise) (log : List CoreEv) :
    ∀ (n : Nat) (c : Core) (prog : List CoreOp) (K : Known) (evs : List MemEv) (cv : Core) (rest : List CoreOp),
    CoreKnown cfg fl K c → p.trace K prog = some evs → coreRan fl noise n c prog log cv rest →
    (∀ e ∈ log, ∀ dest read w v, e.op = .load dest read w v → e.data.length = (w * v).toNat) →
    (∀ e ∈ log, ∀ dest read w v, e.op = .store dest read w v →
      ∃ a : Nat, e.addr = a ∧ .write a e.data.length ∈ evs) ∧
    (rest = [] ∨ ∃ K' evs', CoreKnown cfg fl K' cv ∧ p.trace K' rest = some evs' ∧ evs' ⊆ evs) := by
  induction log with
  | nil =>
    intro n c prog K evs cv rest hK ht h _
    obtain ⟨rfl, rfl⟩ := h
    exact ⟨fun e h => (nomatch h), .inr ⟨K, evs, hK, ht, fun _ h => h⟩⟩
  | cons e log ih =>
    intro n c prog K evs cv rest hK ht h hd
    obtain ⟨rest1, rfl, hf, hrest⟩ := h
    have next : ∀ (K' : Known) (evs' : List MemEv), e.op ≠ .hlt → CoreKnown cfg fl K' e.after →
        p.trace K' rest1 = some evs' → evs' ⊆ evs →
        (∀ dest read w v, e.op = .store dest read w v → ∃ a : Nat, e.addr = a ∧ .write a e.data.length ∈ evs) →
        (∀ e' ∈ e :: log, ∀ dest read w v, e'.op = .store dest read w v →
          ∃ a : Nat, e'.addr = a ∧ .write a e'.data.length ∈ evs) ∧
        (rest = [] ∨ ∃ K' evs', CoreKnown cfg fl K' cv ∧ p.trace K' rest = some evs' ∧ evs' ⊆ evs) := by
      intro K' evs' hne h1 h2 h3 h4
      rw [if_neg hne] at hrest
      obtain ⟨g1, g2⟩ := ih (n + 1) e.after rest1 K' evs' cv rest h1 h2 hrest
        (fun e' he' => hd e' (List.mem_cons_of_mem _ he'))
      refine ⟨fun e' he' dest read w v ho => ?_, ?_⟩
      · rcases List.mem_cons.1 he' with rfl | he'
        · exact h4 dest read w v ho
        · obtain ⟨a, k1, k2⟩ := g1 e' he' dest read w v ho
          exact ⟨a, k1, h3 k2⟩
      · rcases g2 with g2 | ⟨K2, evs2, k1, k2, k3⟩
        · exact .inl g2
        · exact .inr ⟨K2, evs2, k1, k2, fun _ h => h3 (k3 h)⟩
    have plain : (∀ dest read w v, e.op ≠ .store dest read w v) → e.op ≠ .hlt →
        (∃ K' c', c.execute fl (noise n) e.op = (.ok (), c') ∧ CoreKnown cfg fl K' c' ∧ p.trace K' rest1 = some evs) →
        c.execute fl (noise n) e.op = (.ok (), e.after) →
        (∀ e' ∈ e :: log, ∀ dest read w v, e'.op = .store dest read w v →
          ∃ a : Nat, e'.addr = a ∧ .write a e'.data.length ∈ evs) ∧
        (rest = [] ∨ ∃ K' evs', CoreKnown cfg fl K' cv ∧ p.trace K' rest = some evs' ∧ evs' ⊆ evs) := by
      rintro hs hl ⟨K', c', h1, h2, h3⟩ hx
      rw [hx] at h1
      injection h1 with _ h1
      subst h1
      exact next K' evs hl h2 h3 (fun _ h => h) fun dest read w v ho => absurd ho (hs _ _ _ _)
    obtain ⟨op, addr, data, after⟩ := e
    dsimp only at *
    unfold CoreEv.follows at hf
    cases op with
    | hlt =>
      rw [if_pos rfl] at hrest
      cases log with
      | cons e' log => obtain ⟨r, hr, -⟩ := hrest; cases hr
      | nil =>
        obtain ⟨rfl, rfl⟩ := hrest
        refine ⟨fun e' he' dest read w v ho => ?_, .inl rfl⟩
        rw [List.mem_singleton.1 he'] at ho
        cases ho
    | load dest read w v =>
      obtain ⟨c1, h1, h2⟩ := hf
      dsimp only at h1 h2
      obtain ⟨a, m, c2, K', evs', g1, g2, -, -, g5, g6, g7⟩ := trace_load hp hK ht
      rw [g5] at h1
      injection h1 with _ h1
      subst h1
      obtain ⟨c3, k1, k2⟩ := g7 data (by have := hd _ (List.mem_cons_self ..) dest read w v rfl; dsimp only at this; omega)
      rw [k1] at h2
      subst h2
      exact next K' evs' (by simp) k2 g6 (by rw [g1]; exact List.subset_cons_self _ _) (by simp)
    | store dest read w v =>
      obtain ⟨a, m, c2, data', evs', g1, g2, -, -, g5, g6, g7, g8⟩ := trace_store hp hK ht
      dsimp only at hf
      rw [g5] at hf
      injection hf with h1 h2
      injection h1 with h1
      injection h1 with h3 h4
      subst h2 h3 h4
      refine next K evs' (by simp) g7 g8 (by rw [g1]; exact List.subset_cons_self _ _) ?_
      intro _ _ _ _ _
      exact ⟨a, rfl, by rw [g1, g6]; exact List.mem_cons_self ..⟩
    | set dest imm vec => exact plain (by simp) (by simp) (trace_plain hp he hlat (noise n) hK ht trivial) hf.1
    | copy dest read vec => exact plain (by simp) (by simp) (trace_plain hp he hlat (noise n) hK ht trivial) hf.1
    | vfu o dest r1 r2 vec => exact plain (by simp) (by simp) (trace_plain hp he hlat (noise n) hK ht trivial) hf.1
    | mvm xs => exact plain (by simp) (by simp) (trace_plain hp he hlat (noise n) hK ht trivial) hf.1

/-! ## Sends and Recvs of an accepted program -/

/-- Sends and Recvs with sensible numbers. -/
def TileOp.sensible : TileOp → Prop
  | .send a _ w v => 0 ≤ a ∧ 0 < w ∧ 0 < v
  | .receive a _ w v => 0 ≤ a ∧ 0 < w ∧ 0 < v
  | .halt => True

theorem set_ops {d : List DryTile} {t u : Nat} {x y : DryTile} (hx : d[t]? = some x)
    (h : ∀ z, d[u]? = some z → u = t → ∀ op ∈ z.ops, op ∈ y.ops ∨ op.sensible) :
    ∀ z, d[u]? = some z → ∃ z', (d.set t y)[u]? = some z' ∧ ∀ op ∈ z.ops, op ∈ z'.ops ∨ op.sensible := by
  intro z hz
  by_cases hu : u = t
  · refine ⟨y, ?_, h z hz hu⟩
    rw [hu, List.getElem?_set_self (List.getElem?_eq_some_iff.1 hx).1]
  · exact ⟨z, by rw [List.getElem?_set_ne (fun e => hu e.symm)]; exact hz, fun op ho => .inl ho⟩

theorem dryStep_ops {size : Nat} {d d' : List DryTile} {m : DryMove} (h : dryStep size d m = some d') (u : Nat) :
    ∀ z, d[u]? = some z → ∃ z', d'[u]? = some z' ∧ ∀ op ∈ z.ops, op ∈ z'.ops ∨ op.sensible := by
  cases m with
  | core t k =>
    simp only [dryStep] at h
    split at h
    · cases h
    rename_i x hx
    obtain ⟨x', h1, rfl⟩ := Option.map_eq_some_iff.1 h
    have ho : x'.ops = x.ops := by
      unfold DryTile.coreMove at h1
      split at h1
      · split at h1
        · injection h1 with h1; rw [← h1]
        · cases h1
      · split at h1
        · injection h1 with h1; rw [← h1]
        · cases h1
      · injection h1 with h1; rw [← h1]
      · cases h1
    refine set_ops hx fun z hz hu op hop => .inl ?_
    rw [hu, hx] at hz
    injection hz with hz
    rw [ho, hz]; exact hop
  | tile t =>
    simp only [dryStep] at h
    split at h
    · cases h
    rename_i x hx
    have self : ∀ z, d[u]? = some z → u = t → z = x := by
      intro z hz hu
      rw [hu, hx] at hz
      injection hz with hz
      exact hz.symm
    split at h
    · rename_i addr target width vec rest hops
      split at h
      · rename_i hc
        injection h with h
        subst h
        refine set_ops hx fun z hz hu op hop => ?_
        rw [self z hz hu, hops] at hop
        rcases List.mem_cons.1 hop with rfl | hop
        · exact .inr ⟨hc.1, hc.2.2.2.2.1, hc.2.2.2.2.2.1⟩
        · exact .inl hop
      · cases h
    · rename_i addr source width vec rest hops
      split at h
      · cases h
      rename_i y hy
      split at h
      · rename_i hc
        injection h with h
        subst h
        intro z hz
        obtain ⟨z1, g1, g2⟩ := set_ops (u := u) (y := { y with out := y.out.drop vec.toNat }) hy (fun z hz hu op hop => .inl (by
          rw [hu, hy] at hz; injection hz with hz; rw [hz]; exact hop)) z hz
        have hx' : ∃ x1, (d.set source.toNat { y with out := y.out.drop vec.toNat })[t]? = some x1 := by
          refine ⟨_, List.getElem?_eq_getElem ?_⟩
          rw [List.length_set]
          exact (List.getElem?_eq_some_iff.1 hx).1
        obtain ⟨x1, hx1⟩ := hx'
        by_cases hu : u = t
        · refine ⟨_, by rw [hu, List.getElem?_set_self (List.getElem?_eq_some_iff.1 hx1).1], fun op hop => ?_⟩
          rw [self z hz hu, hops] at hop
          rcases List.mem_cons.1 hop with rfl | hop
          · exact .inr ⟨hc.1, hc.2.2.2.1, hc.2.2.2.2.1⟩
          · exact .inl hop
        · exact ⟨z1, by rw [List.getElem?_set_ne (fun e => hu e.symm)]; exact g1, g2⟩
      · cases h
    · rename_i hops
      split at h
      · injection h with h
        subst h
        refine set_ops hx fun z hz hu op hop => ?_
        rw [self z hz hu, hops] at hop
        rw [List.mem_singleton.1 hop]
        exact .inr trivial
      · cases h
    · cases h

theorem dryRun_ops {size : Nat} (ms : List DryMove) : ∀ {d d' : List DryTile}, dryRun size d ms = some d' →
    ∀ (u : Nat) z, d[u]? = some z → ∃ z', d'[u]? = some z' ∧ ∀ op ∈ z.ops, op ∈ z'.ops ∨ op.sensible := by
  induction ms with
  | nil =>
    intro d d' h u z hz
    injection h with h
    subst h
    exact ⟨z, hz, fun op ho => .inl ho⟩
  | cons m ms ih =>
    intro d d' h u z hz
    simp only [dryRun] at h
    cases hm : dryStep size d m with
    | none => rw [hm] at h; cases h
    | some d1 =>
      rw [hm] at h
      obtain ⟨z1, h1, h2⟩ := dryStep_ops hm u z hz
      obtain ⟨z2, h3, h4⟩ := ih h u z1 h1
      refine ⟨z2, h3, fun op ho => ?_⟩
      rcases h2 op ho with ho | ho
      · exact h4 op ho
      · exact .inr ho

theorem accepted_sensible {p : CoreParams} {size tiles cores : Nat} {valid : Nat → Nat} {prog : Nat → Nat → List CoreOp}
    {ops : Nat → List TileOp} {moves : List DryMove} (h : accepted p size tiles cores valid prog ops moves) {t : Nat}
    (ht : t < tiles) : ∀ op ∈ ops t, op.sensible := by
  unfold accepted at h
  cases hd : dryStart p tiles cores valid prog ops with
  | none => rw [hd] at h; exact h.elim
  | some d =>
    rw [hd] at h
    simp only [Option.bind_some] at h
    cases hr : dryRun size d moves with
    | none => rw [hr] at h; exact h.elim
    | some d' =>
      rw [hr] at h
      dsimp only at h
      obtain ⟨h1, h2⟩ := mapM_some _ _ hd
      rw [List.length_range] at h1
      have hx := List.getElem?_eq_getElem (show t < d.length by omega)
      obtain ⟨t', h3, h4⟩ := h2 t _ hx
      obtain ⟨rfl, -⟩ := range_some h3
      simp only [Option.pure_def, Option.bind_eq_bind, Option.bind_eq_some_iff, Option.some.injEq] at h4
      obtain ⟨cs, -, h4⟩ := h4
      obtain ⟨z, h5, h6⟩ := dryRun_ops moves hr _ _ hx
      intro op ho
      rcases h6 op (by rw [← h4]; exact ho) with h7 | h7
      · rw [(h z (List.mem_of_getElem? h5)).1] at h7; cases h7
      · exact h7

end Ramwich
