import Verif.Lemmas.ClockedTileAll

/-! # Consequences of the invariants of the node with one clock -/
namespace Ramwich

open Spec

theorem reads_le {asked read : List Nat} {off n s e : Nat} (h : readsInTurn asked read off n s e)
    (hle : ∀ j a b : Nat, asked[j]? = some a → read[j]? = some b → a ≤ b) : s ≤ e := by
  cases n with
  | zero => rw [h.1 rfl]
  | succ n =>
    obtain ⟨h1, h2⟩ := h.2.1 (by omega)
    have has : ∀ j, j < n + 1 → ∃ x, read[off + j]? = some x := by
      intro j hj
      by_cases hj2 : j + 1 < n + 1
      · obtain ⟨x, h3, -⟩ := h.2.2 j hj2
        exact ⟨x, h3⟩
      · exact ⟨e, by rw [show off + j = off + (n + 1) - 1 by omega]; exact h2⟩
    have key : ∀ j, j < n + 1 → ∃ x, read[off + j]? = some x ∧ s ≤ x := by
      intro j
      induction j with
      | zero => intro hj; obtain ⟨x, hx⟩ := has 0 hj; exact ⟨x, hx, hle _ _ _ h1 hx⟩
      | succ j ih =>
        intro hj
        obtain ⟨x, h3, h4⟩ := h.2.2 j hj
        obtain ⟨y, hy, h5⟩ := ih (by omega)
        rw [h3] at hy
        injection hy with hy
        subst hy
        obtain ⟨z, hz⟩ := has (j + 1) hj
        exact ⟨z, hz, le_trans h5 (hle _ _ _ h4 hz)⟩
    obtain ⟨x, hx, h3⟩ := key n (by omega)
    rw [show off + (n + 1) - 1 = off + n by omega, hx] at h2
    injection h2 with h2
    omega

theorem asked_le {now : Nat} {v : SV} (h : StreamInv now v) (j a b : Nat) (ha : v.Q[j]? = some a) (hb : v.R[j]? = some b) :
    a ≤ b := by
  have h1 := prefix_getElem? h.read hb
  rw [List.getElem?_zipWith, ha] at h1
  cases hp : v.P[j]? with
  | none => rw [hp] at h1; cases h1
  | some p =>
    rw [hp] at h1
    injection h1 with h1
    omega

theorem put_le {now : Nat} {v : SV} (h : StreamInv now v) (j b : Nat) (hb : v.R[j]? = some b) :
    ∃ p, v.P[j]? = some p ∧ p ≤ b := by
  have h1 := prefix_getElem? h.read hb
  rw [List.getElem?_zipWith] at h1
  cases hp : v.P[j]? with
  | none => rw [hp] at h1; simp at h1
  | some p =>
    cases hq : v.Q[j]? with
    | none => rw [hp, hq] at h1; cases h1
    | some q =>
      rw [hp, hq] at h1
      injection h1 with h1
      exact ⟨p, rfl, by omega⟩

theorem arrived_le {now : Nat} {v : SV} (h : StreamInv now v) (j p : Nat) (hp : v.P[j]? = some p) :
    ∃ a, v.A[j]? = some a ∧ a ≤ p := by
  have h1 := prefix_getElem? h.put hp
  rw [List.getElem?_zipWith] at h1
  cases ha : v.A[j]? with
  | none => rw [ha] at h1; simp at h1
  | some a =>
    cases hq : (0 :: v.R)[j]? with
    | none => rw [ha, hq] at h1; cases h1
    | some q =>
      rw [ha, hq] at h1
      injection h1 with h1
      exact ⟨a, rfl, by omega⟩

/-- Times that are later packet by packet are later within a stream. -/
theorem timesTo_le {d L : Nat} : ∀ (ps : List Packet) (ts ts' : List Nat), ts'.length ≤ ts.length →
    (∀ m a b : Nat, ts[m]? = some a → ts'[m]? = some b → a + L ≤ b) →
    ∀ n b : Nat, (timesTo d ps ts')[n]? = some b → ∃ a, (timesTo d ps ts)[n]? = some a ∧ a + L ≤ b := by
  intro ps
  induction ps with
  | nil => intro ts ts' _ _ n b h; simp [timesTo] at h
  | cons p ps ih =>
    intro ts ts' hl h n b hb
    cases ts' with
    | nil => simp [timesTo] at hb
    | cons t' ts' =>
      cases ts with
      | nil => simp at hl
      | cons t ts =>
        have ih := ih ts ts' (by simpa using hl) (fun m a b ha hb => h (m + 1) a b ha hb)
        unfold timesTo at hb ih ⊢
        simp only [List.zip_cons_cons, List.filter_cons] at hb ⊢
        by_cases hp : p.target = (d : Int)
        · simp only [hp, decide_true, if_true, List.map_cons] at hb ⊢
          cases n with
          | zero =>
            simp only [List.getElem?_cons_zero, Option.some.injEq] at hb ⊢
            exact ⟨t, rfl, by rw [← hb]; exact h 0 t t' rfl rfl⟩
          | succ n => exact ih n b hb
        · simp only [hp, decide_false, if_false, Bool.false_eq_true] at hb ⊢
          exact ih n b hb

theorem sum_durations {S E : List Nat} (hl : S.length = E.length) (first : ∀ s, S[0]? = some s → s = 0)
    (chain : ∀ m s, S[m + 1]? = some s → E[m]? = some s)
    (le : ∀ m s e : Nat, S[m]? = some s → E[m]? = some e → s ≤ e) :
    E.getLast?.getD 0 = (List.zipWith (fun s e => e - s) S E).sum := by
  induction E using List.reverseRecOn generalizing S with
  | nil => simp
  | append_singleton E e ih =>
    rcases List.eq_nil_or_concat S with rfl | ⟨S, s, rfl⟩
    · simp at hl
    rw [List.concat_eq_append] at *
    have hl' : S.length = E.length := by simpa using hl
    have ih := ih hl' (fun s hs => first s (prefix_getElem? (List.prefix_append _ _) hs))
      (fun m s hs => by
        have h1 := (List.getElem?_eq_some_iff.1 hs).1
        have h2 := chain m s (prefix_getElem? (List.prefix_append _ _) hs)
        rwa [List.getElem?_append_left (by omega)] at h2)
      (fun m s e hs he => le m s e (prefix_getElem? (List.prefix_append _ _) hs) (prefix_getElem? (List.prefix_append _ _) he))
    rw [List.zipWith_append hl', List.sum_append, ← ih]
    simp only [List.getLast?_append, List.getLast?_singleton, Option.some_or, Option.getD_some, List.zipWith_cons_cons,
      List.zipWith_nil_right, List.sum_cons, List.sum_nil, Nat.add_zero]
    have hlast : (S ++ [s])[S.length]? = some s := by simp
    have hle := le S.length s e hlast (by rw [hl']; simp)
    have hs : s = E.getLast?.getD 0 := by
      rcases List.eq_nil_or_concat E with rfl | ⟨E, x, rfl⟩
      · have : S = [] := List.length_eq_zero_iff.1 hl'
        subst this
        simpa using first s rfl
      · rw [List.concat_eq_append] at *
        rw [List.length_append, List.length_singleton] at hl'
        have h1 := chain E.length s (by rw [← hl']; exact hlast)
        simpa using h1.symm
    omega

section
variable {cfg : SysCfg} {l : StageLat} {i : SysInit} {f : FSys} {t : Nat}

theorem answer_late (h0 : ∀ t, GoodStart (i.mem t) (i.valid t)) (h : FInv cfg l i f) (a : Answer)
    (ha : a ∈ (f.ts.sys.tile t).ctrl.answers) :
    0 ≤ cfg.edramLat * a.req.numBatches ∧ (a.req.submitTime : Int) + cfg.edramLat * a.req.numBatches ≤ a.time := by
  have := (ctrlInv_of (h0 t) ((h.both h0).2.tile t).ctrl).time.answered a ha
  unfold service waited at this
  omega

/-- No operation ends before it starts. -/
theorem start_le_end (h0 : ∀ t, GoodStart (i.mem t) (i.valid t)) (h : FInv cfg l i f) (hc : f.ts.sys.crashed = none)
    (ht : t < cfg.net.tiles) {m s e : Nat} (hs : (f.starts t)[m]? = some s) (he : (f.ends t)[m]? = some e) : s ≤ e := by
  obtain ⟨s', op, h1, h2, h3⟩ := (h.tile hc t ht).took m e he
  rw [show (f.tv t).starts[m]? = some s from hs] at h1
  injection h1 with h1
  subst h1
  cases op with
  | send addr target width vec =>
    obtain ⟨r, tm, data, g1, g2, g3, g4, g5, g6, g7⟩ := h3
    have := answer_late h0 h _ g1
    simp only [Answer.req, Answer.time] at this
    rw [g5] at this
    omega
  | receive addr source width vec =>
    obtain ⟨off, n, e', g1, -, g2⟩ := h3
    have g3 := reads_le g1 (asked_le (h.times.stream t source.toNat))
    rcases g2 with ⟨-, r, data, g4, g5, g6, g7, g8⟩ | ⟨-, g4⟩
    · have := answer_late h0 h _ g4
      simp only [Answer.req, Answer.time] at this
      omega
    · omega
  | halt =>
    obtain ⟨x, q, -, -, g3, -⟩ := h3
    omega

/-- Later operations start later. -/
theorem end_le_start (h0 : ∀ t, GoodStart (i.mem t) (i.valid t)) (h : FInv cfg l i f) (hc : f.ts.sys.crashed = none)
    (ht : t < cfg.net.tiles) {j m s e : Nat} (hjm : j < m) (hs : (f.starts t)[m]? = some s)
    (he : (f.ends t)[j]? = some e) : e ≤ s := by
  have hT := h.tile hc t ht
  induction m generalizing s with
  | zero => omega
  | succ m ih =>
    have h1 : (f.ends t)[m]? = some s := hT.chain m s hs
    by_cases hj : j = m
    · subst hj
      rw [he] at h1
      injection h1 with h1
      omega
    · obtain ⟨s', op, h2, -, -⟩ := hT.took m s h1
      exact le_trans (ih (by omega) h2) (start_le_end h0 h hc ht h2 h1)

theorem tile_starts_le (h : FInv cfg l i f) (hc : f.ts.sys.crashed = none) (ht : t < cfg.net.tiles) :
    (f.starts t).length ≤ (i.ops t).length ∧ (f.ends t).length ≤ (f.starts t).length ∧
      (f.starts t).length ≤ (f.ends t).length + 1 := by
  have hT := h.tile hc t ht
  have h1 := hT.count
  have h2 : (f.ends t).length ≤ (i.ops t).length := by
    by_contra hlt
    obtain ⟨s, op, -, h2, -⟩ := hT.took (i.ops t).length ((f.ends t)[(i.ops t).length]'(by omega)) (List.getElem?_eq_getElem _)
    rw [List.getElem?_eq_none (le_refl _)] at h2
    cases h2
  have h3 : (f.tv t).phase.isReady = false → (f.ends t).length < (i.ops t).length := by
    intro hr
    have h4 := hT.time
    unfold PhaseTime at h4
    have key : ∃ op, (i.ops t)[(f.ends t).length]? = some op := by
      cases hp : (f.tv t).phase with
      | ready => rw [hp] at hr; cases hr
      | sendWait => rw [hp] at h4; obtain ⟨_, _, -, h5, -⟩ := h4; exact ⟨_, h5⟩
      | sending => rw [hp] at h4; obtain ⟨_, _, _, _, -, h5, -⟩ := h4; exact ⟨_, h5⟩
      | adding => rw [hp] at h4; obtain ⟨_, _, _, _, -, h5, -⟩ := h4; exact ⟨_, h5⟩
      | recving => rw [hp] at h4; obtain ⟨_, _, -, h5, -⟩ := h4; exact ⟨_, h5⟩
      | recvWait => rw [hp] at h4; obtain ⟨_, _, _, -, h5, -⟩ := h4; exact ⟨_, h5⟩
      | recvWrite => rw [hp] at h4; obtain ⟨_, _, _, _, _, _, _, _, _, -, h5, -⟩ := h4; exact ⟨_, h5⟩
      | haltCores => rw [hp] at h4; obtain ⟨_, -, h5, -⟩ := h4; exact ⟨_, h5⟩
      | haltRouter => rw [hp] at h4; obtain ⟨_, _, -, h5, -⟩ := h4; exact ⟨_, h5⟩
    obtain ⟨op, hop⟩ := key
    exact (List.getElem?_eq_some_iff.1 hop).1
  change (f.starts t).length = (f.ends t).length + _ at h1
  cases hr : (f.tv t).phase.isReady with
  | true => rw [hr] at h1; simp only [if_true] at h1; omega
  | false => have := h3 hr; rw [hr] at h1; simp only [if_false, Bool.false_eq_true] at h1; omega

theorem tile_finished (h : FInv cfg l i f) (hc : f.ts.sys.crashed = none) (ht : t < cfg.net.tiles) :
    ((f.tv t).phase.isReady && (f.tv t).ops.isEmpty) = true ↔ (f.ends t).length = (i.ops t).length := by
  have hT := h.tile hc t ht
  obtain ⟨h1, h2, h3⟩ := tile_starts_le h hc ht
  have h4 := hT.count
  have h5 : (f.tv t).ops = (i.ops t).drop (f.starts t).length := hT.ops
  change (f.starts t).length = (f.ends t).length + _ at h4
  rw [Bool.and_eq_true, List.isEmpty_iff, h5, List.drop_eq_nil_iff]
  cases hr : (f.tv t).phase.isReady with
  | true => rw [hr] at h4; simp only [if_true] at h4; simp; omega
  | false => rw [hr] at h4; simp only [if_false, Bool.false_eq_true] at h4; simp; omega

end

end Ramwich
