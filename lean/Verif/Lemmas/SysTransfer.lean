import Verif.Lemmas.SysReach

/-! # Transfers between tiles -/
namespace Ramwich

open Spec

/-- Cases of `tileNext`. -/
theorem tileNext_cases {ops : List TileOp} {got : List (List I32)} {e : TileEv}
    {st : List TileOp × List (List I32)} (h : tileNext (ops, got) e = some st) :
    (∃ a t w v rows rest, ops = .send a t w v :: rest ∧ got = [] ∧ e = .sent a t w v rows ∧ st = (rest, [])) ∨
    (∃ a s w v x rest, ops = .receive a s w v :: rest ∧ e = .row s x ∧ (got.length : Int) < v ∧
      st = if (x.length : Int) = w then (ops, got ++ [x]) else (rest, [])) ∨
    (∃ a s w v rest, ops = .receive a s w v :: rest ∧ e = .received a s w v got ∧ ¬(got.length : Int) < v ∧
      st = (rest, [])) ∨
    (∃ rest, ops = .halt :: rest ∧ got = [] ∧ e = .halted ∧ st = (rest, [])) := by
  unfold tileNext at h
  split at h
  · rename_i heq
    injection heq with h1 h2
    subst h1 h2
    split at h
    · rename_i hh
      obtain ⟨rfl, rfl, rfl, rfl⟩ := hh
      injection h with h
      subst h
      exact Or.inl ⟨_, _, _, _, _, _, rfl, rfl, rfl, rfl⟩
    · cases h
  · rename_i heq
    injection heq with h1 h2
    subst h1 h2
    split at h
    · rename_i hh
      obtain ⟨rfl, hv⟩ := hh
      refine Or.inr (Or.inl ⟨_, _, _, _, _, _, rfl, rfl, hv, ?_⟩)
      split at h
      · rename_i hw
        injection h with h
        rw [if_pos hw, h]
      · rename_i hw
        injection h with h
        rw [if_neg hw, h]
    · cases h
  · rename_i heq
    injection heq with h1 h2
    subst h1 h2
    split at h
    · rename_i hh
      obtain ⟨rfl, rfl, rfl, rfl, rfl, hv⟩ := hh
      injection h with h
      subst h
      exact Or.inr (Or.inr (Or.inl ⟨_, _, _, _, _, rfl, rfl, hv, rfl⟩))
    · cases h
  · rename_i heq
    injection heq with h1 h2
    subst h1 h2
    injection h with h
    subst h
    exact Or.inr (Or.inr (Or.inr ⟨_, rfl, rfl, rfl, rfl⟩))
  · cases h

theorem tileRan_cons {st st' : List TileOp × List (List I32)} {e : TileEv} {log : List TileEv}
    (h : tileRan st (e :: log) = some st') : ∃ st1, tileNext st e = some st1 ∧ tileRan st1 log = some st' := by
  simp only [tileRan, Option.bind_eq_some_iff] at h
  exact h

/-- The shape of a transfer. -/
abbrev shapeOf (x : Int × Int × Int × List (List I32)) : Int × Int := (x.2.1, x.2.2.1)

theorem sentTo_shapes (d : Nat) (log : List TileEv) : ∀ (ops : List TileOp) (got : List (List I32)) (st),
    tileRan (ops, got) log = some st → (sentTo d log).map shapeOf <+: sendShapes d ops := by
  induction log with
  | nil => intro ops got st h; exact List.nil_prefix
  | cons e log ih =>
    intro ops got st h
    obtain ⟨st1, h1, h2⟩ := tileRan_cons h
    rcases tileNext_cases h1 with ⟨a, t, w, v, rows, rest, rfl, rfl, rfl, rfl⟩ |
      ⟨a, s, w, v, x, rest, rfl, rfl, hv, rfl⟩ | ⟨a, s, w, v, rest, rfl, rfl, hv, rfl⟩ | ⟨rest, rfl, rfl, rfl, rfl⟩
    · have := ih _ _ _ h2
      by_cases ht : t = (d : Int)
      · simpa [sentTo, sendShapes, ht] using this
      · simpa [sentTo, sendShapes, ht] using this
    · by_cases hw : (x.length : Int) = w
      · rw [if_pos hw] at h2; exact ih _ _ _ h2
      · rw [if_neg hw] at h2
        have := ih _ _ _ h2
        simpa [sentTo, sendShapes] using this
    · have := ih _ _ _ h2
      simpa [sentTo, sendShapes] using this
    · have := ih _ _ _ h2
      simpa [sentTo, sendShapes] using this

theorem rowsTo_sentTo (d : Nat) (log : List TileEv) : rowsTo d log = (sentTo d log).flatMap fun x => x.2.2.2 := by
  induction log with
  | nil => rfl
  | cons e log ih =>
    have h1 : rowsTo d (e :: log) = rowsTo d [e] ++ rowsTo d log := by simp [rowsTo]
    have h2 : sentTo d (e :: log) = sentTo d [e] ++ sentTo d log := by
      unfold sentTo; rw [← List.filterMap_append]; rfl
    rw [h1, h2, List.flatMap_append, ih]
    congr 1
    cases e with
    | sent a t w v rows => by_cases ht : t = (d : Int) <;> simp [rowsTo, sentTo, ht]
    | _ => rfl

/-- The rows that count for the current Recv from `i`. -/
def gotFrom (i : Nat) : List TileOp → List (List I32) → List (List I32)
  | .receive _ s _ _ :: _, got => if s = (i : Int) then got else []
  | _, _ => []

theorem gotFrom_nil (i : Nat) (ops : List TileOp) : gotFrom i ops [] = [] := by
  unfold gotFrom
  split
  · simp
  · rfl

theorem prefix_split {α : Type} {a b c d : List α} (h : a ++ b <+: c ++ d) (hl : a.length = c.length) :
    a = c ∧ b <+: d := by
  obtain ⟨t, ht⟩ := h
  rw [List.append_assoc] at ht
  obtain ⟨h1, h2⟩ := List.append_inj ht hl
  exact ⟨h1, t, h2⟩

/-- Receiving cuts a stream of well shaped blocks into these blocks. -/
theorem received_blocks (i : Nat) (log : List TileEv) : ∀ (ops : List TileOp) (got : List (List I32)) (st)
    (cs : List (Int × Int × Int × List (List I32))),
    tileRan (ops, got) log = some st →
    (∀ a w v rows, .received a (i : Int) w v rows ∈ log → (rows.length : Int) = v) →
    (∀ x ∈ cs, (x.2.2.2.length : Int) = x.2.2.1 ∧ ∀ r ∈ x.2.2.2, (r.length : Int) = x.2.1) →
    cs.map shapeOf <+: recvShapes i ops → (∀ sh ∈ recvShapes i ops, 0 < sh.2) →
    gotFrom i ops got ++ rowsFrom i log <+: cs.flatMap (fun x => x.2.2.2) →
    (receivedFrom i log).map Prod.snd <+: cs.map Prod.snd := by
  induction log with
  | nil => intro ops got st cs h _ _ _ _ _; exact List.nil_prefix
  | cons e log ih =>
    intro ops got st cs h hlen hcs hsh hpos hpre
    obtain ⟨st1, h1, h2⟩ := tileRan_cons h
    have hlen' : ∀ a w v rows, .received a (i : Int) w v rows ∈ log → (rows.length : Int) = v :=
      fun a w v rows hm => hlen a w v rows (List.mem_cons_of_mem _ hm)
    rcases tileNext_cases h1 with ⟨a, t, w, v, rows, rest, rfl, rfl, rfl, rfl⟩ |
      ⟨a, s, w, v, x, rest, rfl, rfl, hv, rfl⟩ | ⟨a, s, w, v, rest, rfl, rfl, hv, rfl⟩ | ⟨rest, rfl, rfl, rfl, rfl⟩
    · exact ih _ _ _ cs h2 hlen' hcs hsh hpos (by rw [gotFrom_nil]; exact hpre)
    · by_cases hs : s = (i : Int)
      · subst hs
        have hrow : rowsFrom i (.row (i : Int) x :: log) = x :: rowsFrom i log := by simp [rowsFrom]
        have hg : gotFrom i (.receive a (i : Int) w v :: rest) got = got := by simp [gotFrom]
        rw [hrow, hg] at hpre
        have hwidth : (x.length : Int) = w := by
          cases cs with
          | nil => simp at hpre
          | cons c cs =>
            have hc := hcs c (by simp)
            have hshape : shapeOf c = (w, v) := by
              simp only [recvShapes, List.filterMap_cons, if_true, List.map_cons] at hsh
              exact (List.cons_prefix_cons.1 hsh).1
            simp only [shapeOf, Prod.mk.injEq] at hshape
            rw [hshape.1, hshape.2] at hc
            apply hc.2
            rw [List.flatMap_cons] at hpre
            have hget := hpre.getElem (i := got.length) (by simp)
            rw [List.getElem_append_right (by omega), List.getElem_append_left (by omega)] at hget
            simp only [Nat.sub_self, List.getElem_cons_zero] at hget
            rw [hget]
            exact List.getElem_mem _
        rw [if_pos hwidth] at h2
        refine ih _ _ _ cs h2 hlen' hcs hsh hpos ?_
        rw [show gotFrom i (.receive a (i : Int) w v :: rest) (got ++ [x]) = got ++ [x] by simp [gotFrom]]
        simpa using hpre
      · have hrow : rowsFrom i (.row s x :: log) = rowsFrom i log := by simp [rowsFrom, hs]
        have hg : ∀ g, gotFrom i (.receive a s w v :: rest) g = [] := by simp [gotFrom, hs]
        have hr : recvShapes i (.receive a s w v :: rest) = recvShapes i rest := by simp [recvShapes, hs]
        rw [hrow, hg] at hpre
        by_cases hw : (x.length : Int) = w
        · rw [if_pos hw] at h2
          exact ih _ _ _ cs h2 hlen' hcs hsh hpos (by rw [hg]; exact hpre)
        · rw [if_neg hw] at h2
          rw [hr] at hsh hpos
          exact ih _ _ _ cs h2 hlen' hcs hsh hpos (by rw [gotFrom_nil]; exact hpre)
    · by_cases hs : s = (i : Int)
      · subst hs
        have hl := hlen a w v got (by simp)
        have hr : recvShapes i (.receive a (i : Int) w v :: rest) = (w, v) :: recvShapes i rest := by
          simp [recvShapes]
        have hv0 := hpos (w, v) (by rw [hr]; simp)
        have hg : gotFrom i (.receive a (i : Int) w v :: rest) got = got := by simp [gotFrom]
        have hrow : rowsFrom i (.received a (i : Int) w v got :: log) = rowsFrom i log := by simp [rowsFrom]
        rw [hrow, hg] at hpre
        rw [hr] at hsh hpos
        cases cs with
        | nil =>
          simp only [List.flatMap_nil, List.prefix_nil, List.append_eq_nil_iff] at hpre
          rw [hpre.1] at hl
          simp only [List.length_nil, Nat.cast_zero] at hl
          omega
        | cons c cs =>
          rw [List.map_cons, List.cons_prefix_cons] at hsh
          have hc := hcs c (by simp)
          have hshape := hsh.1
          simp only [shapeOf, Prod.mk.injEq] at hshape
          rw [List.flatMap_cons] at hpre
          obtain ⟨h3, h4⟩ := prefix_split hpre (by rw [hshape.2] at hc; omega)
          have := ih _ _ _ cs h2 hlen' (fun y hy => hcs y (by simp [hy])) hsh.2
            (fun sh hm => hpos sh (by simp [hm])) (by rw [gotFrom_nil]; exact h4)
          have hf : receivedFrom i (.received a (i : Int) w v got :: log) = (a, w, v, got) :: receivedFrom i log := by
            simp [receivedFrom]
          rw [hf, List.map_cons, List.map_cons, List.cons_prefix_cons]
          refine ⟨?_, this⟩
          rw [h3, ← hshape.1, ← hshape.2]
      · have hrow : rowsFrom i (.received a s w v got :: log) = rowsFrom i log := by simp [rowsFrom]
        have hg : ∀ g, gotFrom i (.receive a s w v :: rest) g = [] := by simp [gotFrom, hs]
        have hr : recvShapes i (.receive a s w v :: rest) = recvShapes i rest := by simp [recvShapes, hs]
        have hf : receivedFrom i (.received a s w v got :: log) = receivedFrom i log := by
          simp [receivedFrom, hs]
        rw [hrow, hg] at hpre
        rw [hr] at hsh hpos
        rw [hf]
        exact ih _ _ _ cs h2 hlen' hcs hsh hpos (by rw [gotFrom_nil]; exact hpre)
    · exact ih _ _ _ cs h2 hlen' hcs hsh hpos (by rw [gotFrom_nil]; exact hpre)

/-! ## The rows of a Send -/

theorem reshape_length (v w : Nat) (data : List I32) : (reshape v w data).length = v := by simp [reshape]

theorem reshape_rows (v w : Nat) (data : List I32) (h : data.length = w * v) :
    ∀ r ∈ reshape v w data, r.length = w := by
  intro r hr
  simp only [reshape, List.mem_map, List.mem_range] at hr
  obtain ⟨i, hi, rfl⟩ := hr
  rw [List.length_take, List.length_drop, h]
  have : (i + 1) * w ≤ v * w := Nat.mul_le_mul_right _ hi
  rw [Nat.mul_comm w v, Nat.add_mul] at *
  omega

theorem reshape_flatten (w : Nat) : ∀ (v : Nat) (data : List I32), data.length = w * v →
    (reshape v w data).flatten = data := by
  intro v
  induction v with
  | zero => intro data h; simp at h; subst h; rfl
  | succ v ih =>
    intro data h
    have hh : reshape (v + 1) w data = data.take w :: reshape v w (data.drop w) := by
      simp only [reshape, List.range_succ_eq_map, List.map_cons, List.map_map, Nat.zero_mul, List.drop_zero]
      congr 1
      apply List.map_congr_left
      intro i _
      simp only [Function.comp, List.drop_drop]
      congr 2
      rw [Nat.succ_eq_add_one, Nat.add_mul, Nat.one_mul]
      exact Nat.add_comm _ _
    rw [hh, List.flatten_cons, ih, List.take_append_drop]
    rw [List.length_drop, h, Nat.mul_add]
    omega

end Ramwich
