import Verif.Lemmas.FlowCore
import Verif.Lemmas.SysDet

/-! # The history of a tile process and its equations -/
namespace Ramwich

open Spec

/-! ## Rows of words -/

theorem wordsAt_length (mem : Nat → Int) (a n : Nat) : (wordsAt mem a n).length = n := by simp [wordsAt]

theorem wordsAt_add (mem : Nat → Int) (a m n : Nat) : wordsAt mem a (m + n) = wordsAt mem a m ++ wordsAt mem (a + m) n := by
  unfold wordsAt
  rw [List.range_add, List.map_append, List.map_map]
  congr 1
  apply List.map_congr_left
  intro j _
  show mem (a + (m + j)) = mem (a + m + j)
  rw [Nat.add_assoc]

theorem rows_of_words (mem : Nat → Int) (n : Nat) (rows : List (List I32)) : ∀ a : Nat, (∀ r ∈ rows, r.length = n) →
    rows.flatten.map BitVec.toInt = wordsAt mem a rows.flatten.length →
    ((List.range rows.length).map fun j => wordsAt mem (a + j * n) n) = rows.map (List.map BitVec.toInt) := by
  induction rows with
  | nil => intro _ _ _; rfl
  | cons r rows ih =>
    intro a hn h
    have hr := hn r (by simp)
    rw [List.flatten_cons, List.length_append, wordsAt_add, List.map_append] at h
    obtain ⟨h1, h2⟩ := List.append_inj h (by rw [List.length_map, wordsAt_length])
    rw [List.length_cons, List.range_succ_eq_map, List.map_cons, List.map_cons, List.map_map]
    congr 1
    · rw [h1, hr]; simp
    · rw [← ih (a + r.length) (fun x hx => hn x (by simp [hx])) h2]
      apply List.map_congr_left
      intro j _
      show wordsAt mem (a + (j + 1) * n) n = _
      rw [hr, Nat.add_mul, Nat.one_mul]
      congr 1
      omega

theorem rowsAt_of_words {mem : Nat → Int} {a w v : Int} {rows : List (List I32)} (hv : rows.length = v.toNat)
    (hw : ∀ r ∈ rows, (r.length : Int) = w)
    (h : rows.flatten.map BitVec.toInt = wordsAt mem a.toNat rows.flatten.length) :
    rowsAt mem a w v = rows.map (List.map BitVec.toInt) := by
  unfold rowsAt
  rw [← hv]
  exact rows_of_words mem w.toNat rows a.toNat (fun r hr => by have := hw r hr; omega) h

theorem rowsAt_length (mem : Nat → Int) (a w v : Int) : (rowsAt mem a w v).length = v.toNat := by simp [rowsAt]

/-! ## Sends -/

theorem sent_rows {mem : Nat → Int} (d : Nat) (log : List TileEv) : ∀ (ops : List TileOp) (got : List (List I32)),
    tileRan (ops, got) log = some ([], []) →
    (∀ a t w v rows, .sent a t w v rows ∈ log → (rows.length : Int) = v ∧ (∀ r ∈ rows, (r.length : Int) = w) ∧
      rowsAt mem a w v = rows.map (List.map BitVec.toInt)) →
    sentRows mem d ops = (rowsTo d log).map (List.map BitVec.toInt) ∧
    rowWidths (sendShapes d ops) = (rowsTo d log).map fun r => (r.length : Int) := by
  induction log with
  | nil =>
    intro ops got h _
    injection h with h
    injection h with h _
    subst h
    exact ⟨rfl, rfl⟩
  | cons e log ih =>
    intro ops got h hm
    obtain ⟨st, h1, h2⟩ := tileRan_cons h
    have hm' := fun a t w v rows hx => hm a t w v rows (List.mem_cons_of_mem _ hx)
    rcases tileNext_cases h1 with ⟨a, t, w, v, rows, rest, rfl, rfl, rfl, rfl⟩ | ⟨a, s, w, v, x, rest, rfl, rfl, hlt, rfl⟩ |
      ⟨a, s, w, v, rest, rfl, rfl, hnv, rfl⟩ | ⟨rest, rfl, rfl, rfl, rfl⟩
    · obtain ⟨i1, i2⟩ := ih rest [] h2 hm'
      obtain ⟨g1, g2, g3⟩ := hm a t w v rows (List.mem_cons_self ..)
      unfold sentRows sendShapes rowsTo at *
      rw [List.flatMap_cons, List.flatMap_cons, List.filterMap_cons]
      dsimp only
      by_cases ht : t = (d : Int)
      · rw [if_pos ht, if_pos ht, if_pos ht, List.map_append, List.map_append, i1, g3]
        refine ⟨rfl, ?_⟩
        unfold rowWidths at *
        rw [List.flatMap_cons, i2]
        congr 1
        rw [show ((w, v) : Int × Int).2.toNat = rows.length by dsimp only; omega]
        symm
        rw [List.eq_replicate_iff]
        refine ⟨by simp, ?_⟩
        intro b hb
        obtain ⟨r, hr, rfl⟩ := List.mem_map.1 hb
        exact g2 r hr
      · rw [if_neg ht, if_neg ht, if_neg ht]
        exact ⟨i1, i2⟩
    · have key : ∀ ops' got', tileRan (ops', got') log = some ([], []) → (ops' = .receive a s w v :: rest ∨ ops' = rest) →
          sentRows mem d (.receive a s w v :: rest) = (rowsTo d (.row s x :: log)).map (List.map BitVec.toInt) ∧
          rowWidths (sendShapes d (.receive a s w v :: rest)) = (rowsTo d (.row s x :: log)).map fun r => (r.length : Int) := by
        intro ops' got' h3 h4
        have := ih ops' got' h3 hm'
        rcases h4 with rfl | rfl <;> exact this
      split at h2
      · exact key _ _ h2 (.inl rfl)
      · exact key _ _ h2 (.inr rfl)
    · exact ih rest [] h2 hm'
    · exact ih rest [] h2 hm'

/-! ## Recvs -/

/-- The rows that the first operation has got from tile `src`. -/
def headRows (src : Nat) (ops : List TileOp) (got : List (List I32)) : List (List I32) :=
  match ops with
  | .receive _ s _ _ :: _ => if s = (src : Int) then got else []
  | _ => []

theorem headRows_nil (src : Nat) (ops : List TileOp) : headRows src ops [] = [] := by
  unfold headRows
  split
  · split <;> rfl
  · rfl

/-- The rows that the first operation has got have its shape. -/
def gotShape (ops : List TileOp) (got : List (List I32)) : Prop :=
  match ops with
  | .receive _ _ w v :: _ => got.length ≤ v.toNat ∧ ∀ r ∈ got, (r.length : Int) = w
  | _ => True

theorem gotShape_nil (ops : List TileOp) : gotShape ops [] := by
  unfold gotShape
  split <;> simp

theorem received_rows {mem : Nat → Int} (src : Nat) (log : List TileEv) : ∀ (ops : List TileOp) (got : List (List I32)),
    tileRan (ops, got) log = some ([], []) → gotShape ops got →
    (rowsFrom src log).map (fun r => (r.length : Int)) <+:
      (rowWidths (recvShapes src ops)).drop (headRows src ops got).length →
    (∀ a s w v rows, .received a s w v rows ∈ log → rows.length = v.toNat → (∀ r ∈ rows, (r.length : Int) = w) →
      rowsAt mem a w v = rows.map (List.map BitVec.toInt)) →
    recvRows mem src ops = (headRows src ops got ++ rowsFrom src log).map (List.map BitVec.toInt) := by
  induction log with
  | nil =>
    intro ops got h _ _ _
    injection h with h
    injection h with h _
    subst h
    rfl
  | cons e log ih =>
    intro ops got h hg hp hm
    obtain ⟨st, h1, h2⟩ := tileRan_cons h
    have hm' := fun a t w v rows hx => hm a t w v rows (List.mem_cons_of_mem _ hx)
    rcases tileNext_cases h1 with ⟨a, t, w, v, rows, rest, rfl, rfl, rfl, rfl⟩ | ⟨a, s, w, v, x, rest, rfl, rfl, hlt, rfl⟩ |
      ⟨a, s, w, v, rest, rfl, rfl, hnv, rfl⟩ | ⟨rest, rfl, rfl, rfl, rfl⟩
    · have := ih rest [] h2 (gotShape_nil _) (by rw [headRows_nil]; exact hp) hm'
      rw [headRows_nil] at this
      exact this
    · by_cases hs : s = (src : Int)
      · have hf : rowsFrom src (.row s x :: log) = x :: rowsFrom src log := by
          unfold rowsFrom; rw [List.flatMap_cons]; dsimp only; rw [if_pos hs]; rfl
        have hr : rowWidths (recvShapes src (.receive a s w v :: rest))
            = List.replicate v.toNat w ++ rowWidths (recvShapes src rest) := by
          unfold recvShapes rowWidths; rw [List.filterMap_cons]; dsimp only; rw [if_pos hs]; rfl
        have hgot : ∀ g, headRows src (.receive a s w v :: rest) g = g := fun g => by
          unfold headRows; dsimp only; rw [if_pos hs]
        rw [hgot, hf, hr, List.drop_append_of_le_length (by rw [List.length_replicate]; exact hg.1), List.drop_replicate,
          show v.toNat - got.length = (v.toNat - (got.length + 1)) + 1 by omega, List.replicate_succ, List.cons_append,
          List.map_cons, List.cons_prefix_cons] at hp
        rw [if_pos hp.1] at h2
        have := ih (.receive a s w v :: rest) (got ++ [x]) h2 ⟨by rw [List.length_append, List.length_singleton]; omega, by
            intro r hr
            rcases List.mem_append.1 hr with hr | hr
            · exact hg.2 r hr
            · rw [List.mem_singleton.1 hr]; exact hp.1⟩ (by
          rw [hgot, hr, List.drop_append_of_le_length (by
            rw [List.length_replicate, List.length_append, List.length_singleton]; omega), List.drop_replicate,
            List.length_append, List.length_singleton]
          exact hp.2) hm'
        rw [this, hgot, hgot, hf, List.append_assoc]
        rfl
      · have hf : rowsFrom src (.row s x :: log) = rowsFrom src log := by
          unfold rowsFrom; rw [List.flatMap_cons]; dsimp only; rw [if_neg hs]; rfl
        have hgot : ∀ g, headRows src (.receive a s w v :: rest) g = [] := fun g => by
          unfold headRows; dsimp only; rw [if_neg hs]
        rw [hf] at hp ⊢
        rw [hgot] at hp ⊢
        split at h2
        · rename_i hx
          have := ih (.receive a s w v :: rest) (got ++ [x]) h2 ⟨by rw [List.length_append, List.length_singleton]; omega, by
            intro r hr
            rcases List.mem_append.1 hr with hr | hr
            · exact hg.2 r hr
            · rw [List.mem_singleton.1 hr]; exact hx⟩ (by rw [hgot]; exact hp) hm'
          rw [hgot] at this
          exact this
        · have hr : recvShapes src (.receive a s w v :: rest) = recvShapes src rest := by
            unfold recvShapes; rw [List.filterMap_cons]; dsimp only; rw [if_neg hs]
          rw [hr] at hp
          have := ih rest [] h2 (gotShape_nil _) (by rw [headRows_nil]; exact hp) hm'
          rw [headRows_nil] at this
          rw [← this]
          unfold recvRows
          rw [List.flatMap_cons]
          dsimp only
          rw [if_neg hs]
          rfl
    · have hf : rowsFrom src (.received a s w v got :: log) = rowsFrom src log := rfl
      have hlen : got.length = v.toNat := by have := hg.1; omega
      have hmine := hm a s w v got (List.mem_cons_self ..) hlen hg.2
      rw [hf] at hp ⊢
      by_cases hs : s = (src : Int)
      · have hr : rowWidths (recvShapes src (.receive a s w v :: rest))
            = List.replicate v.toNat w ++ rowWidths (recvShapes src rest) := by
          unfold recvShapes rowWidths; rw [List.filterMap_cons]; dsimp only; rw [if_pos hs]; rfl
        have hgot : ∀ g, headRows src (.receive a s w v :: rest) g = g := fun g => by
          unfold headRows; dsimp only; rw [if_pos hs]
        rw [hgot, hr, List.drop_append_of_le_length (by rw [List.length_replicate]; omega), List.drop_replicate, hlen,
          Nat.sub_self] at hp
        have := ih rest [] h2 (gotShape_nil _) (by rw [headRows_nil]; exact hp) hm'
        rw [headRows_nil] at this
        rw [hgot, List.map_append, ← hmine]
        unfold recvRows at *
        rw [List.flatMap_cons, this]
        dsimp only
        rw [if_pos hs]
        rfl
      · have hgot : ∀ g, headRows src (.receive a s w v :: rest) g = [] := fun g => by
          unfold headRows; dsimp only; rw [if_neg hs]
        have hr : recvShapes src (.receive a s w v :: rest) = recvShapes src rest := by
          unfold recvShapes; rw [List.filterMap_cons]; dsimp only; rw [if_neg hs]
        rw [hgot, hr] at hp
        have := ih rest [] h2 (gotShape_nil _) (by rw [headRows_nil]; exact hp) hm'
        rw [headRows_nil] at this
        rw [hgot, ← this]
        unfold recvRows
        rw [List.flatMap_cons]
        dsimp only
        rw [if_neg hs]
        rfl
    · have := ih rest [] h2 (gotShape_nil _) (by rw [headRows_nil]; exact hp) hm'
      rw [headRows_nil] at this
      exact this

theorem recvRows_length (mem : Nat → Int) (src : Nat) (ops : List TileOp) :
    (recvRows mem src ops).length = (rowWidths (recvShapes src ops)).length := by
  induction ops with
  | nil => rfl
  | cons op ops ih =>
    unfold recvRows recvShapes rowWidths at *
    rw [List.flatMap_cons, List.length_append, ih, List.filterMap_cons]
    cases op with
    | receive a s w v =>
      dsimp only
      by_cases hs : s = (src : Int)
      · rw [if_pos hs, if_pos hs, List.flatMap_cons, List.length_append, List.length_replicate, rowsAt_length]
      · rw [if_neg hs, if_neg hs]; simp
    | _ => simp

/-! ## Words of the final memory -/

section
variable {lat : Int} {m0 : Memory} {v0 : List Bool} {t0 : Nat} {c : Ctrl}

/-- What a read has found is there at the end. -/
theorem read_final (h : CtrlInv lat m0 v0 t0 c) (hv : oneValue m0 v0 (writesOf c.answers)) {r : Req} {tm : Nat}
    {d : List I32} (hr : .read r tm d ∈ c.answers) :
    d.map BitVec.toInt = wordsAt (fun a => (c.mem.cells.getD a 0).toInt) r.start.toNat r.length.toNat := by
  obtain ⟨l1, l2, hl⟩ := List.append_of_mem hr
  have g := h.ans.reads l1 r tm d l2 hl
  rw [g.value]
  unfold wordsAt
  rw [List.map_map]
  apply List.map_congr_left
  intro j hj
  have hj := List.mem_range.1 hj
  have hin := g.inside
  unfold inDram at hin
  have hcov : covers r (r.start.toNat + j) := by unfold covers; omega
  have hlt : r.start.toNat + j < m0.size := by omega
  show BitVec.toInt (wordAfter _ _ _) = _
  congr 1
  rw [h.mem.cells _ hlt]
  have hsub : ∀ w ∈ writesOf l1, w ∈ writesOf c.answers := by
    rw [hl]; intro w hm; rw [writesOf_append]; exact List.mem_append_left _ hm
  have hself := subWrites_refl (writesOf_isWrite h.line)
  refine word_agree hv (subWrites_of_subset hsub hself) hself _ (g.valid _ hcov) ?_
  rcases (wordValid_iff _ _ _).1 (g.valid _ hcov) with h1 | ⟨w, h1, h2⟩
  · exact (wordValid_iff _ _ _).2 (.inl h1)
  · exact (wordValid_iff _ _ _).2 (.inr ⟨w, hsub w h1, h2⟩)

/-- What a write has written is there at the end. -/
theorem write_final (h : CtrlInv lat m0 v0 t0 c) (hv : oneValue m0 v0 (writesOf c.answers)) {r : Req} {tm : Nat}
    {d : List I32} {n : Nat} (hr : .wrote r tm ∈ c.answers) (hk : r.kind = .write d n) :
    d.map BitVec.toInt = wordsAt (fun a => (c.mem.cells.getD a 0).toInt) r.start.toNat d.length := by
  have hin := h.ans.writes r tm hr
  have hw : r ∈ writesOf c.answers := writesOf_mem.2 ⟨tm, hr⟩
  have hlen : r.length = d.length := by simp only [Req.length, hk]
  unfold inDram at hin
  apply List.ext_getElem
  · rw [List.length_map, wordsAt_length]
  · intro j h1 h2
    rw [List.length_map] at h1
    rw [List.getElem_map]
    unfold wordsAt at h2 ⊢
    rw [List.getElem_map, List.getElem_range]
    have hcov : covers r (r.start.toNat + j) := by unfold covers; omega
    show d[j].toInt = (c.mem.cells.getD (r.start.toNat + j) 0).toInt
    rw [h.mem.cells _ (by omega)]
    congr 1
    have hval : r.value (r.start.toNat + j) = d[j] := by
      simp only [Req.value, hk]
      rw [show (((r.start.toNat + j : Nat) : Int) - r.start).toNat = j by omega, List.getD_eq_getElem?_getD,
        List.getElem?_eq_getElem h1]
      rfl
    rw [← hval]
    rcases wordAfter_cases (r.start.toNat + j) (writesOf c.answers) (m0.cells.getD (r.start.toNat + j) 0) with
      ⟨-, h4⟩ | ⟨w, h4, h5, h6⟩
    · exact absurd hcov (h4 r hw)
    · rw [h6]
      exact (hv w h4 _ h5).2 r hw hcov

/-- Words that were there at the beginning are there at the end. -/
theorem given_final (h : CtrlInv lat m0 v0 t0 c) (hv : oneValue m0 v0 (writesOf c.answers)) {a : Nat} (ha : a < m0.size)
    (hval : v0.getD a false = true) : c.mem.cells.getD a 0 = m0.cells.getD a 0 := by
  rw [h.mem.cells a ha]
  rcases wordAfter_cases a (writesOf c.answers) (m0.cells.getD a 0) with ⟨h1, -⟩ | ⟨w, h1, h2, h3⟩
  · exact h1
  · rw [h3, (hv w h1 a h2).1 hval]

end

end Ramwich
