import Verif.Spec.Stats

/-! # Merging statistics -/
namespace Ramwich

open Spec

theorem merge_eq_add (a b : Stats) : a.merge b = a + b := rfl
theorem empty_eq_zero : ({} : Stats) = 0 := rfl

theorem find_some_mem (d : StatsDict) (k : String) (r : Ref) (h : d.find k = some r) : (k, r) ∈ d := by
  induction d with
  | nil => cases h
  | cons e d ih =>
    unfold StatsDict.find at h
    split at h
    · rename_i he; injection h with h; subst he h; exact List.mem_cons_self
    · exact List.mem_cons_of_mem _ (ih h)

theorem find_none (d : StatsDict) (k : String) : d.find k = none ↔ k ∉ names d := by
  induction d with
  | nil => simp [StatsDict.find, names]
  | cons e d ih =>
    unfold StatsDict.find
    by_cases he : e.1 = k
    · simp [he, names]
    · rw [if_neg he, ih]
      simp [names, Ne.symm he]

theorem find_of_mem (d : StatsDict) (hn : (names d).Nodup) (k : String) (r : Ref) (h : (k, r) ∈ d) :
    d.find k = some r := by
  induction d with
  | nil => cases h
  | cons e d ih =>
    simp only [names, List.map_cons, List.nodup_cons] at hn
    unfold StatsDict.find
    cases h with
    | head => simp
    | tail _ h =>
      have : e.1 ≠ k := fun he => hn.1 (he ▸ List.mem_map.2 ⟨(k, r), h, rfl⟩)
      rw [if_neg this]
      exact ih hn.2 h

theorem find_append (d : StatsDict) (e : String × Ref) (k : String) :
    (d ++ [e]).find k = match d.find k with | some r => some r | none => if e.1 = k then some e.2 else none := by
  induction d with
  | nil => rfl
  | cons a d ih =>
    rw [List.cons_append]
    unfold StatsDict.find
    by_cases ha : a.1 = k
    · rw [if_pos ha, if_pos ha]
    · rw [if_neg ha, if_neg ha, ih]

theorem mem_refs_of_find {d : StatsDict} {k : String} {r : Ref} (h : d.find k = some r) : r ∈ refs d :=
  List.mem_map.2 ⟨(k, r), find_some_mem d k r h, rfl⟩

theorem mem_names_of_find {d : StatsDict} {k : String} {r : Ref} (h : d.find k = some r) : k ∈ names d :=
  List.mem_map.2 ⟨(k, r), find_some_mem d k r h, rfl⟩

theorem get_put (h : Heap) (r r' : Ref) (s : Stats) :
    (h.put r s).get r' = if r = r' ∧ r < h.length then s else h.get r' := by
  unfold Heap.put Heap.get
  rw [List.getD_eq_getElem?_getD, List.getElem?_set, List.getD_eq_getElem?_getD]
  by_cases h1 : r = r'
  · subst h1
    by_cases h2 : r < h.length
    · simp [h2]
    · simp [h2, List.getElem?_eq_none (Nat.le_of_not_lt h2)]
  · simp [h1]

@[simp] theorem length_put (h : Heap) (r : Ref) (s : Stats) : (h.put r s).length = h.length := by
  simp [Heap.put]

theorem refs_inj (d : StatsDict) (hr : (refs d).Nodup) :
    ∀ x ∈ d, ∀ y ∈ d, x.2 = y.2 → x = y := by
  induction d with
  | nil => simp
  | cons e d ih =>
    simp only [refs, List.map_cons, List.nodup_cons] at hr
    intro x hx y hy hxy
    rcases List.mem_cons.1 hx with h1 | h1 <;> rcases List.mem_cons.1 hy with h2 | h2
    · rw [h1, h2]
    · subst h1; exact absurd (List.mem_map.2 ⟨y, h2, hxy.symm⟩) hr.1
    · subst h2; exact absurd (List.mem_map.2 ⟨x, h1, hxy⟩) hr.1
    · exact ih hr.2 x h1 y h2 hxy

/-- Different keys of a well-formed dictionary hold different objects. -/
theorem find_inj {d : StatsDict} (hr : (refs d).Nodup) (k k' : String) (r : Ref)
    (h : d.find k = some r) (h' : d.find k' = some r) : k = k' := by
  have m := find_some_mem d k r h
  have m' := find_some_mem d k' r h'
  have := (refs_inj d hr) _ m _ m' rfl
  exact congrArg Prod.fst this

/-- One round of `merge`, for an entry whose object is foreign to the receiver. -/
theorem mergeEntry_spec (d : StatsDict) (h : Heap) (e : String × Ref) (wf : wellFormed d h)
    (he : e.2 < h.length) (hf : e.2 ∉ refs d) :
    let p := StatsDict.mergeEntry (d, h) e
    wellFormed p.1 p.2 ∧ p.2.length = h.length ∧
    (∀ k, statOf p.1 p.2 k = statOf d h k + if e.1 = k then h.get e.2 else 0) ∧
    (∀ r, r ∉ refs d → p.2.get r = h.get r) ∧
    (∀ r, r ∈ refs p.1 ↔ r ∈ refs d ∨ (r = e.2 ∧ e.1 ∉ names d)) ∧
    (∀ k, k ∈ names p.1 ↔ k ∈ names d ∨ k = e.1) := by
  unfold StatsDict.mergeEntry
  dsimp only
  cases hfind : d.find e.1 with
  | some r =>
    have hrd : r ∈ refs d := mem_refs_of_find hfind
    have hne : r ≠ e.2 := fun hh => hf (hh ▸ hrd)
    dsimp only
    refine ⟨⟨wf.names, wf.refs, by simpa using wf.alive⟩, by simp, ?_, ?_, ?_, ?_⟩
    · intro k
      unfold statOf
      cases hk : d.find k with
      | none =>
        have : e.1 ≠ k := fun hh => by rw [hh, hk] at hfind; cases hfind
        simp [this]
      | some r' =>
        dsimp only
        rw [get_put]
        by_cases hek : e.1 = k
        · subst hek
          rw [hk] at hfind; injection hfind with hfind; subst hfind
          simp [wf.alive _ hrd, merge_eq_add]
        · have : r ≠ r' := fun hh => hek (find_inj wf.refs _ _ r hfind (hh ▸ hk))
          simp [this, hek]
    · intro r' hr'
      rw [get_put, if_neg]
      rintro ⟨rfl, -⟩
      exact hr' hrd
    · intro r'
      have := mem_names_of_find hfind
      simp [this]
    · intro k
      constructor
      · exact Or.inl
      · rintro (h | rfl)
        · exact h
        · exact mem_names_of_find hfind
  | none =>
    have hn := (find_none d e.1).1 hfind
    refine ⟨⟨?_, ?_, ?_⟩, rfl, ?_, fun _ _ => rfl, ?_, ?_⟩
    · simp only [names, List.map_append, List.map_cons, List.map_nil]
      rw [List.nodup_append]
      exact ⟨wf.names, by simp, fun a ha b hb hh => by
        rw [List.mem_singleton] at hb
        exact hn (hb ▸ hh ▸ ha)⟩
    · simp only [refs, List.map_append, List.map_cons, List.map_nil]
      rw [List.nodup_append]
      exact ⟨wf.refs, by simp, fun a ha b hb hh => by
        rw [List.mem_singleton] at hb
        exact hf (hb ▸ hh ▸ ha)⟩
    · intro r hr
      simp only [refs, List.map_append, List.map_cons, List.map_nil, List.mem_append, List.mem_singleton] at hr
      rcases hr with hr | rfl
      · exact wf.alive r hr
      · exact he
    · intro k
      unfold statOf
      dsimp only
      rw [find_append]
      cases hk : d.find k with
      | some r =>
        have : e.1 ≠ k := fun hh => by rw [hh, hk] at hfind; cases hfind
        simp [this]
      | none =>
        by_cases hek : e.1 = k <;> simp [hek]
    · intro r
      simp only [refs, List.map_append, List.map_cons, List.map_nil, List.mem_append, List.mem_singleton, hn,
        not_false_eq_true, and_true]
    · intro k
      simp only [names, List.map_append, List.map_cons, List.map_nil, List.mem_append, List.mem_singleton]

theorem entry_cons (e : String × Ref) (d : StatsDict) (h : Heap) (k : String) (hn : (names (e :: d)).Nodup) :
    statOf (e :: d) h k = (if e.1 = k then h.get e.2 else 0) + statOf d h k := by
  unfold statOf
  rw [StatsDict.find]
  by_cases he : e.1 = k
  · have : d.find k = none := by
      rw [find_none, ← he]
      simp only [names, List.map_cons, List.nodup_cons] at hn
      exact hn.1
    simp [he, this]
  · simp [he]

/-- `merge` of two dictionaries without shared objects. -/
theorem merge_spec (a b : StatsDict) (h : Heap) (wa : wellFormed a h) (wb : wellFormed b h)
    (hs : separate a b) :
    let p := a.merge b h
    wellFormed p.1 p.2 ∧ p.2.length = h.length ∧
    (∀ k, statOf p.1 p.2 k = statOf a h k + statOf b h k) ∧
    (∀ r, r ∉ refs a → p.2.get r = h.get r) ∧
    (∀ r, r ∈ refs p.1 → r ∈ refs a ∨ r ∈ refs b) ∧
    (∀ k, k ∈ names p.1 ↔ k ∈ names a ∨ k ∈ names b) := by
  unfold StatsDict.merge
  induction b generalizing a h with
  | nil => exact ⟨wa, rfl, by simp [statOf, StatsDict.find], fun _ _ => rfl, fun _ h => Or.inl h, by simp [names]⟩
  | cons e b ih =>
    have he : e.2 ∈ refs (e :: b) := by simp [refs]
    have hf : e.2 ∉ refs a := fun h' => hs _ h' he
    obtain ⟨w1, l1, e1, g1, r1, n1⟩ := mergeEntry_spec a h e wa (wb.alive _ he) hf
    rw [List.foldl_cons]
    generalize hp : StatsDict.mergeEntry (a, h) e = p at *
    obtain ⟨a', h'⟩ := p
    dsimp only at *
    have hnb : e.1 ∉ names b ∧ (names b).Nodup := by
      have := wb.names; simpa [names] using this
    have hrb : e.2 ∉ refs b ∧ (refs b).Nodup := by
      have := wb.refs; simpa [refs] using this
    have wb' : wellFormed b h' :=
      ⟨hnb.2, hrb.2, fun r hr => by rw [l1]; exact wb.alive r (by simp only [refs, List.map_cons]; exact List.mem_cons_of_mem _ hr)⟩
    have hs' : separate a' b := by
      intro r hr hrb'
      rcases (r1 r).1 hr with h1 | ⟨h1, -⟩
      · exact hs r h1 (by simp only [refs, List.map_cons]; exact List.mem_cons_of_mem _ hrb')
      · exact hrb.1 (h1 ▸ hrb')
    obtain ⟨w2, l2, e2, g2, r2, n2⟩ := ih a' h' w1 wb' hs'
    have hbent : ∀ k, statOf b h' k = statOf b h k := by
      intro k
      unfold statOf
      cases hk : StatsDict.find b k with
      | none => rfl
      | some r =>
        exact g1 r fun hr => hs r hr (by
          simp only [refs, List.map_cons]; exact List.mem_cons_of_mem _ (mem_refs_of_find hk))
    refine ⟨w2, l2.trans l1, ?_, ?_, ?_, ?_⟩
    · intro k
      rw [e2, e1, hbent, entry_cons e b h k wb.names, add_assoc]
    · intro r hr
      by_cases hra : r ∈ refs a'
      · -- the only new object of the receiver is the foreign one, which later rounds may change
        rcases (r1 r).1 hra with h1 | ⟨h1, h2⟩
        · exact absurd h1 hr
        · -- it is only changed if the key comes again, which it does not
          subst h1
          have hfind : a'.find e.1 = some e.2 := by
            have hin : (e.1, e.2) ∈ a' := by
              have : a' = a ++ [e] := by
                have := congrArg Prod.fst hp
                unfold StatsDict.mergeEntry at this
                dsimp only at this
                rw [(find_none a e.1).2 h2] at this
                exact this.symm
              rw [this]; simp
            exact find_of_mem a' w1.names _ _ hin
          have key := e2 e.1
          have hb0 : statOf b h' e.1 = 0 := by
            unfold statOf; rw [(find_none b e.1).2 hnb.1]
          rw [hb0, add_zero] at key
          -- the statOf of the key is still this object
          have keep : ∀ (l : StatsDict) (d : StatsDict) (hh : Heap) (k : String) (r : Ref),
              d.find k = some r → (l.foldl StatsDict.mergeEntry (d, hh)).1.find k = some r := by
            intro l
            induction l with
            | nil => intro d hh k r hd; exact hd
            | cons x l ihl =>
              intro d hh k r hd
              rw [List.foldl_cons]
              unfold StatsDict.mergeEntry
              dsimp only
              cases d.find x.1 with
              | some _ => exact ihl d _ k r hd
              | none => exact ihl (d ++ [x]) hh k r (by rw [find_append, hd])
          have k2 := keep b a' h' e.1 e.2 hfind
          unfold statOf at key
          rw [k2, hfind] at key
          dsimp only at key
          rw [key]
          exact g1 e.2 hf
      · rw [g2 r hra]; exact g1 r hr
    · intro r hr
      rcases r2 r hr with h1 | h1
      · rcases (r1 r).1 h1 with h1 | ⟨h1, -⟩
        · exact Or.inl h1
        · right; rw [h1]; exact he
      · right; simp only [refs, List.map_cons]; exact List.mem_cons_of_mem _ h1
    · intro k
      rw [n2 k, n1 k]
      simp only [names, List.map_cons, List.mem_cons]
      tauto

theorem summary_eq (d : StatsDict) (h : Heap) : d.summary h = (d.map fun e => h.get e.2).sum := by
  have key : ∀ (l : StatsDict) (s : Stats), l.foldl (fun s e => s.merge (h.get e.2)) s
      = s + (l.map fun e => h.get e.2).sum := by
    intro l
    induction l with
    | nil => intro s; simp
    | cons e l ih => intro s; rw [List.foldl_cons, ih, merge_eq_add]; simp [add_assoc]
  unfold StatsDict.summary
  rw [key, empty_eq_zero, zero_add]

/-- The summary is the sum over the names of a dictionary. -/
theorem summary_names (d : StatsDict) (h : Heap) (hn : (names d).Nodup) :
    d.summary h = ((names d).map (statOf d h)).sum := by
  rw [summary_eq]
  unfold names
  rw [List.map_map]
  congr 1
  apply List.map_congr_left
  intro e he
  simp only [Function.comp, statOf, find_of_mem d hn e.1 e.2 he]

/-- It may be taken over any duplicate-free list of names that contains them. -/
theorem summary_superset (d : StatsDict) (h : Heap) (hn : (names d).Nodup) (l : List String) (hl : l.Nodup)
    (hsub : ∀ k ∈ names d, k ∈ l) : d.summary h = (l.map (statOf d h)).sum := by
  rw [summary_names d h hn]
  have h0 : ∀ k, k ∉ names d → statOf d h k = 0 := by
    intro k hk; unfold statOf; rw [(find_none d k).2 hk]
  have h1 : (l.map (statOf d h)).sum = ((l.filter (· ∈ names d)).map (statOf d h)).sum := by
    clear hl hsub
    induction l with
    | nil => rfl
    | cons k l ih =>
      by_cases hk : k ∈ names d
      · simp [hk, ih]
      · simp [hk, ih, h0 k hk]
  rw [h1]
  apply List.Perm.sum_eq
  apply List.Perm.map
  rw [List.perm_ext_iff_of_nodup hn (hl.filter _)]
  intro k
  simp only [List.mem_filter, decide_eq_true_eq]
  exact ⟨fun h => ⟨hsub k h, h⟩, fun h => h.2⟩

/-- Scaling the leakage of a well-formed dictionary. -/
theorem updateLeakage_spec (d : StatsDict) (cycles : Int) (h : Heap) (wf : wellFormed d h) :
    (d.updateLeakage cycles h).length = h.length ∧
    (∀ r, r ∉ refs d → (d.updateLeakage cycles h).get r = h.get r) ∧
    (∀ r ∈ refs d, (d.updateLeakage cycles h).get r
      = { h.get r with leakageEnergy := (h.get r).leakageEnergy * cycles }) := by
  unfold StatsDict.updateLeakage
  induction d generalizing h with
  | nil => exact ⟨rfl, fun _ _ => rfl, by simp [refs]⟩
  | cons e d ih =>
    have hn : e.1 ∉ names d ∧ (names d).Nodup := by have := wf.names; simpa [names] using this
    have hr : e.2 ∉ refs d ∧ (refs d).Nodup := by have := wf.refs; simpa [refs] using this
    have he : e.2 < h.length := wf.alive _ (by simp [refs])
    rw [List.foldl_cons]
    obtain ⟨l, g, s⟩ := ih (h.put e.2 { h.get e.2 with leakageEnergy := (h.get e.2).leakageEnergy * cycles })
      ⟨hn.2, hr.2, fun r hr' => by rw [length_put]; exact wf.alive r (by simp only [refs, List.map_cons]; exact List.mem_cons_of_mem _ hr')⟩
    refine ⟨l.trans (by simp), ?_, ?_⟩
    · intro r hr'
      simp only [refs, List.map_cons, List.mem_cons, not_or] at hr'
      rw [g r hr'.2, get_put, if_neg (fun hh => hr'.1 hh.1.symm)]
    · intro r hr'
      simp only [refs, List.map_cons, List.mem_cons] at hr'
      rcases hr' with rfl | hr'
      · rw [g _ hr.1, get_put, if_pos ⟨rfl, he⟩]
      · have hne : e.2 ≠ r := fun hh => hr.1 (hh ▸ hr')
        rw [s r hr', get_put, if_neg (fun hh => hne hh.1)]

end Ramwich
