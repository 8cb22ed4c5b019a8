import Verif.Spec.GetStatsFloat
import Verif.Lemmas.GetStatsParts
import Verif.Lemmas.Float64

/-! # The float64 report follows the exact one -/
namespace Ramwich

open Spec

/-- Near in all four numbers. -/
structure NearStats (n : Nat) (a x : Stats) : Prop where
  count : a.activationCount = x.activationCount
  dyn : Near n a.dynamicEnergy x.dynamicEnergy
  leak : Near n a.leakageEnergy x.leakageEnergy
  area : Near n a.area x.area

theorem nearStats_zero (n : Nat) : NearStats n 0 0 := ⟨rfl, near_zero n, near_zero n, near_zero n⟩

theorem nearStats_mono {n m : Nat} {a x : Stats} (h : NearStats n a x) (hm : n ≤ m) : NearStats m a x :=
  ⟨h.count, near_mono h.dyn hm, near_mono h.leak hm, near_mono h.area hm⟩

theorem near_sumF {n m k : Nat} {a x b y : ℚ} (h : Near n a x) (h' : Near m b y) (hn : n + 1 ≤ k) (hm : m + 1 ≤ k) :
    Near k (f64 (a + b)) (x + y) :=
  near_mono (near_f64 (near_add (near_mono h (le_max_left n m)) (near_mono h' (le_max_right n m)))) (by omega)

theorem nearStats_merge {n m k : Nat} {a x b y : Stats} (h : NearStats n a x) (h' : NearStats m b y)
    (hn : n + 1 ≤ k) (hm : m + 1 ≤ k) : NearStats k (a.mergeF b) (x + y) :=
  ⟨congrArg₂ (· + ·) h.count h'.count, near_sumF h.dyn h'.dyn hn hm, near_sumF h.leak h'.leak hn hm,
    near_sumF h.area h'.area hn hm⟩

theorem near_prodF {n : Nat} {a x : ℚ} (c : ℚ) (hc : 0 ≤ c) (h : Near n a x) : Near (n + 2) (prodF a c) (x * c) := by
  unfold prodF
  exact near_mono (near_f64 (near_mul h (near_f64 (near_refl c hc)))) (by omega)

/-- One round of `merge` with rounding changes the same object as without. -/
theorem mergeEntryF_fst (d : StatsDict) (h h0 : Heap) (e : String × Ref) :
    (StatsDict.mergeEntryF (d, h) e).1 = (StatsDict.mergeEntry (d, h0) e).1 := by
  unfold StatsDict.mergeEntryF StatsDict.mergeEntry
  dsimp only
  cases d.find e.1 <;> rfl

theorem mergeEntryF_len (d : StatsDict) (h : Heap) (e : String × Ref) :
    (StatsDict.mergeEntryF (d, h) e).2.length = h.length := by
  unfold StatsDict.mergeEntryF
  dsimp only
  cases d.find e.1 <;> simp

theorem mergeF_fst (b a : StatsDict) (h h0 : Heap) : (a.mergeF b h).1 = (a.merge b h0).1 := by
  unfold StatsDict.mergeF StatsDict.merge
  induction b generalizing a h h0 with
  | nil => rfl
  | cons e b ih =>
    rw [List.foldl_cons, List.foldl_cons]
    have := mergeEntryF_fst a h h0 e
    generalize StatsDict.mergeEntryF (a, h) e = p at *
    generalize StatsDict.mergeEntry (a, h0) e = q at *
    obtain ⟨p1, p2⟩ := p
    obtain ⟨q1, q2⟩ := q
    dsimp only at this
    subst this
    exact ih _ _ _

theorem mergeF_len (b a : StatsDict) (h : Heap) : (a.mergeF b h).2.length = h.length := by
  unfold StatsDict.mergeF
  induction b generalizing a h with
  | nil => rfl
  | cons e b ih =>
    rw [List.foldl_cons]
    have := mergeEntryF_len a h e
    generalize StatsDict.mergeEntryF (a, h) e = p at *
    obtain ⟨p1, p2⟩ := p
    dsimp only at this
    rw [ih, this]

/-- What becomes of the object of the receiver. -/
theorem mergeF_get (b a : StatsDict) (h : Heap) (wa : wellFormed a h) (wb : wellFormed b h) (hs : separate a b) :
    (∀ r, r ∉ refs a → (a.mergeF b h).2.get r = h.get r) ∧
    (∀ k r, a.find k = some r → (a.mergeF b h).2.get r
      = match b.find k with | some r' => (h.get r).mergeF (h.get r') | none => h.get r) := by
  unfold StatsDict.mergeF
  induction b generalizing a h with
  | nil => exact ⟨fun _ _ => rfl, fun _ _ _ => rfl⟩
  | cons e b ih =>
    have he : e.2 ∈ refs (e :: b) := by simp [refs]
    have hf : e.2 ∉ refs a := fun h' => hs _ h' he
    obtain ⟨w1, -, -, -, r1, -⟩ := mergeEntry_spec a h e wa (wb.alive _ he) hf
    have hnb : e.1 ∉ names b ∧ (names b).Nodup := by
      have := wb.names; simpa [names] using this
    have hrb : e.2 ∉ refs b ∧ (refs b).Nodup := by
      have := wb.refs; simpa [refs] using this
    have sub : ∀ r ∈ refs b, r ∈ refs (e :: b) := fun r hr => by
      simp only [refs, List.map_cons]; exact List.mem_cons_of_mem _ hr
    rw [List.foldl_cons]
    have hfst := mergeEntryF_fst a h h e
    cases hfind : a.find e.1 with
    | some r0 =>
      have h0 : r0 ∈ refs a := mem_refs_of_find hfind
      have hp : StatsDict.mergeEntryF (a, h) e = (a, h.put r0 ((h.get r0).mergeF (h.get e.2))) := by
        unfold StatsDict.mergeEntryF; dsimp only; rw [hfind]
      rw [hp]
      obtain ⟨g, v⟩ := ih a (h.put r0 ((h.get r0).mergeF (h.get e.2)))
        ⟨wa.names, wa.refs, by rw [length_put]; exact wa.alive⟩
        ⟨hnb.2, hrb.2, fun r hr => by rw [length_put]; exact wb.alive r (sub r hr)⟩
        (fun r hr hb => hs r hr (sub r hb))
      have keep : ∀ r, r ≠ r0 → (h.put r0 ((h.get r0).mergeF (h.get e.2))).get r = h.get r := fun r hr => by
        rw [get_put, if_neg (fun hh => hr hh.1.symm)]
      refine ⟨fun r hr => ?_, fun k r hk => ?_⟩
      · rw [g r hr, keep r (fun hh => hr (hh ▸ h0))]
      · rw [v k r hk]
        rw [StatsDict.find]
        by_cases hek : e.1 = k
        · subst hek
          rw [hfind] at hk; injection hk with hk; subst hk
          rw [if_pos rfl, (find_none b e.1).2 hnb.1]
          dsimp only
          rw [get_put, if_pos ⟨rfl, wa.alive _ h0⟩]
        · rw [if_neg hek]
          have hne : r ≠ r0 := fun hh => hek (find_inj wa.refs _ _ r0 hfind (hh ▸ hk))
          cases hb : StatsDict.find b k with
          | none => exact keep r hne
          | some r' =>
            have : r' ≠ r0 := fun hh => hs r0 h0 (sub r0 (hh ▸ mem_refs_of_find hb))
            dsimp only
            rw [keep r hne, keep r' this]
    | none =>
      have hp : StatsDict.mergeEntryF (a, h) e = (a ++ [e], h) := by
        unfold StatsDict.mergeEntryF; dsimp only; rw [hfind]
      have hp' : StatsDict.mergeEntry (a, h) e = (a ++ [e], h) := by
        unfold StatsDict.mergeEntry; dsimp only; rw [hfind]
      rw [hp]
      rw [hp'] at w1 r1
      obtain ⟨g, v⟩ := ih (a ++ [e]) h w1 ⟨hnb.2, hrb.2, fun r hr => wb.alive r (sub r hr)⟩ (by
        intro r hr hb
        rcases (r1 r).1 hr with h1 | ⟨h1, -⟩
        · exact hs r h1 (sub r hb)
        · exact hrb.1 (h1 ▸ hb))
      have last : StatsDict.find (a ++ [e]) e.1 = some e.2 := by rw [find_append, hfind]; simp
      refine ⟨fun r hr => ?_, fun k r hk => ?_⟩
      · by_cases hre : r = e.2
        · subst hre
          rw [v e.1 e.2 last, (find_none b e.1).2 hnb.1]
        · exact g r fun hh => by
            rcases (r1 r).1 hh with h1 | ⟨h1, -⟩
            · exact hr h1
            · exact hre h1
      · have hek : e.1 ≠ k := fun hh => by rw [hh, hk] at hfind; cases hfind
        rw [v k r (by rw [find_append, hk]), StatsDict.find, if_neg hek]

/-- Two calls, exact and with rounding, that have succeeded: the same dictionary, over heaps of the same length;
under a name that `m` components have, the numbers differ by at most `m + c` roundings. -/
structure Parallel (c : Nat) (h hF : Heap) (d : StatsDict) (h' hF' : Heap) (ns : List String) : Prop where
  wf : wellFormed d h'
  len : h.length ≤ h'.length
  lenF : hF'.length = h'.length
  oldF : ∀ r, r < h.length → hF'.get r = hF.get r
  old : ∀ r, r < h.length → h'.get r = h.get r
  fresh : ∀ r ∈ refs d, h.length ≤ r
  keys : ∀ k, k ∈ names d ↔ k ∈ ns
  near : ∀ k, NearStats (ns.count k + c) (statOf d hF' k) (statOf d h' k)

/-- The two calls raise the same exception, or both succeed and are near. -/
def Follows (c : Nat) (cF c0 : StatsCall) (ns : List String) : Prop :=
  ∀ h hF : Heap, hF.length = h.length →
    (∃ e, c0 h = .error e ∧ cF hF = .error e) ∨
    ∃ d h' hF', c0 h = .ok (d, h') ∧ cF hF = .ok (d, hF') ∧ Parallel c h hF d h' hF' ns

theorem statOf_some {d : StatsDict} {h : Heap} {k : String} {r : Ref} (hk : d.find k = some r) :
    statOf d h k = h.get r := by unfold statOf; rw [hk]
theorem statOf_none {d : StatsDict} {h : Heap} {k : String} (hk : d.find k = none) :
    statOf d h k = 0 := by unfold statOf; rw [hk]

theorem parallel_merge (c : Nat) (h hF h1 h1F h2 h2F : Heap) (d x : StatsDict) (ps qs : List String)
    (g : Parallel c h hF d h1 h1F ps) (gx : Parallel c h1 h1F x h2 h2F qs) :
    (d.mergeF x h2F).1 = (d.merge x h2).1 ∧
    Parallel c h hF (d.merge x h2).1 (d.merge x h2).2 (d.mergeF x h2F).2 (ps ++ qs) := by
  have wd : wellFormed d h2 := ⟨g.wf.names, g.wf.refs, fun r hr => lt_of_lt_of_le (g.wf.alive r hr) gx.len⟩
  have sep : separate d x := fun r hr hrx => absurd (g.wf.alive r hr) (Nat.not_lt.2 (gx.fresh r hrx))
  have wdF : wellFormed d h2F := ⟨wd.names, wd.refs, by rw [gx.lenF]; exact wd.alive⟩
  have wxF : wellFormed x h2F := ⟨gx.wf.names, gx.wf.refs, by rw [gx.lenF]; exact gx.wf.alive⟩
  obtain ⟨w, l, e, o, r, n⟩ := merge_spec d x h2 wd gx.wf sep
  obtain ⟨oF, vF⟩ := mergeF_get x d h2F wdF wxF sep
  have hl := g.len
  have hl' := gx.len
  have hfst := mergeF_fst x d h2F h2
  have find1 : ∀ k q, d.find k = some q → (d.merge x h2).1.find k = some q := by
    have key : ∀ (l : StatsDict) (d : StatsDict) (hh : Heap) (k : String) (r : Ref),
        d.find k = some r → (l.foldl StatsDict.mergeEntry (d, hh)).1.find k = some r := by
      intro l
      induction l with
      | nil => intro d hh k r hd; exact hd
      | cons x l ihl =>
        intro d hh k r hd
        rw [List.foldl_cons]
        unfold StatsDict.mergeEntry
        dsimp only
        cases d.find x.1 with
        | some _ => exact ihl d _ k r hd
        | none => exact ihl (d ++ [x]) hh k r (by rw [find_append, hd])
    exact fun k q hk => key x d h2 k q hk
  have find2 : ∀ k q, d.find k = none → x.find k = some q → (d.merge x h2).1.find k = some q := by
    have key : ∀ (l : StatsDict) (d : StatsDict) (hh : Heap) (k : String) (r : Ref),
        d.find k = none → StatsDict.find l k = some r → (l.foldl StatsDict.mergeEntry (d, hh)).1.find k = some r := by
      intro l
      induction l with
      | nil => intro d hh k r _ hl; cases hl
      | cons x l ihl =>
        intro d hh k r hd hl
        rw [List.foldl_cons]
        rw [StatsDict.find] at hl
        by_cases hx : x.1 = k
        · rw [if_pos hx] at hl
          injection hl with hl
          subst hx hl
          have : StatsDict.mergeEntry (d, hh) x = (d ++ [x], hh) := by
            unfold StatsDict.mergeEntry; dsimp only; rw [hd]
          rw [this]
          have keep : ∀ (l : StatsDict) (d : StatsDict) (hh : Heap) (k : String) (r : Ref),
              d.find k = some r → (l.foldl StatsDict.mergeEntry (d, hh)).1.find k = some r := by
            intro l
            induction l with
            | nil => intro d hh k r hd; exact hd
            | cons x l ihl =>
              intro d hh k r hd
              rw [List.foldl_cons]
              unfold StatsDict.mergeEntry
              dsimp only
              cases d.find x.1 with
              | some _ => exact ihl d _ k r hd
              | none => exact ihl (d ++ [x]) hh k r (by rw [find_append, hd])
          exact keep l _ hh _ _ (by rw [find_append, hd]; simp)
        · rw [if_neg hx] at hl
          unfold StatsDict.mergeEntry
          dsimp only
          cases d.find x.1 with
          | some _ => exact ihl d _ k r hd hl
          | none => exact ihl (d ++ [x]) hh k r (by rw [find_append, hd]; simp [hx]) hl
    exact fun k q hk hx => key x d h2 k q hk hx
  refine ⟨hfst, w, by omega, by rw [mergeF_len, l, gx.lenF], ?_, ?_, ?_, ?_, ?_⟩
  · intro q hq
    rw [oF q (fun hqd => by have := g.fresh q hqd; omega), gx.oldF q (by omega), g.oldF q hq]
  · intro q hq
    rw [o q (fun hqd => by have := g.fresh q hqd; omega), gx.old q (by omega), g.old q hq]
  · intro q hq
    rcases r q hq with h1' | h1'
    · exact g.fresh q h1'
    · have := gx.fresh q h1'; omega
  · intro k
    rw [n k, g.keys k, gx.keys k]
    simp
  · intro k
    rw [e k, List.count_append]
    have nd := g.near k
    have nx := gx.near k
    have ed : statOf d h2 k = statOf d h1 k := by
      unfold statOf
      cases hk : d.find k with
      | none => rfl
      | some q => exact gx.old q (g.wf.alive q (mem_refs_of_find hk))
    have edF : ∀ q, d.find k = some q → h2F.get q = h1F.get q :=
      fun q hk => gx.oldF q (g.wf.alive q (mem_refs_of_find hk))
    rw [ed]
    cases hd : d.find k with
    | none =>
      rw [statOf_none hd, statOf_none hd] at nd
      rw [statOf_none hd, zero_add]
      cases hx : StatsDict.find x k with
      | none =>
        have : (d.merge x h2).1.find k = none := by
          rw [find_none, n k]
          rw [find_none] at hd hx
          tauto
        rw [statOf_none this, statOf_none hx]
        exact nearStats_zero _
      | some q =>
        rw [statOf_some (find2 k q hd hx), oF q (fun hh => sep q hh (mem_refs_of_find hx))]
        rw [statOf_some hx] at nx ⊢
        rw [statOf_some hx] at nx
        exact nearStats_mono nx (by omega)
    | some q =>
      have hm : 1 ≤ ps.count k := List.count_pos_iff.2 ((g.keys k).1 (mem_names_of_find hd))
      rw [statOf_some (find1 k q hd), vF k q hd]
      rw [statOf_some hd] at nd ⊢
      rw [statOf_some hd] at nd
      cases hx : StatsDict.find x k with
      | none =>
        dsimp only
        rw [edF q hd, statOf_none hx, add_zero]
        exact nearStats_mono nd (by omega)
      | some q' =>
        have hm' : 1 ≤ qs.count k := List.count_pos_iff.2 ((gx.keys k).1 (mem_names_of_find hx))
        dsimp only
        rw [edF q hd]
        rw [statOf_some hx] at nx ⊢
        rw [statOf_some hx] at nx
        exact nearStats_merge nd nx (by omega) (by omega)

/-- Calls that follow each other one by one. -/
inductive AllFollow (c : Nat) : List StatsCall → List StatsCall → List (List String) → Prop
  | nil : AllFollow c [] [] []
  | cons {cF c0 : StatsCall} {ns : List String} {csF cs : List StatsCall} {nss : List (List String)} :
      Follows c cF c0 ns → AllFollow c csF cs nss → AllFollow c (cF :: csF) (c0 :: cs) (ns :: nss)

theorem allFollow_append {c : Nat} {aF a bF b : List StatsCall} {ns ms : List (List String)}
    (h : AllFollow c aF a ns) (h' : AllFollow c bF b ms) : AllFollow c (aF ++ bF) (a ++ b) (ns ++ ms) := by
  induction h with
  | nil => exact h'
  | cons h _ ih => exact .cons h ih

theorem allFollow_map {c : Nat} {α : Type} (l : List α) (f g : α → StatsCall) (n : α → List String)
    (h : ∀ x ∈ l, Follows c (f x) (g x) (n x)) : AllFollow c (l.map f) (l.map g) (l.map n) := by
  induction l with
  | nil => exact .nil
  | cons x l ih => exact .cons (h x List.mem_cons_self) (ih fun y hy => h y (List.mem_cons_of_mem _ hy))

theorem follows_mergeCalls (c : Nat) (csF cs : List StatsCall) (nss : List (List String))
    (hc : AllFollow c csF cs nss) :
    ∀ h0 h0F d h hF ns, Parallel c h0 h0F d h hF ns →
      (∃ e, mergeCalls d cs h = .error e ∧ mergeCallsF d csF hF = .error e) ∨
      ∃ d' h' hF', mergeCalls d cs h = .ok (d', h') ∧ mergeCallsF d csF hF = .ok (d', hF') ∧
        Parallel c h0 h0F d' h' hF' (ns ++ nss.flatten) := by
  induction hc with
  | nil =>
    intro h0 h0F d h hF ns g
    exact Or.inr ⟨d, h, hF, rfl, rfl, by simpa using g⟩
  | @cons cF c0 qs csF cs nss h1 h2 ih =>
    intro h0 h0F d h hF ns g
    rcases h1 h hF g.lenF with ⟨e, e1, e2⟩ | ⟨x, h1', h1F, e1, e2, gx⟩
    · exact Or.inl ⟨e, by unfold mergeCalls; rw [e1], by unfold mergeCallsF; rw [e2]⟩
    · obtain ⟨ef, gm⟩ := parallel_merge c h0 h0F h hF h1' h1F d x ns qs g gx
      have := ih h0 h0F _ _ _ _ gm
      unfold mergeCalls mergeCallsF
      rw [e1, e2]
      dsimp only
      rw [ef, List.flatten_cons, ← List.append_assoc]
      exact this

theorem follows_merging {c : Nat} {cF c0 : StatsCall} {ns : List String} {csF cs : List StatsCall}
    {nss : List (List String)} (h : Follows c cF c0 ns) (hc : AllFollow c csF cs nss) :
    Follows c (cF.mergingF csF) (c0.merging cs) (ns ++ nss.flatten) := by
  intro h0 h0F hh
  unfold StatsCall.mergingF StatsCall.merging
  rcases h h0 h0F hh with ⟨e, e1, e2⟩ | ⟨d, h', hF', e1, e2, g⟩
  · exact Or.inl ⟨e, by simp only [e1], by simp only [e2]⟩
  · simp only [e1, e2]
    exact follows_mergeCalls c csF cs nss hc h0 h0F d h' hF' ns g

theorem follows_mono {c c' : Nat} {cF c0 : StatsCall} {ns : List String} (h : Follows c cF c0 ns) (hc : c ≤ c') :
    Follows c' cF c0 ns := by
  intro h0 h0F hh
  rcases h h0 h0F hh with he | ⟨d, h', hF', e1, e2, g⟩
  · exact Or.inl he
  · exact Or.inr ⟨d, h', hF', e1, e2, g.wf, g.len, g.lenF, g.oldF, g.old, g.fresh, g.keys,
      fun k => nearStats_mono (g.near k) (by omega)⟩

theorem follows_perm {c : Nat} {cF c0 : StatsCall} {ns ns' : List String} (h : Follows c cF c0 ns)
    (hp : ns.Perm ns') : Follows c cF c0 ns' := by
  intro h0 h0F hh
  rcases h h0 h0F hh with he | ⟨d, h', hF', e1, e2, g⟩
  · exact Or.inl he
  · exact Or.inr ⟨d, h', hF', e1, e2, g.wf, g.len, g.lenF, g.oldF, g.old, g.fresh,
      fun k => (g.keys k).trans hp.mem_iff, fun k => by rw [← hp.count_eq]; exact g.near k⟩

/-- Two arguments of a new dictionary. -/
def closeEntry (c : Nat) (x y : String × Except PyErr Stats) : Prop :=
  x.1 = y.1 ∧ ((∃ e, x.2 = .error e ∧ y.2 = .error e) ∨ ∃ a s, x.2 = .ok a ∧ y.2 = .ok s ∧ NearStats (c + 1) a s)

theorem follows_newDict (c : Nat) (lF l : List (String × Except PyErr Stats))
    (hm : List.Forall₂ (closeEntry c) lF l) (hn : (l.map (·.1)).Nodup) :
    Follows c (newDict lF) (newDict l) (l.map (·.1)) := by
  induction hm with
  | nil =>
    intro h hF hh
    exact Or.inr ⟨[], h, hF, rfl, rfl, ⟨List.nodup_nil, List.nodup_nil, by simp [refs]⟩, le_refl _, hh,
      fun _ _ => rfl, fun _ _ => rfl, by simp [refs], by simp [names], fun _ => nearStats_zero _⟩
  | @cons x y lF l hxy hm ih =>
    obtain ⟨k, s⟩ := x
    obtain ⟨k', v⟩ := y
    obtain ⟨rfl, hv⟩ := hxy
    dsimp only at hv hn
    simp only [List.map_cons, List.nodup_cons] at hn
    intro h hF hh
    rcases hv with ⟨e, rfl, rfl⟩ | ⟨a, s, rfl, rfl, hnear⟩
    · exact Or.inl ⟨e, rfl, rfl⟩
    · rcases ih hn.2 (h.new s).2 (hF.new a).2 (by rw [len_new, len_new, hh]) with
        ⟨e, e1, e2⟩ | ⟨d, h', hF', e1, e2, g⟩
      · exact Or.inl ⟨e, by unfold newDict; rw [e1], by unfold newDict; rw [e2]⟩
      · have h0 : (h.new s).1 = h.length := rfl
        have h0F : (hF.new a).1 = h.length := hh
        have hl := len_new h s
        have hlen : h.length < h'.length := by have := g.len; omega
        have hk : k ∉ names d := fun hk => hn.1 ((g.keys k).1 hk)
        have hr : h.length ∉ refs d := fun hr => by have := g.fresh _ hr; omega
        have wf : wellFormed ((k, h.length) :: d) h' := by
          refine ⟨?_, ?_, ?_⟩
          · simp only [names, List.map_cons, List.nodup_cons]; exact ⟨hk, g.wf.names⟩
          · simp only [refs, List.map_cons, List.nodup_cons]; exact ⟨hr, g.wf.refs⟩
          · intro r hr'
            simp only [refs, List.map_cons, List.mem_cons] at hr'
            rcases hr' with rfl | hr'
            · exact hlen
            · exact g.wf.alive r hr'
        refine Or.inr ⟨(k, h.length) :: d, h', hF', by unfold newDict; rw [e1, h0], by unfold newDict; rw [e2, h0F],
          wf, by have := g.len; omega, g.lenF, ?_, ?_, ?_, ?_, ?_⟩
        · intro r hr'
          rw [g.oldF r (by omega), get_new_old hF a r (lt_of_lt_of_eq hr' hh.symm)]
        · intro r hr'
          rw [g.old r (by omega), get_new_old h s r hr']
        · intro r hr'
          simp only [refs, List.map_cons, List.mem_cons] at hr'
          rcases hr' with rfl | hr'
          · exact le_refl _
          · have := g.fresh r hr'; omega
        · intro k'
          have := g.keys k'
          simp only [names, List.map_cons, List.mem_cons] at this ⊢
          rw [← this]
        · intro k'
          have gk := g.near k'
          by_cases hkk : k = k'
          · subst hkk
            have hf : StatsDict.find ((k, h.length) :: d) k = some h.length := by rw [StatsDict.find]; simp
            rw [statOf_some hf, statOf_some hf, g.old _ (by omega), g.oldF _ (by omega), get_new]
            have : (hF.new a).2.get h.length = a := by rw [← hh]; exact get_new hF a
            rw [this]
            apply nearStats_mono hnear
            simp only [List.map_cons, List.count_cons_self]
            omega
          · have hf : StatsDict.find ((k, h.length) :: d) k' = StatsDict.find d k' := by
              rw [StatsDict.find, if_neg hkk]
            unfold statOf at gk ⊢
            rw [hf]
            rw [List.map_cons, List.count_cons_of_ne (Ne.symm (Ne.symm hkk))]
            exact gk

theorem updateLeakageF_spec (d : StatsDict) (cycles : Int) (h : Heap) (wf : wellFormed d h) :
    (d.updateLeakageF cycles h).length = h.length ∧
    (∀ r, r ∉ refs d → (d.updateLeakageF cycles h).get r = h.get r) ∧
    (∀ r ∈ refs d, (d.updateLeakageF cycles h).get r
      = { h.get r with leakageEnergy := prodF (h.get r).leakageEnergy cycles }) := by
  unfold StatsDict.updateLeakageF
  induction d generalizing h with
  | nil => exact ⟨rfl, fun _ _ => rfl, by simp [refs]⟩
  | cons e d ih =>
    have hn : e.1 ∉ names d ∧ (names d).Nodup := by have := wf.names; simpa [names] using this
    have hr : e.2 ∉ refs d ∧ (refs d).Nodup := by have := wf.refs; simpa [refs] using this
    have he : e.2 < h.length := wf.alive _ (by simp [refs])
    rw [List.foldl_cons]
    obtain ⟨l, g, s⟩ := ih (h.put e.2 { h.get e.2 with leakageEnergy := prodF (h.get e.2).leakageEnergy cycles })
      ⟨hn.2, hr.2, fun r hr' => by rw [length_put]; exact wf.alive r (by simp only [refs, List.map_cons]; exact List.mem_cons_of_mem _ hr')⟩
    refine ⟨l.trans (by simp), ?_, ?_⟩
    · intro r hr'
      simp only [refs, List.map_cons, List.mem_cons, not_or] at hr'
      rw [g r hr'.2, get_put, if_neg (fun hh => hr'.1 hh.1.symm)]
    · intro r hr'
      simp only [refs, List.map_cons, List.mem_cons] at hr'
      rcases hr' with rfl | hr'
      · rw [g _ hr.1, get_put, if_pos ⟨rfl, he⟩]
      · have hne : e.2 ≠ r := fun hh => hr.1 (hh ▸ hr')
        rw [s r hr', get_put, if_neg (fun hh => hne hh.1)]

theorem follows_leaking (c : Nat) (cF c0 : StatsCall) (ns : List String) (n : Int) (hn : 0 ≤ n)
    (h : Follows c cF c0 ns) : Follows (c + 2) (cF.leakingF n) (c0.leaking n) ns := by
  intro h0 h0F hh
  unfold StatsCall.leakingF StatsCall.leaking
  rcases h h0 h0F hh with ⟨e, e1, e2⟩ | ⟨d, h', hF', e1, e2, g⟩
  · exact Or.inl ⟨e, by simp only [e1], by simp only [e2]⟩
  · have wF : wellFormed d hF' := ⟨g.wf.names, g.wf.refs, by rw [g.lenF]; exact g.wf.alive⟩
    obtain ⟨l, o, s⟩ := updateLeakage_spec d n h' g.wf
    obtain ⟨lF, oF, sF⟩ := updateLeakageF_spec d n hF' wF
    refine Or.inr ⟨d, _, _, by simp only [e1]; rfl, by simp only [e2]; rfl,
      ⟨g.wf.names, g.wf.refs, by rw [l]; exact g.wf.alive⟩, by have := g.len; omega, by rw [l, lF, g.lenF], ?_, ?_,
      g.fresh, g.keys, ?_⟩
    · intro r hr
      rw [oF r (fun hrd => by have := g.fresh r hrd; omega), g.oldF r hr]
    · intro r hr
      rw [o r (fun hrd => by have := g.fresh r hrd; omega), g.old r hr]
    · intro k
      have gk := g.near k
      cases hk : d.find k with
      | none => rw [statOf_none hk, statOf_none hk]; exact nearStats_zero _
      | some r =>
        rw [statOf_some hk, statOf_some hk] at gk ⊢
        rw [s r (mem_refs_of_find hk), sF r (mem_refs_of_find hk)]
        exact ⟨gk.count, near_mono gk.dyn (by omega), near_prodF _ (by exact_mod_cast hn) gk.leak,
          near_mono gk.area (by omega)⟩

theorem follows_addDynamic (c : Nat) (hc2 : 2 ≤ c) (cF c0 : StatsCall) (ns : List String) (key : String) (o : Option ℚ)
    (n : ℚ) (hn : 0 ≤ n) (ho : 0 ≤ val o) (h : Follows c cF c0 ns) :
    Follows c (cF.addDynamicF key o n) (c0.addDynamic key o n) (key :: ns) := by
  intro h0 h0F hh
  unfold StatsCall.addDynamicF StatsCall.addDynamic
  rcases h h0 h0F hh with ⟨e, e1, e2⟩ | ⟨d, h', hF', e1, e2, g⟩
  · exact Or.inl ⟨e, by simp only [e1], by simp only [e2]⟩
  · cases o with
    | none => exact Or.inl ⟨.typeError, by simp only [e1, times], by simp only [e2, timesF]⟩
    | some q =>
      cases hf : d.find key with
      | none => exact Or.inl ⟨.keyError, by simp only [e1, times, hf], by simp only [e2, timesF, hf]⟩
      | some r =>
        have hq : Near 2 (prodF q n) (q * n) := near_prodF n hn (near_refl q ho)
        have hrd := mem_refs_of_find hf
        have hra := g.wf.alive r hrd
        have hraF : r < hF'.length := by rw [g.lenF]; exact hra
        have gr := g.fresh r hrd
        refine Or.inr ⟨d, h'.put r { h'.get r with dynamicEnergy := (h'.get r).dynamicEnergy + q * n },
          hF'.put r { hF'.get r with dynamicEnergy := f64 ((hF'.get r).dynamicEnergy + prodF q n) },
          by simp only [e1, times, hf], by simp only [e2, timesF, hf],
          ⟨g.wf.names, g.wf.refs, by rw [length_put]; exact g.wf.alive⟩, by rw [length_put]; exact g.len,
          by rw [length_put, length_put]; exact g.lenF, ?_, ?_, g.fresh, ?_, ?_⟩
        · intro r' hr'
          rw [get_put, if_neg (by rintro ⟨rfl, -⟩; omega), g.oldF r' hr']
        · intro r' hr'
          rw [get_put, if_neg (by rintro ⟨rfl, -⟩; omega), g.old r' hr']
        · intro k
          rw [g.keys k, List.mem_cons]
          constructor
          · exact Or.inr
          · rintro (rfl | h)
            · exact (g.keys _).1 (mem_names_of_find hf)
            · exact h
        · intro k
          have gk := g.near k
          cases hk : d.find k with
          | none => rw [statOf_none hk, statOf_none hk]; exact nearStats_zero _
          | some r' =>
            rw [statOf_some hk, statOf_some hk] at gk ⊢
            rw [get_put, get_put]
            by_cases hkk : key = k
            · subst hkk
              rw [hf] at hk; injection hk with hk; subst hk
              rw [if_pos ⟨rfl, hraF⟩, if_pos ⟨rfl, hra⟩, List.count_cons_self]
              exact ⟨gk.count, near_sumF gk.dyn hq (by omega) (by omega), near_mono gk.leak (by omega),
                near_mono gk.area (by omega)⟩
            · have hne : r ≠ r' := fun hh => hkk (find_inj g.wf.refs _ _ r hf (hh ▸ hk))
              rw [if_neg (fun hh => hne hh.1), if_neg (fun hh => hne hh.1), List.count_cons_of_ne hkk]
              exact gk

/-! ## Single numbers -/

/-- The same exception, both `None`, or near. -/
def NearNum (n : Nat) (a x : Num) : Prop :=
  (∃ e, a = .error e ∧ x = .error e) ∨ (a = .ok none ∧ x = .ok none) ∨
    ∃ q r, a = .ok (some q) ∧ x = .ok (some r) ∧ Near n q r

theorem NearNum.num {n : Nat} {q r : ℚ} (h : Near n q r) : NearNum n (num q) (num r) :=
  Or.inr (Or.inr ⟨q, r, rfl, rfl, h⟩)

theorem NearNum.attr {o : Option ℚ} (h : 0 ≤ val o) : NearNum 0 (attr o) (attr o) := by
  cases o with
  | none => exact Or.inr (Or.inl ⟨rfl, rfl⟩)
  | some q => exact Or.inr (Or.inr ⟨q, q, rfl, rfl, near_refl q h⟩)

theorem NearNum.times {o : Option ℚ} {n : ℚ} (h : 0 ≤ val o) (hn : 0 ≤ n) : NearNum 2 (timesF o n) (times o n) := by
  cases o with
  | none => exact Or.inl ⟨.typeError, rfl, rfl⟩
  | some q => exact Or.inr (Or.inr ⟨_, _, rfl, rfl, near_prodF n hn (near_refl q h)⟩)

theorem NearNum.plus {n m k : Nat} {a x b y : Num} (h : NearNum n a x) (h' : NearNum m b y) (hn : n + 1 ≤ k)
    (hm : m + 1 ≤ k) : NearNum k (plusF a b) (plus x y) := by
  rcases h with ⟨e, rfl, rfl⟩ | ⟨rfl, rfl⟩ | ⟨q, r, rfl, rfl, h⟩
  · exact Or.inl ⟨e, by cases b <;> rfl, by cases y <;> rfl⟩
  · rcases h' with ⟨e', rfl, rfl⟩ | ⟨rfl, rfl⟩ | ⟨q', r', rfl, rfl, h'⟩
    · exact Or.inl ⟨e', rfl, rfl⟩
    · exact Or.inl ⟨.typeError, rfl, rfl⟩
    · exact Or.inl ⟨.typeError, rfl, rfl⟩
  · rcases h' with ⟨e', rfl, rfl⟩ | ⟨rfl, rfl⟩ | ⟨q', r', rfl, rfl, h'⟩
    · exact Or.inl ⟨e', rfl, rfl⟩
    · exact Or.inl ⟨.typeError, rfl, rfl⟩
    · exact Or.inr (Or.inr ⟨_, _, rfl, rfl, near_sumF h h' hn hm⟩)

theorem NearNum.scaled {n : Nat} {a x : Num} {c : ℚ} (h : NearNum n a x) (hc : 0 ≤ c) :
    NearNum (n + 2) (scaledF a c) (scaled x c) := by
  rcases h with ⟨e, rfl, rfl⟩ | ⟨rfl, rfl⟩ | ⟨q, r, rfl, rfl, h⟩
  · exact Or.inl ⟨e, rfl, rfl⟩
  · exact Or.inl ⟨.typeError, rfl, rfl⟩
  · exact Or.inr (Or.inr ⟨_, _, rfl, rfl, near_prodF c hc h⟩)

/-- Five roundings are enough for the numbers of every component. -/
theorem close_leaf {k : String} {count : Int} {n m l : Nat} {dF d lF l0 aF a : Num} (hd : NearNum n dF d)
    (hl : NearNum m lF l0) (ha : NearNum l aF a) (hn : n ≤ 5 := by omega) (hm : m ≤ 5 := by omega)
    (hl' : l ≤ 5 := by omega) : closeEntry 4 (k, mkStats count dF lF aF) (k, mkStats count d l0 a) := by
  refine ⟨rfl, ?_⟩
  dsimp only
  rcases hd with ⟨e, rfl, rfl⟩ | ⟨rfl, rfl⟩ | ⟨q, r, rfl, rfl, hd⟩
  · exact Or.inl ⟨e, rfl, rfl⟩
  · rcases hl with ⟨e, rfl, rfl⟩ | ⟨rfl, rfl⟩ | ⟨q, r, rfl, rfl, hl⟩
    · exact Or.inl ⟨e, rfl, rfl⟩
    · rcases ha with ⟨e, rfl, rfl⟩ | ⟨rfl, rfl⟩ | ⟨q, r, rfl, rfl, ha⟩
      · exact Or.inl ⟨e, rfl, rfl⟩
      · exact Or.inl ⟨.valueError, rfl, rfl⟩
      · exact Or.inl ⟨.valueError, rfl, rfl⟩
    · rcases ha with ⟨e, rfl, rfl⟩ | ⟨rfl, rfl⟩ | ⟨q, r, rfl, rfl, ha⟩
      · exact Or.inl ⟨e, rfl, rfl⟩
      · exact Or.inl ⟨.valueError, rfl, rfl⟩
      · exact Or.inl ⟨.valueError, rfl, rfl⟩
  · rcases hl with ⟨e, rfl, rfl⟩ | ⟨rfl, rfl⟩ | ⟨q', r', rfl, rfl, hl⟩
    · exact Or.inl ⟨e, rfl, rfl⟩
    · rcases ha with ⟨e, rfl, rfl⟩ | ⟨rfl, rfl⟩ | ⟨q, r, rfl, rfl, ha⟩
      · exact Or.inl ⟨e, rfl, rfl⟩
      · exact Or.inl ⟨.valueError, rfl, rfl⟩
      · exact Or.inl ⟨.valueError, rfl, rfl⟩
    · rcases ha with ⟨e, rfl, rfl⟩ | ⟨rfl, rfl⟩ | ⟨q'', r'', rfl, rfl, ha⟩
      · exact Or.inl ⟨e, rfl, rfl⟩
      · exact Or.inl ⟨.valueError, rfl, rfl⟩
      · exact Or.inr ⟨_, _, rfl, rfl, rfl, near_mono hd hn, near_mono hl hm, near_mono ha hl'⟩

end Ramwich
