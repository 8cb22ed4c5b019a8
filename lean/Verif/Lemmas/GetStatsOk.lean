import Verif.Lemmas.GetStatsParts

/-! # When `get_stats` succeeds -/
namespace Ramwich

open Spec

/-- The call returns a dictionary exactly if `P`. -/
def OkIff (c : StatsCall) (P : Prop) : Prop := ∀ h, (∃ d h', c h = .ok (d, h')) ↔ P

theorem OkIff.congr {c : StatsCall} {P Q : Prop} (h : OkIff c P) (e : P ↔ Q) : OkIff c Q := fun x => (h x).trans e

theorem okIff_newDict (l : List (String × Except PyErr Stats)) :
    OkIff (newDict l) (∀ x ∈ l, ∃ s, x.2 = .ok s) := by
  induction l with
  | nil => intro h; simp [newDict]
  | cons x l ih =>
    obtain ⟨k, r⟩ := x
    intro h
    cases r with
    | error e => simp [newDict]
    | ok s =>
      rw [List.forall_mem_cons, ← ih (h.new s).2]
      cases hd : newDict l (h.new s).2 with
      | error e => simp [newDict, hd]
      | ok x => obtain ⟨d, h'⟩ := x; simp [newDict, hd]

theorem okIff_mergeCalls (cs : List StatsCall) (Ps : List Prop) (hc : List.Forall₂ OkIff cs Ps) (d : StatsDict) :
    OkIff (mergeCalls d cs) (∀ P ∈ Ps, P) := by
  induction hc generalizing d with
  | nil => intro h; simp [mergeCalls]
  | @cons c P cs Ps hc _ ih =>
    intro h
    rw [List.forall_mem_cons, ← hc h]
    unfold mergeCalls
    cases c h with
    | error e => simp
    | ok x =>
      obtain ⟨y, h'⟩ := x
      simp only [ih (d.merge y h').1 (d.merge y h').2, Except.ok.injEq, Prod.mk.injEq, exists_and_left, exists_eq',
        and_true, true_and]

theorem okIff_merging (c : StatsCall) (P : Prop) (cs : List StatsCall) (Ps : List Prop) (h : OkIff c P)
    (hc : List.Forall₂ OkIff cs Ps) : OkIff (c.merging cs) (P ∧ ∀ P ∈ Ps, P) := by
  intro x
  rw [← h x]
  unfold StatsCall.merging
  cases c x with
  | error e => simp
  | ok y =>
    obtain ⟨d, h'⟩ := y
    simp only [okIff_mergeCalls cs Ps hc d h', Except.ok.injEq, Prod.mk.injEq, exists_and_left, exists_eq', and_true,
      true_and]

theorem okIff_leaking (c : StatsCall) (P : Prop) (n : Int) (h : OkIff c P) : OkIff (c.leaking n) P := by
  intro x
  rw [← h x]
  unfold StatsCall.leaking
  cases c x with
  | error e => simp
  | ok y => obtain ⟨d, h'⟩ := y; simp

theorem okIff_addDynamic (c : StatsCall) (P : Prop) (k : String) (o : Option ℚ) (n : ℚ) (ps : Parts)
    (h : OkIff c P) (y : Yields c ps) : OkIff (c.addDynamic k o n) (P ∧ o.isSome = true ∧ k ∈ ps.map (·.1)) := by
  intro x
  rw [← h x]
  unfold StatsCall.addDynamic
  rcases y with ⟨e, he⟩ | hg
  · simp [he]
  · obtain ⟨d, h', e', g⟩ := hg x
    simp only [e', ← g.keys k]
    cases o with
    | none => simp [times]
    | some q =>
    cases hf : d.find k with
    | none => simp [times, (find_none d k).1 hf]
    | some r =>
      have : k ∈ names d := by
        by_contra hn
        rw [(find_none d k).2 hn] at hf; cases hf
      simp [times, this]

/-- A number that is there. -/
def There (n : Num) : Prop := ∃ q, n = .ok (some q)

theorem there_num (q : ℚ) : There (num q) ↔ True := by simp [There, num]
theorem there_attr (o : Option ℚ) : There (attr o) ↔ o.isSome := by simp [There, attr, Option.isSome_iff_exists]
theorem there_times (o : Option ℚ) (n : ℚ) : There (times o n) ↔ o.isSome := by
  cases o <;> simp [There, times]
theorem there_plus (a b : Num) : There (plus a b) ↔ There a ∧ There b := by
  unfold There plus
  rcases a with e | (_ | x) <;> rcases b with e' | (_ | y) <;> simp
theorem there_scaled (a : Num) (n : ℚ) : There (scaled a n) ↔ There a := by
  unfold There scaled
  rcases a with e | (_ | x) <;> simp [times]

theorem mkStats_ok_iff (n : Int) (a b c : Num) :
    (∃ s, mkStats n a b c = .ok s) ↔ There a ∧ There b ∧ There c := by
  unfold There mkStats
  rcases a with e | (_ | x) <;> rcases b with e' | (_ | y) <;> rcases c with e'' | (_ | z) <;> simp

/-- Decide a dictionary of own entries. -/
theorem okIff_own (l : List (String × Except PyErr Stats)) (need : List (Option ℚ))
    (h : (∀ x ∈ l, ∃ s, x.2 = .ok s) ↔ ∀ o ∈ need, o.isSome = true) :
    OkIff (newDict l) (∀ o ∈ need, o.isSome = true) := (okIff_newDict l).congr h

theorem okIff_mvmu (p : Power) (m : Mvmu) : OkIff (m.getStats p) (∀ o ∈ mvmuNeeds p m, o.isSome = true) := by
  unfold Mvmu.getStats mvmuNeeds
  have leafs : ∀ l, OkIff (newDict l) (∀ x ∈ l, ∃ s, x.2 = .ok s) := okIff_newDict
  have last : List.Forall₂ OkIff [inregStats p m, outregStats p m, snaStats p m] _ :=
    .cons (leafs _) (.cons (leafs _) (.cons (leafs _) .nil))
  have mid : List.Forall₂ OkIff [sramStats p m, muxStats p m m.cfg.numSramXbarPerMvmu m.muxSramSelections] _ :=
    .cons (leafs _) (.cons (leafs _) .nil)
  have first : List.Forall₂ OkIff [rramStats p m, dacStatsCall p m, adcStatsCall p m, snhStats p m m.snhPosSamples,
      snhStats p m m.snhNegSamples, muxStats p m m.cfg.numRramXbarPerMvmu m.muxPosSelections,
      muxStats p m m.cfg.numRramXbarPerMvmu m.muxNegSelections] _ :=
    .cons (leafs _) (.cons (leafs _) (.cons (leafs _) (.cons (leafs _) (.cons (leafs _)
      (.cons (leafs _) (.cons (leafs _) .nil))))))
  have nil : OkIff (newDict []) True := fun h => by simp [newDict]
  have fin : ∀ cs Ps, List.Forall₂ OkIff cs Ps → ∀ Q : Prop, ((∀ P ∈ Ps, P) ↔ Q) →
      OkIff (StatsCall.merging (newDict []) cs) Q :=
    fun cs Ps h Q e => (okIff_merging _ _ cs Ps nil h).congr (by rw [true_and]; exact e)
  cases hr : m.cfg.haveRramXbar <;> cases hs : m.cfg.haveSramXbar
  · refine fin _ _ last _ ?_
    simp only [List.forall_mem_cons, List.forall_mem_append, mkStats_ok_iff, there_num, there_attr, there_times,
      there_plus, there_scaled]
    simp
    tauto
  · refine fin _ _ (forall₂_append mid last) _ ?_
    simp only [List.forall_mem_cons, List.forall_mem_append, mkStats_ok_iff, there_num, there_attr, there_times,
      there_plus, there_scaled]
    simp
    tauto
  · refine fin _ _ (forall₂_append first last) _ ?_
    simp only [List.forall_mem_cons, List.forall_mem_append, mkStats_ok_iff, there_num, there_attr, there_times,
      there_plus, there_scaled]
    simp
    tauto
  · refine fin _ _ (forall₂_append first (forall₂_append mid last)) _ ?_
    simp only [List.forall_mem_cons, List.forall_mem_append, mkStats_ok_iff, there_num, there_attr, there_times,
      there_plus, there_scaled]
    simp
    tauto

theorem forall_mem_map_prop {α : Type} (l : List α) (f : α → Prop) : (∀ P ∈ l.map f, P) ↔ ∀ x ∈ l, f x :=
  List.forall_mem_map

theorem okIff_core (p : Power) (c : CoreObj) : OkIff (c.getStats p) (∀ o ∈ coreNeeds p c, o.isSome = true) := by
  unfold CoreObj.getStats
  refine (okIff_leaking _ _ _ (okIff_merging _ _ _ _ (okIff_newDict _)
    (forall₂_append (.cons (okIff_newDict _) (.cons (okIff_newDict _) .nil))
      (forall₂_map OkIff c.core.mvmus (Mvmu.getStats p) _ (okIff_mvmu p))))).congr ?_
  unfold coreNeeds
  rw [List.forall_mem_append, List.forall_mem_append, forall_mem_map_prop]
  have : (∀ o ∈ c.core.mvmus.flatMap (mvmuNeeds p), o.isSome = true)
      ↔ ∀ m ∈ c.core.mvmus, ∀ o ∈ mvmuNeeds p m, o.isSome = true := by
    simp only [List.mem_flatMap]
    exact ⟨fun h m hm o ho => h o ⟨m, hm, ho⟩, fun h o ⟨m, hm, ho⟩ => h m hm o ho⟩
  rw [this]
  simp only [List.forall_mem_cons, mkStats_ok_iff, there_num, there_attr, there_times]
  simp
  tauto

theorem okIff_tile (p : Power) (t : TileObj) : OkIff (t.getStats p) (∀ o ∈ tileNeeds p t, o.isSome = true) := by
  unfold TileObj.getStats tileNeeds
  by_cases hid : t.id = 0 ∨ t.id = 1
  · rw [if_pos hid, if_pos (by omega)]
    refine (okIff_newDict _).congr ?_
    simp only [List.forall_mem_cons, mkStats_ok_iff, there_num]
    simp
  · rw [if_neg hid, if_neg (by omega)]
    refine (okIff_merging _ _ _ _ (okIff_leaking _ _ _ (okIff_merging _ _ _ _ (okIff_newDict _)
      (.cons (okIff_newDict _) (.cons (okIff_newDict _) (.cons (okIff_newDict _) .nil)))))
      (forall₂_map OkIff t.cores (CoreObj.getStats p) _ (okIff_core p))).congr ?_
    rw [List.forall_mem_append, forall_mem_map_prop]
    have : (∀ o ∈ t.cores.flatMap (coreNeeds p), o.isSome = true)
        ↔ ∀ m ∈ t.cores, ∀ o ∈ coreNeeds p m, o.isSome = true := by
      simp only [List.mem_flatMap]
      exact ⟨fun h m hm o ho => h o ⟨m, hm, ho⟩, fun h o ⟨m, hm, ho⟩ => h m hm o ho⟩
    rw [this]
    simp only [List.forall_mem_cons, mkStats_ok_iff, there_num, there_attr, there_times]
    simp
    tauto

theorem router_mem_tile (p : Power) (t : TileObj) : "Router" ∈ (partsOf (tileComponents p t)).map (·.1) := by
  unfold tileComponents partsOf
  dsimp only
  split
  · simp [routerComponents]
  · simp [routerComponents]

theorem okIff_node (p : Power) (n : NodeObj) :
    OkIff (n.getStats p) ((∀ t ∈ n.tiles, ∀ o ∈ tileNeeds p t, o.isSome = true) ∧ p.nocIntraPowDyn.isSome = true ∧
      n.tiles ≠ []) := by
  have noc : Yields (nocStats p n.tiles.length) [("NOC inter", ⟨0, 0, p.nocInterPowLeak, p.nocInterArea⟩),
      ("NOC intra", ⟨0, 0, p.nocIntraPowLeak * ((n.tiles.length : ℚ) / p.numPort),
        p.nocIntraArea * ((n.tiles.length : ℚ) / p.numPort)⟩)] := by
    refine yields_newDict _ _ (.cons ⟨rfl, ?_⟩ (.cons ⟨rfl, ?_⟩ .nil)) (by simp)
    · intro s hs; simpa [mkStats, num] using hs.symm
    · intro s hs; simpa [mkStats, num] using hs.symm
  have y := yields_merging _ _ _ _ (yields_leaking _ _ n.queueBusyCycles
    (yields_merging _ _ _ _ yields_empty (.cons noc .nil)))
    (forall₂_map Yields n.tiles (TileObj.getStats p) _ (yields_tile p))
  refine (okIff_addDynamic _ _ "Router" p.nocIntraPowDyn n.queueBusyCycles _
    (okIff_merging _ _ _ _ (okIff_leaking _ _ _ (okIff_merging _ _ _ _ (okIff_newDict [])
      (.cons (okIff_newDict _) .nil))) (forall₂_map OkIff n.tiles (TileObj.getStats p) _ (okIff_tile p))) y).congr ?_
  rw [forall_mem_map_prop, ← List.flatMap_def]
  have key : "Router" ∈ ((List.map (fun x : String × Stats => (x.1, scaleLeak n.queueBusyCycles x.2)) ([] ++ List.flatten
      [[("NOC inter", ⟨0, 0, p.nocInterPowLeak, p.nocInterArea⟩),
      ("NOC intra", ⟨0, 0, p.nocIntraPowLeak * ((n.tiles.length : ℚ) / p.numPort),
        p.nocIntraArea * ((n.tiles.length : ℚ) / p.numPort)⟩)]])
      ++ n.tiles.flatMap fun t => partsOf (tileComponents p t)).map (·.1)) ↔ n.tiles ≠ [] := by
    rw [List.map_append, List.mem_append, List.map_flatMap]
    constructor
    · rintro (h | h) hn
      · simp at h
      · rw [hn] at h; simp at h
    · intro hn
      obtain ⟨t, ts, e⟩ := List.exists_cons_of_ne_nil hn
      right
      rw [List.mem_flatMap]
      exact ⟨t, by rw [e]; exact List.mem_cons_self, router_mem_tile p t⟩
  rw [key]
  simp only [List.forall_mem_cons, mkStats_ok_iff, there_num]
  simp

theorem okIff_sim (p : Power) (s : Sim) :
    OkIff (s.getStats p) ((∀ o ∈ simNeeds p s, o.isSome = true) ∧ ∀ n ∈ s.nodes, n.tiles ≠ []) := by
  refine (okIff_merging _ _ _ _ (okIff_newDict []) (forall₂_map OkIff s.nodes (NodeObj.getStats p) _ (okIff_node p))).congr ?_
  rw [forall_mem_map_prop]
  unfold simNeeds
  simp only [List.mem_flatMap, List.mem_cons]
  constructor
  · rintro ⟨-, h⟩
    refine ⟨?_, fun n hn => (h n hn).2.2⟩
    rintro o ⟨n, hn, rfl | ⟨t, ht, ho⟩⟩
    · exact (h n hn).2.1
    · exact (h n hn).1 t ht o ho
  · rintro ⟨h, h'⟩
    exact ⟨by simp, fun n hn => ⟨fun t ht o ho => h o ⟨n, hn, .inr ⟨t, ht, ho⟩⟩, h _ ⟨n, hn, .inl rfl⟩, h' n hn⟩⟩

end Ramwich
