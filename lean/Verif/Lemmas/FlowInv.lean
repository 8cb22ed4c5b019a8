import Verif.Lemmas.FlowTile

/-! # Equations and states on the way -/
namespace Ramwich

open Spec

/-! ## Cores -/

theorem params_with {cfg : Config} {c : Core} (fl : FloatActs) (h : c.config = cfg) :
    c.params fl = coreParamsWith cfg fl := by
  show coreParamsOf c.config _ _ = coreParamsOf cfg _ _
  rw [h]

theorem upToHlt_tail {op : CoreOp} {rest : List CoreOp} (hne : op ≠ .hlt)
    (h : ∀ x ∈ upToHlt (op :: rest), CoreOp.positive x) : ∀ x ∈ upToHlt rest, CoreOp.positive x := by
  intro x hx
  refine h x ?_
  unfold upToHlt
  rw [if_neg (by cases ho : op <;> simp [isHlt]; exact hne ho)]
  exact List.mem_cons_of_mem _ hx

/-- A store of a core that finds the registers of `s` is the one that `flow` makes. -/
theorem flow_store {cfg : Config} (fl : FloatActs) {mem : Nat → Int} {e : Nat → MvmErrors} {n : Nat} {c : Core}
    {s : CoreState} (hc : c.config = cfg) (hr : CoreRefines c s) {dest read w v : Int} {rest : List CoreOp}
    (hw : 0 < w) (hv : 0 < v) {addr : Int} {data : List I32} {after : Core}
    (hf : c.storeRequest dest read w v = (.ok (addr, data), after)) {r : CoreState × List (Nat × List Int)}
    (h : (coreParamsWith cfg fl).flow mem e n s (.store dest read w v :: rest) = .ok r) :
    ∃ stores, r = (r.1, (addr.toNat, data.map BitVec.toInt) :: stores) ∧ after.config = cfg ∧ CoreRefines after s ∧
      (coreParamsWith cfg fl).flow mem e (n + 1) s rest = .ok (r.1, stores) := by
  unfold Core.storeRequest Res.andThen at hf
  cases ha : (c.loadAddress dest) with
  | mk ra c1 =>
  rw [ha] at hf
  cases ra with
  | error err => cases hf
  | ok a =>
  dsimp only at hf
  obtain ⟨g1, g2, g3⟩ := read_singleton fl hr ha
  have hwv : 0 < w * v := Int.mul_pos hw hv
  obtain ⟨k1, k2, k3, -⟩ := core_read c1 fl s g3 read (w * v).toNat (by omega)
  rw [Int.toNat_of_nonneg hwv.le] at k1 k2 k3
  cases hx : (c1.readFromRegister read (w * v)).1 with
  | error err => rw [hx] at hf; cases hf
  | ok x =>
  rw [hx] at hf k1
  dsimp only at hf
  rw [if_neg (by omega)] at hf
  injection hf with hf1 hf2
  injection hf1 with hf1
  injection hf1 with hf1 hf3
  subst hf1 hf2 hf3
  rw [params_with fl (g2.trans hc)] at k1
  rw [params_with fl hc] at g1
  unfold CoreParams.flow at h
  rw [g1] at h
  change ((coreParamsWith cfg fl).read s read (w * v).toNat >>= _) = _ at h
  rw [← k1] at h
  change ((coreParamsWith cfg fl).flow mem e (n + 1) s rest >>= _) = _ at h
  cases hfl : (coreParamsWith cfg fl).flow mem e (n + 1) s rest with
  | error err => rw [hfl] at h; cases h
  | ok q =>
    rw [hfl] at h
    injection h with h
    subst h
    exact ⟨q.2, rfl, k2.trans (g2.trans hc), k3, rfl⟩

/-- A core that has executed the beginning of its program, finding the words of `mem` in its loads, has done what `flow`
says, and `flow` goes on from there. -/
theorem flow_split {cfg : Config} (fl : FloatActs) (he : Electrical cfg.mvmuConfig) (lat dlat : Nat)
    (hlat : Latencies cfg.mvmuConfig lat dlat) (noise : Nat → Nat → Nat → Noise) (mem : Nat → Int)
    (log : List CoreEv) :
    ∀ (n : Nat) (c : Core) (prog : List CoreOp) (s : CoreState) (cv : Core) (rest : List CoreOp)
      (r : CoreState × List (Nat × List Int)), c.config = cfg → CoreRefines c s →
    coreRan fl noise n c prog log cv rest → (∀ op ∈ upToHlt prog, CoreOp.positive op) →
    (∀ e ∈ log, ∀ dest read w v, e.op = .load dest read w v →
      e.data.map BitVec.toInt = wordsAt mem e.addr.toNat (w * v).toNat) →
    (coreParamsWith cfg fl).flow mem (fun n => errorsOf (noise n)) n s prog = .ok r →
    ∃ s' stores, cv.config = cfg ∧ CoreRefines cv s' ∧ (∀ op ∈ upToHlt rest, CoreOp.positive op) ∧
      r.2 = storesOf log ++ stores ∧
      (coreParamsWith cfg fl).flow mem (fun n => errorsOf (noise n)) (n + log.length) s' rest = .ok (r.1, stores) := by
  induction log with
  | nil =>
    intro n c prog s cv rest r hc hr h hpos _ hfl
    obtain ⟨rfl, rfl⟩ := h
    exact ⟨s, r.2, hc, hr, hpos, rfl, hfl⟩
  | cons e log ih =>
    intro n c prog s cv rest r hc hr h hpos hdata hfl
    obtain ⟨rest1, rfl, hf, hrest⟩ := h
    have hmine := hpos e.op (by unfold upToHlt; split <;> simp)
    have next : ∀ (s1 : CoreState) (r1 : CoreState × List (Nat × List Int)), e.after.config = cfg →
        CoreRefines e.after s1 → e.op ≠ .hlt →
        (coreParamsWith cfg fl).flow mem (fun n => errorsOf (noise n)) (n + 1) s1 rest1 = .ok r1 →
        ∃ s' stores, cv.config = cfg ∧ CoreRefines cv s' ∧ (∀ op ∈ upToHlt rest, CoreOp.positive op) ∧
          r1.2 = storesOf log ++ stores ∧ (coreParamsWith cfg fl).flow mem (fun n => errorsOf (noise n))
            (n + (e :: log).length) s' rest = .ok (r1.1, stores) := by
      intro s1 r1 h1 h2 hne h3
      rw [if_neg hne] at hrest
      have := ih (n + 1) e.after rest1 s1 cv rest r1 h1 h2 hrest (upToHlt_tail hne hpos)
        (fun e' he' => hdata e' (List.mem_cons_of_mem _ he')) h3
      rw [show n + 1 + log.length = n + (e :: log).length by rw [List.length_cons]; omega] at this
      exact this
    have exec : ∀ (hw : CoreOp.wellFormed e.op), e.op ≠ .hlt →
        (c.execute fl (noise n) e.op = (.ok (), e.after)) →
        ((coreParamsWith cfg fl).exec (errorsOf (noise n)) s e.op >>= fun s =>
          (coreParamsWith cfg fl).flow mem (fun n => errorsOf (noise n)) (n + 1) s rest1) = .ok r →
        ∃ s' stores, cv.config = cfg ∧ CoreRefines cv s' ∧ (∀ op ∈ upToHlt rest, CoreOp.positive op) ∧
          r.2 = storesOf log ++ stores ∧ (coreParamsWith cfg fl).flow mem (fun n => errorsOf (noise n))
            (n + (e :: log).length) s' rest = .ok (r.1, stores) := by
      intro hw hne hx h3
      have hag := core_execute c fl s hr (by rw [hc]; exact he) lat dlat (by rw [hc]; exact hlat)
        (errorsOf (noise n)) e.op hw
      rw [show noiseOf (errorsOf (noise n)) = noise n from rfl, hx, params_with fl hc] at hag
      cases hspec : (coreParamsWith cfg fl).exec (errorsOf (noise n)) s e.op with
      | error err => rw [hspec] at hag; cases hag
      | ok s1 =>
        rw [hspec] at hag h3
        obtain ⟨-, g2, g3⟩ := hag
        exact next s1 r (g2.trans hc) g3 hne h3
    have hstores : storesOf (e :: log) = (match e.op with
        | .store .. => [(e.addr.toNat, e.data.map BitVec.toInt)]
        | _ => []) ++ storesOf log := by
      unfold storesOf
      rw [List.filterMap_cons]
      cases e.op <;> rfl
    rw [hstores]
    obtain ⟨op, addr, data, after⟩ := e
    dsimp only at *
    unfold CoreEv.follows at hf
    cases op with
    | hlt =>
      rw [if_pos rfl] at hrest
      cases log with
      | cons e' log => obtain ⟨r, hr, -⟩ := hrest; cases hr
      | nil =>
        obtain ⟨rfl, rfl⟩ := hrest
        obtain ⟨h1, -⟩ := hf
        injection h1 with _ h1
        dsimp only at h1
        subst h1
        injection hfl with hfl
        subst hfl
        exact ⟨s, [], hc, hr, by simp [upToHlt], rfl, rfl⟩
    | load dest read w v =>
      obtain ⟨c1, h1, h2⟩ := hf
      dsimp only at h1 h2
      obtain ⟨g1, g2, g3⟩ := read_singleton fl hr h1
      have hd := hdata _ (List.mem_cons_self ..) dest read w v rfl
      dsimp only at hd
      have hwv : 0 < w * v := Int.mul_pos hmine.1 hmine.2
      have hne : data ≠ [] := by
        rintro rfl
        have := congrArg List.length hd
        simp [wordsAt] at this
        omega
      have hag := (core_write c1 fl s g3 dest data hne).1
      unfold Core.loadFinish at h2
      rw [params_with fl (g2.trans hc)] at hag
      rw [params_with fl hc] at g1
      unfold CoreParams.flow at hfl
      rw [g1] at hfl
      change ((coreParamsWith cfg fl).write s dest (wordsAt mem addr.toNat (w * v).toNat) >>= _) = _ at hfl
      rw [← hd] at hfl
      cases hspec : (coreParamsWith cfg fl).write s dest (data.map BitVec.toInt) with
      | error err => rw [hspec] at hfl; cases hfl
      | ok s1 =>
        rw [hspec] at hag hfl
        obtain ⟨-, g4, g5⟩ := hag
        rw [← h2] at g4 g5
        exact next s1 r (g4.trans (g2.trans hc)) g5 (by simp) hfl
    | store dest read w v =>
      obtain ⟨stores, h1, h2, h3, h4⟩ := flow_store fl hc hr hmine.1 hmine.2 hf hfl
      obtain ⟨s', st, k1, k2, k3, k4, k5⟩ := next s _ h2 h3 (by simp) h4
      refine ⟨s', st, k1, k2, k3, ?_, k5⟩
      rw [h1]
      dsimp only at k4 ⊢
      rw [k4]
      rfl
    | set dest imm vec => exact exec hmine (by simp) hf.1 hfl
    | copy dest read vec => exact exec hmine (by simp) hf.1 hfl
    | vfu o dest r1 r2 vec => exact exec hmine (by simp) hf.1 hfl
    | mvm xs => exact exec hmine (by simp) hf.1 hfl

/-! ## Tile processes -/

/-- What has been sent is the beginning of what the program sends. -/
theorem sent_split {mem : Nat → Int} (d : Nat) (log : List TileEv) : ∀ (ops rest : List TileOp)
    (got got' : List (List I32)), tileRan (ops, got) log = some (rest, got') →
    (∀ a t w v rows, .sent a t w v rows ∈ log → rowsAt mem a w v = rows.map (List.map BitVec.toInt)) →
    sentRows mem d ops = (rowsTo d log).map (List.map BitVec.toInt) ++ sentRows mem d rest := by
  induction log with
  | nil =>
    intro ops rest got got' h _
    injection h with h
    injection h with h _
    subst h
    rfl
  | cons e log ih =>
    intro ops rest' got got' h hm
    obtain ⟨st, h1, h2⟩ := tileRan_cons h
    have hm' := fun a t w v rows hx => hm a t w v rows (List.mem_cons_of_mem _ hx)
    rcases tileNext_cases h1 with ⟨a, t, w, v, rows, rest, rfl, rfl, rfl, rfl⟩ | ⟨a, s, w, v, x, rest, rfl, rfl, hlt, rfl⟩ |
      ⟨a, s, w, v, rest, rfl, rfl, hnv, rfl⟩ | ⟨rest, rfl, rfl, rfl, rfl⟩
    · have i1 := ih rest rest' [] got' h2 hm'
      have g3 := hm a t w v rows (List.mem_cons_self ..)
      unfold sentRows rowsTo at *
      rw [List.flatMap_cons, List.flatMap_cons, i1]
      dsimp only
      by_cases ht : t = (d : Int)
      · rw [if_pos ht, if_pos ht, List.map_append, g3, List.append_assoc]
      · rw [if_neg ht, if_neg ht]; rfl
    · split at h2
      · have := ih _ rest' _ got' h2 hm'
        exact this
      · have := ih _ rest' _ got' h2 hm'
        exact this
    · exact ih rest rest' [] got' h2 hm'
    · exact ih rest rest' [] got' h2 hm'

/-- A tile process goes on in its program. -/
theorem tileRan_suffix (log : List TileEv) : ∀ (ops rest : List TileOp) (got got' : List (List I32)),
    tileRan (ops, got) log = some (rest, got') → ∃ done, ops = done ++ rest := by
  induction log with
  | nil =>
    intro ops rest got got' h
    injection h with h
    injection h with h _
    exact ⟨[], h⟩
  | cons e log ih =>
    intro ops rest' got got' h
    obtain ⟨st, h1, h2⟩ := tileRan_cons h
    rcases tileNext_cases h1 with ⟨a, t, w, v, rows, rest, rfl, rfl, rfl, rfl⟩ | ⟨a, s, w, v, x, rest, rfl, rfl, hlt, rfl⟩ |
      ⟨a, s, w, v, rest, rfl, rfl, hnv, rfl⟩ | ⟨rest, rfl, rfl, rfl, rfl⟩
    · obtain ⟨d, rfl⟩ := ih _ _ _ _ h2
      exact ⟨_ :: d, rfl⟩
    · split at h2
      · exact ih _ _ _ _ h2
      · obtain ⟨d, rfl⟩ := ih _ _ _ _ h2
        exact ⟨_ :: d, rfl⟩
    · obtain ⟨d, rfl⟩ := ih _ _ _ _ h2
      exact ⟨_ :: d, rfl⟩
    · obtain ⟨d, rfl⟩ := ih _ _ _ _ h2
      exact ⟨_ :: d, rfl⟩

/-- The rows that a Recv has got came in its time. -/
theorem got_rows (log : List TileEv) : ∀ (ops rest : List TileOp) (got got' : List (List I32)),
    tileRan (ops, got) log = some (rest, got') → got' ≠ [] →
    (rest = ops ∧ got ≠ []) ∨ ∃ a s w v tl x, rest = .receive a s w v :: tl ∧ .row s x ∈ log := by
  induction log with
  | nil =>
    intro ops rest got got' h hne
    injection h with h
    injection h with h h'
    exact .inl ⟨h.symm, h' ▸ hne⟩
  | cons e log ih =>
    intro ops rest' got got' h hne
    obtain ⟨st, h1, h2⟩ := tileRan_cons h
    have key : ∀ ops1 got1, tileRan (ops1, got1) log = some (rest', got') → got1 = [] →
        ∃ a s w v tl x, rest' = .receive a s w v :: tl ∧ .row s x ∈ e :: log := by
      intro ops1 got1 h3 h4
      rcases ih _ _ _ _ h3 hne with ⟨-, h5⟩ | ⟨a, s, w, v, tl, x, h5, h6⟩
      · exact absurd h4 h5
      · exact ⟨a, s, w, v, tl, x, h5, List.mem_cons_of_mem _ h6⟩
    rcases tileNext_cases h1 with ⟨a, t, w, v, rows, rest, rfl, rfl, rfl, rfl⟩ | ⟨a, s, w, v, x, rest, rfl, rfl, hlt, rfl⟩ |
      ⟨a, s, w, v, rest, rfl, rfl, hnv, rfl⟩ | ⟨rest, rfl, rfl, rfl, rfl⟩
    · exact .inr (key _ _ h2 rfl)
    · split at h2
      · rcases ih _ _ _ _ h2 hne with ⟨h5, -⟩ | ⟨a, s, w, v, tl, y, h5, h6⟩
        · exact .inr ⟨a, s, w, v, rest, x, h5, List.mem_cons_self ..⟩
        · exact .inr ⟨a, s, w, v, tl, y, h5, List.mem_cons_of_mem _ h6⟩
      · exact .inr (key _ _ h2 rfl)
    · exact .inr (key _ _ h2 rfl)
    · exact .inr (key _ _ h2 rfl)

/-- The rows received from tile `src` are those of the Recvs that are done and those that the current one has got. -/
structure RowsIn (mem : Nat → Int) (src : Nat) (ops : List TileOp) (log : List TileEv) (rest : List TileOp)
    (got : List (List I32)) : Prop where
  rows : ∃ front, recvRows mem src ops = front ++ recvRows mem src rest ∧
    (rowsFrom src log).map (List.map BitVec.toInt) = front ++ (headRows src rest got).map (List.map BitVec.toInt)
  shape : gotShape rest got

theorem rowsIn_nil (mem : Nat → Int) (src : Nat) (ops : List TileOp) : RowsIn mem src ops [] ops [] :=
  ⟨⟨[], rfl, by rw [headRows_nil]; rfl⟩, gotShape_nil _⟩

theorem recvRows_cons (mem : Nat → Int) (src : Nat) (a s w v : Int) (ops : List TileOp) :
    recvRows mem src (.receive a s w v :: ops) = (if s = (src : Int) then rowsAt mem a w v else []) ++ recvRows mem src ops :=
  rfl

/-- The rows of a Recv that has got all of them. -/
theorem rowsIn_all {mem : Nat → Int} {src : Nat} {ops tl : List TileOp} {log : List TileEv} {a w v : Int}
    {got : List (List I32)} (h : RowsIn mem src ops log (.receive a src w v :: tl) got)
    (hp : (rowsFrom src log).map (List.map BitVec.toInt) <+: recvRows mem src ops) (hv : ¬(got.length : Int) < v) :
    rowsAt mem a w v = got.map (List.map BitVec.toInt) := by
  obtain ⟨front, h1, h2⟩ := h.rows
  have hs := h.shape
  rw [recvRows_cons, if_pos rfl] at h1
  rw [h1, h2, List.prefix_append_right_inj,
    show headRows src (.receive a src w v :: tl) got = got by unfold headRows; dsimp only; rw [if_pos rfl]] at hp
  obtain ⟨z, hz⟩ := hp
  have hlen : (got.map (List.map BitVec.toInt)).length = (rowsAt mem a w v).length := by
    rw [List.length_map, rowsAt_length]
    have := hs.1
    omega
  exact (List.append_inj hz hlen).1.symm

theorem rowsIn_step {mem : Nat → Int} {src : Nat} {ops rest rest' : List TileOp} {log : List TileEv} {e : TileEv}
    {got got' : List (List I32)} (h : RowsIn mem src ops log rest got) (he : tileNext (rest, got) e = some (rest', got'))
    (hp : (rowsFrom src (log ++ [e])).map (List.map BitVec.toInt) <+: recvRows mem src ops)
    (hw : ∀ a s w v tl x, rest = .receive a s w v :: tl → e = .row s x → 0 ≤ w) :
    RowsIn mem src ops (log ++ [e]) rest' got' := by
  obtain ⟨front, h1, h2⟩ := h.rows
  have hs := h.shape
  rw [rowsFrom_snoc] at hp
  rcases tileNext_cases he with ⟨a, t, w, v, rows, tl, rfl, rfl, rfl, h3⟩ | ⟨a, s, w, v, x, tl, rfl, rfl, hlt, h3⟩ |
    ⟨a, s, w, v, tl, rfl, rfl, hnv, h3⟩ | ⟨tl, rfl, rfl, rfl, h3⟩
  · cases h3
    refine ⟨⟨front, h1, ?_⟩, gotShape_nil _⟩
    rw [rowsFrom_snoc, headRows_nil, show rowsFrom src [TileEv.sent a t w v rows] = [] from rfl, List.append_nil, h2]
    rfl
  · by_cases hsrc : s = (src : Int)
    · subst hsrc
      have hx : rowsFrom src [TileEv.row (src : Int) x] = [x] := by simp [rowsFrom]
      have hgot : ∀ g, headRows src (.receive a src w v :: tl) g = g := fun g => by
        unfold headRows; dsimp only; rw [if_pos rfl]
      rw [recvRows_cons, if_pos rfl] at h1
      rw [hx, List.map_append, h2, h1, hgot, List.append_assoc, List.prefix_append_right_inj] at hp
      obtain ⟨z, hz⟩ := hp
      have hw0 := hw a src w v tl x rfl rfl
      have hxw : (x.length : Int) = w := by
        have e1 := congrArg (fun l => l[got.length]?) hz
        simp only [List.append_assoc, List.map_cons, List.map_nil] at e1
        rw [List.getElem?_append_right (by simp), List.getElem?_append_left (l₁ := rowsAt mem a w v) (by rw [rowsAt_length]; omega)] at e1
        simp only [List.length_map, Nat.sub_self, List.cons_append, List.getElem?_cons_zero] at e1
        unfold rowsAt at e1
        rw [List.getElem?_map, List.getElem?_range (by omega)] at e1
        injection e1 with e1
        have e2 := congrArg List.length e1
        rw [List.length_map, wordsAt_length] at e2
        omega
      rw [if_pos hxw] at h3
      cases h3
      refine ⟨⟨front, by rw [recvRows_cons, if_pos rfl, h1], ?_⟩, ?_⟩
      · rw [rowsFrom_snoc, hx, List.map_append, h2, hgot, hgot, List.map_append, List.append_assoc]
      · refine ⟨by rw [List.length_append, List.length_singleton]; omega, ?_⟩
        intro r hr
        rcases List.mem_append.1 hr with hr | hr
        · exact hs.2 r hr
        · rw [List.mem_singleton.1 hr]; exact hxw
    · have hx : rowsFrom src [TileEv.row s x] = [] := by simp [rowsFrom, hsrc]
      have hgot : ∀ g, headRows src (.receive a s w v :: tl) g = [] := fun g => by
        unfold headRows; dsimp only; rw [if_neg hsrc]
      rw [hgot] at h2
      split at h3
      · rename_i hxw
        cases h3
        refine ⟨⟨front, h1, ?_⟩, ?_⟩
        · rw [rowsFrom_snoc, hx, List.append_nil, h2, hgot]
        · refine ⟨by rw [List.length_append, List.length_singleton]; omega, ?_⟩
          intro r hr
          rcases List.mem_append.1 hr with hr | hr
          · exact hs.2 r hr
          · rw [List.mem_singleton.1 hr]; exact hxw
      · cases h3
        refine ⟨⟨front, ?_, ?_⟩, gotShape_nil _⟩
        · rw [h1, recvRows_cons, if_neg hsrc]; rfl
        · rw [rowsFrom_snoc, hx, List.append_nil, h2, headRows_nil]
  · cases h3
    have hx : rowsFrom src [TileEv.received a s w v got] = [] := rfl
    rw [hx, List.append_nil] at hp
    by_cases hsrc : s = (src : Int)
    · subst hsrc
      have hall := rowsIn_all h hp hnv
      have hgot : ∀ g, headRows src (.receive a src w v :: rest') g = g := fun g => by
        unfold headRows; dsimp only; rw [if_pos rfl]
      refine ⟨⟨front ++ got.map (List.map BitVec.toInt), ?_, ?_⟩, gotShape_nil _⟩
      · rw [h1, recvRows_cons, if_pos rfl, hall, List.append_assoc]
      · rw [rowsFrom_snoc, hx, List.append_nil, h2, hgot, headRows_nil, List.map_nil, List.append_nil]
    · have hgot : ∀ g, headRows src (.receive a s w v :: rest') g = [] := fun g => by
        unfold headRows; dsimp only; rw [if_neg hsrc]
      refine ⟨⟨front, ?_, ?_⟩, gotShape_nil _⟩
      · rw [h1, recvRows_cons, if_neg hsrc]; rfl
      · rw [rowsFrom_snoc, hx, List.append_nil, h2, hgot, headRows_nil]
  · cases h3
    refine ⟨⟨front, h1, ?_⟩, gotShape_nil _⟩
    rw [rowsFrom_snoc, headRows_nil, show rowsFrom src [TileEv.halted] = [] from rfl, List.append_nil, h2]
    rfl

/-! ## Controllers -/

section
variable {lat : Int} {m0 : Memory} {v0 : List Bool} {t0 : Nat} {c : Ctrl} {mem : Nat → Int}

/-- Words that are valid are those of `mem`, when the writes are. -/
theorem word_mem {ws : List Req} (hw : ∀ w ∈ ws, ∀ a, covers w a → (w.value a).toInt = mem a) {a : Nat}
    (h0 : v0.getD a false = true → mem a = (m0.cells.getD a 0).toInt)
    (hv : wordValid (v0.getD a false) ws a = true) : (wordAfter (m0.cells.getD a 0) ws a).toInt = mem a := by
  rcases wordAfter_cases a ws (m0.cells.getD a 0) with ⟨h1, h2⟩ | ⟨w, h1, h2, h3⟩
  · rw [h1]
    rcases (wordValid_iff a ws _).1 hv with h3 | ⟨w, h3, h4⟩
    · exact (h0 h3).symm
    · exact absurd h4 (h2 w h3)
  · rw [h3]; exact hw w h1 a h2

theorem read_mem (h : CtrlInv lat m0 v0 t0 c) (h0 : ∀ a < m0.size, v0.getD a false = true → mem a = (m0.cells.getD a 0).toInt)
    (hw : ∀ w ∈ writesOf c.answers, ∀ a, covers w a → (w.value a).toInt = mem a) {r : Req} {tm : Nat} {d : List I32}
    (hr : .read r tm d ∈ c.answers) : d.map BitVec.toInt = wordsAt mem r.start.toNat r.length.toNat := by
  obtain ⟨l1, l2, hl⟩ := List.append_of_mem hr
  have g := h.ans.reads l1 r tm d l2 hl
  rw [g.value]
  unfold wordsAt
  rw [List.map_map]
  apply List.map_congr_left
  intro j hj
  have hj := List.mem_range.1 hj
  have hin := g.inside
  unfold inDram at hin
  have hcov : covers r (r.start.toNat + j) := by unfold covers; omega
  show BitVec.toInt (wordAfter _ _ _) = _
  refine word_mem (v0 := v0) (fun w hm => hw w ?_) (h0 _ (by omega)) (g.valid _ hcov)
  rw [hl, writesOf_append]
  exact List.mem_append_left _ hm

/-- What a write with these data does. -/
theorem write_mem {r : Req} {d : List I32} {n : Nat} (hk : r.kind = .write d n) (h0 : 0 ≤ r.start)
    (hd : d.map BitVec.toInt = wordsAt mem r.start.toNat d.length) {a : Nat} (hc : covers r a) : (r.value a).toInt = mem a := by
  have hlen : r.length = d.length := by simp only [Req.length, hk]
  unfold covers at hc
  have hj : a - r.start.toNat < d.length := by omega
  have hval : r.value a = d[a - r.start.toNat] := by
    simp only [Req.value, hk]
    rw [show ((a : Int) - r.start).toNat = a - r.start.toNat by omega, List.getD_eq_getElem?_getD,
      List.getElem?_eq_getElem hj]
    rfl
  have e1 := congrArg (fun l => l[a - r.start.toNat]?) hd
  unfold wordsAt at e1
  simp only [List.getElem?_map, List.getElem?_range hj, List.getElem?_eq_getElem hj, Option.map_some,
    Option.some.injEq] at e1
  rw [hval, e1]
  congr 1
  omega

end

end Ramwich
