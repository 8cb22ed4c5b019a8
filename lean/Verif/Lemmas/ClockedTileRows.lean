import Verif.Lemmas.ClockedTileStep

/-! # Which packets the operations of a tile process read -/
namespace Ramwich

open Spec
open Pipeline (upd)

theorem readsFrom_snoc {src : Nat} {n : Nat} : ∀ (prog : List TileOp) (ns : List Nat) {op : TileOp},
    prog[ns.length]? = some op → readsFrom src prog (ns ++ [n]) = readsFrom src prog ns +
      (match op with
        | .receive _ source _ _ => if source.toNat = src then n else 0
        | _ => 0) := by
  intro prog
  induction prog with
  | nil => intro ns op h; cases h
  | cons o prog ih =>
    intro ns op h
    cases ns with
    | nil =>
      simp only [List.length_nil, List.getElem?_cons_zero, Option.some.injEq] at h
      subst h
      simp [readsFrom]
      cases o <;> rfl
    | cons a ns =>
      simp only [List.length_cons, List.getElem?_cons_succ] at h
      have := ih ns h
      simp only [readsFrom, List.cons_append, List.zip_cons_cons, List.map_cons, List.sum_cons] at this ⊢
      rw [this]
      omega

theorem readsFrom_zero {src : Nat} : ∀ (prog : List TileOp) (ns : List Nat),
    readsFrom src prog (ns ++ [0]) = readsFrom src prog ns := by
  intro prog
  induction prog with
  | nil => intro ns; simp [readsFrom]
  | cons o prog ih =>
    intro ns
    cases ns with
    | nil =>
      simp only [readsFrom, List.nil_append, List.zip_cons_cons, List.zip_nil_right, List.map_cons, List.map_nil, List.sum_cons,
        List.sum_nil]
      cases o <;> simp
    | cons a ns =>
      have := ih ns
      simp only [readsFrom, List.cons_append, List.zip_cons_cons, List.map_cons, List.sum_cons] at this ⊢
      rw [this]

/-- A Recv that has called `read_packet` `n` times, has started at `s` and ended at `e`. -/
def RowsTook (v : TV) (off n s e : Nat) (addr source width vec : Int) : Prop :=
  ∃ e' rows, readsInTurn (v.asked source.toNat) (v.read source.toNat) off n s e' ∧
    rows = ((v.rlog source.toNat).drop off).take n ∧ rows.length = n ∧
    ((n = vec.toNat ∧ (∀ row ∈ rows, (row.length : Int) = width) ∧ ∃ r : Req, .wrote r e ∈ v.ctrl.answers ∧ r.core = -1 ∧
        r.start = addr ∧ r.kind = .write rows.flatten vec.toNat ∧ r.submitTime = e') ∨
     (n ≤ vec.toNat ∧ (∃ good bad, rows = good ++ [bad] ∧ (∀ row ∈ good, (row.length : Int) = width) ∧
        (bad.length : Int) ≠ width) ∧ e = e'))

/-- A call of `read_packet` for packets of `src` has not returned. -/
def pend (r : Reader) (src : Nat) : Nat :=
  match r with
  | .idle => 0
  | .waiting s => if s = src then 1 else 0
  | .got s _ => if s = src then 1 else 0

def PhaseRows (prog : List TileOp) (v : TV) (ns : List Nat) (cur : Nat) : Prop :=
  match v.phase with
  | .ready => cur = 0
  | .recving _ source width _ got => cur = got.length ∧
      (v.rlog source.toNat).drop (readsFrom source.toNat prog ns) = got ∧ ∀ row ∈ got, (row.length : Int) = width
  | .recvWait _ source width _ got => cur = got.length + 1 ∧
      (v.rlog source.toNat).drop (readsFrom source.toNat prog ns) = got ∧ ∀ row ∈ got, (row.length : Int) = width
  | .recvWrite id => ∀ addr source width vec, prog[v.ends.length]? = some (.receive addr source width vec) →
      cur = vec.toNat ∧ ∃ got, got.length = vec.toNat ∧
      (v.rlog source.toNat).drop (readsFrom source.toNat prog ns) = got ∧ (∀ row ∈ got, (row.length : Int) = width) ∧
      ∃ r, v.ctrl.submitted[id]? = some r ∧ r.kind = .write got.flatten vec.toNat
  | _ => True

/-- `ns[m]`: how many packets the operation number `m` has read. -/
structure Rows (prog : List TileOp) (v : TV) (ns : List Nat) (cur : Nat) : Prop where
  len : ns.length = v.ends.length
  asked : ∀ src, (v.asked src).length = readsFrom src prog (ns ++ [cur])
  rlog : ∀ src, (v.asked src).length = (v.rlog src).length + pend v.reader src
  past : ∀ (m e : Nat) addr source width vec, v.ends[m]? = some e → prog[m]? = some (.receive addr source width vec) →
    ∃ s n, v.starts[m]? = some s ∧ ns[m]? = some n ∧
      RowsTook v (readsFrom source.toNat prog (ns.take m)) n s e addr source width vec
  phase : PhaseRows prog v ns cur

def RowsInv (prog : List TileOp) (v : TV) : Prop := ∃ ns cur, Rows prog v ns cur

theorem take_prefix {α : Type} {l l' : List α} (h : l <+: l') {off n : Nat} (hl : ((l.drop off).take n).length = n) :
    (l.drop off).take n = (l'.drop off).take n := by
  obtain ⟨m, rfl⟩ := h
  rw [List.length_take, List.length_drop] at hl
  by_cases ho : off ≤ l.length
  · rw [List.drop_append_of_le_length ho, List.take_append_of_le_length (by rw [List.length_drop]; omega)]
  · have : n = 0 := by omega
    subst this
    rfl

theorem RowsTook.mono {v v' : TV} (x : TVExt v v') (hl : ∀ src, v.rlog src <+: v'.rlog src) {off n s e : Nat}
    {addr source width vec : Int} (h : RowsTook v off n s e addr source width vec) :
    RowsTook v' off n s e addr source width vec := by
  obtain ⟨e', rows, h1, h2, h3, h4⟩ := h
  refine ⟨e', rows, readsInTurn_mono (x.asked _) (x.read _) h1, ?_, h3, ?_⟩
  · rw [h2] at h3 ⊢
    exact take_prefix (hl _) h3
  · rcases h4 with ⟨h4, h5, r, h6, h7⟩ | h4
    · exact .inl ⟨h4, h5, r, x.ans.subset h6, h7⟩
    · exact .inr h4

section
variable {lat cores : Nat} {prog : List TileOp} {v v' : TV} {ns : List Nat} {cur : Nat}

/-- No operation ends and no packet is asked for or read. -/
theorem Rows.frame (h : Rows prog v ns cur) (x : TVExt v v') (e1 : v'.ends = v.ends) (e2 : v'.asked = v.asked)
    (e3 : v'.rlog = v.rlog) (e4 : ∀ src, pend v'.reader src = pend v.reader src) (e5 : v.starts <+: v'.starts)
    (e6 : PhaseRows prog v' ns cur) : Rows prog v' ns cur := by
  refine ⟨by rw [e1]; exact h.len, by rw [e2]; exact h.asked, by intro src; rw [e2, e3, e4]; exact h.rlog src, ?_, e6⟩
  intro m e addr source width vec h1 h2
  rw [e1] at h1
  obtain ⟨s, n, h3, h4, h5⟩ := h.past m e addr source width vec h1 h2
  exact ⟨s, n, prefix_getElem? e5 h3, h4, h5.mono x (fun src => by rw [e3])⟩

/-- An operation ends; no packet is asked for. -/
theorem Rows.ends (h : Rows prog v ns cur) (x : TVExt v v') (e1 : ∃ e, v'.ends = v.ends ++ [e]) (e2 : v'.asked = v.asked)
    (e3 : ∀ src, v.rlog src <+: v'.rlog src)
    (e4 : ∀ src, (v'.rlog src).length + pend v'.reader src = (v.rlog src).length + pend v.reader src)
    (e5 : v.starts <+: v'.starts) (e6 : v'.phase = .ready)
    (e7 : ∀ e addr source width vec, v'.ends = v.ends ++ [e] →
      prog[v.ends.length]? = some (.receive addr source width vec) → ∃ s, v'.starts[v.ends.length]? = some s ∧
      RowsTook v' (readsFrom source.toNat prog ns) cur s e addr source width vec) : Rows prog v' (ns ++ [cur]) 0 := by
  obtain ⟨e, e1⟩ := e1
  refine ⟨by rw [e1]; simp [h.len], ?_, ?_, ?_, ?_⟩
  · intro src
    rw [e2, readsFrom_zero]
    exact h.asked src
  · intro src
    rw [e2, e4]
    exact h.rlog src
  · intro m e' addr source width vec h1 h2
    by_cases hm : m < v.ends.length
    · rw [e1, List.getElem?_append_left hm] at h1
      obtain ⟨s, n, h3, h4, h5⟩ := h.past m e' addr source width vec h1 h2
      refine ⟨s, n, prefix_getElem? e5 h3, prefix_getElem? (List.prefix_append _ _) h4, ?_⟩
      rw [List.take_append_of_le_length (by rw [h.len]; omega)]
      exact h5.mono x e3
    · have hlt := (List.getElem?_eq_some_iff.1 h1).1
      rw [e1, List.length_append, List.length_singleton] at hlt
      have : m = v.ends.length := by omega
      subst this
      rw [e1, List.getElem?_append_right (le_refl _), Nat.sub_self] at h1
      injection h1 with h1
      subst h1
      obtain ⟨s, h3, h4⟩ := e7 e addr source width vec e1 h2
      refine ⟨s, cur, h3, ?_, ?_⟩
      · rw [← h.len, List.getElem?_append_right (le_refl _), Nat.sub_self]; rfl
      · rw [List.take_append_of_le_length (by rw [h.len]), List.take_of_length_le (by rw [h.len])]
        exact h4
  · unfold PhaseRows
    rw [e6]

theorem rlog_ext (st : TVStep lat cores v v') : ∀ src, v.rlog src <+: v'.rlog src := by
  have up : ∀ (g : Nat → List (List I32)) (i src : Nat) (x : List I32), g src <+: upd g i (g i ++ [x]) src := by
    intro g i src x
    by_cases hs : src = i
    · subst hs; rw [upd_same]; exact List.prefix_append _ _
    · rw [upd_ne _ _ _ _ hs]
  cases st <;> intro src <;> first | exact List.prefix_rfl | exact up _ _ _ _

theorem pend_got {src : Nat} {data : List I32} {log : Nat → List (List I32)} (s : Nat) :
    (upd log src (log src ++ [data]) s).length + pend .idle s = (log s).length + pend (.got src data) s := by
  unfold pend
  dsimp only
  by_cases hs : s = src
  · subst hs; rw [upd_same, List.length_append, if_pos rfl]; rfl
  · rw [upd_ne _ _ _ _ hs, if_neg (fun e => hs e.symm)]

theorem drop_snoc {α : Type} {l g : List α} {off : Nat} {x : α} (h : l.drop off = g) (hl : l.length = off + g.length) :
    (l ++ [x]).drop off = g ++ [x] := by
  rw [List.drop_append_of_le_length (by omega), h]

theorem rowsInv_step (hT : TileTimes lat cores prog v) (hline : CtrlLine v.ctrl) (h : RowsInv prog v)
    (st : TVStep lat cores v v') : RowsInv prog v' := by
  have x := tvStep_ext hT st
  have y := rlog_ext st
  obtain ⟨ns, cur, h⟩ := h
  have hP := h.phase
  have ht := hT.time
  unfold PhaseRows at hP
  have pr : ∀ {α : Type} (l : List α), l <+: l := fun l => List.prefix_rfl
  cases st with
  | ctrl c hc =>
    refine ⟨ns, cur, h.frame x rfl rfl rfl (fun _ => rfl) (pr _) ?_⟩
    unfold PhaseRows
    dsimp only
    cases hp : v.phase <;> rw [hp] at hP
    case recvWrite id =>
      intro addr source width vec hop
      obtain ⟨h1, got, h2, h3, h4, r, h5, h6⟩ := hP addr source width vec hop
      exact ⟨h1, got, h2, h3, h4, r, prefix_getElem? hc.subs h5, h6⟩
    all_goals exact hP
  | take src z hr =>
    refine ⟨ns, cur, h.frame x rfl rfl rfl (fun s => ?_) (pr _) h.phase⟩
    rw [hr]; rfl
  | done => exact ⟨ns, cur, h.frame x rfl rfl rfl (fun _ => rfl) (pr _) h.phase⟩
  | returned => exact ⟨ns, cur, h.frame x rfl rfl rfl (fun _ => rfl) (pr _) h.phase⟩
  | send => exact ⟨ns, cur, h.frame x rfl rfl rfl (fun _ => rfl) (List.prefix_append _ _) trivial⟩
  | recv addr source width vec rest hp ho hv =>
    rw [hp] at hP
    dsimp only at hP
    subst hP
    refine ⟨ns, 0, h.frame x rfl rfl rfl (fun _ => rfl) (List.prefix_append _ _) ⟨rfl, ?_, by simp⟩⟩
    have h1 := h.asked source.toNat
    have h2 := h.rlog source.toNat
    rw [readsFrom_zero] at h1
    exact List.drop_eq_nil_of_le (by dsimp only; omega)
  | halt => exact ⟨ns, cur, h.frame x rfl rfl rfl (fun _ => rfl) (List.prefix_append _ _) trivial⟩
  | sendGot => exact ⟨ns, cur, h.frame x rfl rfl rfl (fun _ => rfl) (pr _) trivial⟩
  | sendRow => exact ⟨ns, cur, h.frame x rfl rfl rfl (fun _ => rfl) (pr _) trivial⟩
  | added => exact ⟨ns, cur, h.frame x rfl rfl rfl (fun _ => rfl) (pr _) trivial⟩
  | haltAgain => exact ⟨ns, cur, h.frame x rfl rfl rfl (fun _ => rfl) (pr _) trivial⟩
  | haltFirst => exact ⟨ns, cur, h.frame x rfl rfl rfl (fun _ => rfl) (pr _) trivial⟩
  | stopStep st hp =>
    refine ⟨ns, cur, h.frame x rfl rfl rfl (fun _ => rfl) (pr _) ?_⟩
    unfold PhaseRows
    dsimp only
    rw [hp]
    trivial
  | stop hp =>
    refine ⟨ns, cur, h.frame x rfl rfl rfl (fun _ => rfl) (pr _) ?_⟩
    unfold PhaseRows
    dsimp only
    rw [hp]
    trivial
  | sendEnd target hp =>
    unfold PhaseTime at ht
    rw [hp] at ht
    obtain ⟨s, addr, width, vec, -, h2, -⟩ := ht
    exact ⟨_, _, h.ends x ⟨_, rfl⟩ rfl y (fun _ => rfl) (pr _) rfl fun e a so w n _ hop => by rw [h2] at hop; cases hop⟩
  | haltEnd c hp hs hc =>
    unfold PhaseTime at ht
    rw [hp] at ht
    obtain ⟨s, q, -, h2, -⟩ := ht
    exact ⟨_, _, h.ends x ⟨_, rfl⟩ rfl y (fun _ => rfl) (pr _) rfl fun e a so w n _ hop => by rw [h2] at hop; cases hop⟩
  | recvRead addr source width vec got hp hg hr =>
    unfold PhaseTime at ht
    rw [hp] at ht hP
    obtain ⟨s, off, h1, h2, h3, h4, h5⟩ := ht
    obtain ⟨h6, h7, h8⟩ := hP
    refine ⟨ns, cur + 1, h.len, fun src => ?_, fun src => ?_, ?_, ⟨by rw [h6], h7, h8⟩⟩
    · have h9 := h.asked src
      rw [readsFrom_snoc (op := .receive addr source width vec) prog ns (by rw [h.len]; exact h2)] at h9 ⊢
      dsimp only at h9 ⊢
      by_cases hs : source.toNat = src
      · subst hs; rw [upd_same, List.length_append, h9, if_pos rfl, if_pos rfl]; rfl
      · rw [upd_ne _ _ _ _ (fun e => hs e.symm), h9, if_neg hs, if_neg hs]
    · have h9 := h.rlog src
      rw [hr] at h9
      unfold pend at h9 ⊢
      dsimp only at h9 ⊢
      by_cases hs : source.toNat = src
      · subst hs; rw [upd_same, List.length_append, h9, if_pos rfl]; rfl
      · rw [upd_ne _ _ _ _ (fun e => hs e.symm), h9, if_neg hs]
    · intro m e a so w n g1 g2
      obtain ⟨s, k, g3, g4, g5⟩ := h.past m e a so w n g1 g2
      exact ⟨s, k, g3, g4, g5.mono x y⟩
  | recvRow addr source width vec got src data hp hr hw =>
    unfold PhaseTime at ht
    rw [hp] at ht hP
    obtain ⟨s, off, e', h1, h2, h3, h4, h5, h6, h7⟩ := ht
    obtain ⟨g1, g2, g3⟩ := hP
    have hsrc : src = source.toNat := by
      rcases h7 with h7 | ⟨y, h7, h8⟩
      · rw [hr] at h7; cases h7
      · rw [hr] at h7; injection h7 with h7 _
    subst hsrc
    have h8 := h.asked source.toNat
    have h9 := h.rlog source.toNat
    rw [readsFrom_snoc (op := .receive addr source width vec) prog ns (by rw [h.len]; exact h2)] at h8
    rw [hr] at h9
    simp only [pend, if_true] at h8 h9
    refine ⟨ns, cur, h.len, h.asked, fun s' => ?_, ?_, ⟨?_, ?_, ?_⟩⟩
    · dsimp only
      rw [pend_got, ← hr]
      exact h.rlog s'
    · intro m e a so w n g1 g2
      obtain ⟨s, k, g3, g4, g5⟩ := h.past m e a so w n g1 g2
      exact ⟨s, k, g3, g4, g5.mono x y⟩
    · rw [List.length_append]; exact g1
    · dsimp only
      rw [upd_same]
      exact drop_snoc g2 (by omega)
    · intro row hrow
      rcases List.mem_append.1 hrow with hrow | hrow
      · exact g3 row hrow
      · rw [List.mem_singleton.1 hrow]; exact hw
  | recvBad addr source width vec got src data hp hr hw =>
    unfold PhaseTime at ht
    rw [hp] at ht hP
    obtain ⟨s, off, e', h1, h2, h3, h4, h5, h6, h7⟩ := ht
    obtain ⟨g1, g2, g3⟩ := hP
    have hsrc : src = source.toNat ∧ (v.read source.toNat)[off + got.length]? = some v.now := by
      rcases h7 with h7 | ⟨y, h7, h8⟩
      · rw [hr] at h7; cases h7
      · rw [hr] at h7; injection h7 with h7 _; exact ⟨h7, h8⟩
    obtain ⟨hsrc, hrd⟩ := hsrc
    subst hsrc
    have h8 := h.asked source.toNat
    have h9 := h.rlog source.toNat
    rw [readsFrom_snoc (op := .receive addr source width vec) prog ns (by rw [h.len]; exact h2)] at h8
    rw [hr] at h9
    simp only [pend, if_true] at h8 h9
    have hoff : off = readsFrom source.toNat prog ns := by omega
    subst hoff
    refine ⟨_, _, h.ends x ⟨_, rfl⟩ rfl y (fun s' => ?_) (pr _) rfl ?_⟩
    · dsimp only
      rw [pend_got, ← hr]
    · intro e a so w n he hop
      rw [h2] at hop
      injection hop with hop
      injection hop with i1 i2 i3 i4
      subst i1 i2 i3 i4
      dsimp only at he
      have he : v.now = e := by simpa using he
      subst he
      refine ⟨s, h1, v.now, got ++ [data], ?_, ?_, by rw [List.length_append]; exact g1.symm, .inr ⟨by omega, ⟨got, data, rfl, g3, hw⟩, rfl⟩⟩
      · rw [g1]; exact chain_snoc h4 h5 hrd
      · dsimp only
        rw [upd_same, drop_snoc g2 (by omega), List.take_of_length_le (by rw [List.length_append, g1]; rfl)]
  | recvAll addr source width vec got c hp hg hc =>
    unfold PhaseTime at ht
    rw [hp] at ht hP
    obtain ⟨s, off, h1, h2, h3, h4, h5⟩ := ht
    obtain ⟨g1, g2, g3⟩ := hP
    refine ⟨ns, cur, h.frame x rfl rfl rfl (fun _ => rfl) (pr _) ?_⟩
    intro a so w n hop
    dsimp only at hop ⊢
    rw [h2] at hop
    injection hop with hop
    injection hop with i1 i2 i3 i4
    subst i1 i2 i3 i4
    obtain ⟨r, j1, j2, j3, j4, j5⟩ := hc.req
    exact ⟨by omega, got, by omega, g2, g3, r, j1, j4⟩
  | recvDone id hp ha =>
    unfold PhaseTime at ht
    rw [hp] at ht hP
    obtain ⟨s, addr, source, width, vec, off, e', r, data, h1, h2, h3, hof, h4, h5, h6, h7, h8, h9⟩ := ht
    obtain ⟨r', tm, h10, h11⟩ := wroteAnswer_mem ha
    have hrr : r' = r := answer_unique hline h10 h11 h4
    subst hrr
    have htm : tm = v.now := h9 _ h10 h11
    subst htm
    obtain ⟨g1, got, g2, g3, g4, r, g5, g6⟩ := hP addr source width vec h2
    rw [h4] at g5
    injection g5 with g5
    subst g5
    have j8 := h.asked source.toNat
    rw [readsFrom_snoc (op := .receive addr source width vec) prog ns (by rw [h.len]; exact h2)] at j8
    simp only [if_true] at j8
    have hoff : off = readsFrom source.toNat prog ns := by omega
    subst hoff
    refine ⟨_, _, h.ends x ⟨_, rfl⟩ rfl y (fun s' => rfl) (pr _) rfl ?_⟩
    intro e a so w n he hop
    rw [h2] at hop
    injection hop with hop
    injection hop with i1 i2 i3 i4
    subst i1 i2 i3 i4
    dsimp only at he
    have he : v.now = e := by simpa using he
    subst he
    refine ⟨s, h1, e', got, by rw [g1]; exact h3, ?_, by rw [g1]; exact g2, .inl ⟨g1, g4, r', h10, h5, h6, g6, h8⟩⟩
    dsimp only
    rw [g3, List.take_of_length_le (by omega)]

theorem rowsInv_tick (h : RowsInv prog v) (c : Ctrl) (hs : c.submitted = v.ctrl.submitted)
    (ha : c.answers = v.ctrl.answers) : RowsInv prog { v with now := v.now + 1, ctrl := c } := by
  have x : TVExt v { v with now := v.now + 1, ctrl := c } :=
    ⟨by rw [ha], List.prefix_rfl, fun _ => List.prefix_rfl, fun _ => List.prefix_rfl, fun _ e => e, fun _ e => e,
      fun _ _ e => e⟩
  obtain ⟨ns, cur, h⟩ := h
  refine ⟨ns, cur, h.frame x rfl rfl rfl (fun _ => rfl) List.prefix_rfl ?_⟩
  have hP := h.phase
  unfold PhaseRows at hP ⊢
  dsimp only
  rw [hs]
  exact hP

end

end Ramwich
