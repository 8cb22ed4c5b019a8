import Verif.Spec.TimedPipeline
import Verif.Lemmas.Pipeline

/-! # Invariants of the pipeline with a clock -/
namespace Ramwich.Pipeline

variable {α : Type}

theorem getD_append_lt (l : List Nat) (x k : Nat) (h : k < l.length) : (l ++ [x]).getD k 0 = l.getD k 0 := by
  simp [List.getD_eq_getElem?_getD, List.getElem?_append_left h]

theorem getD_append_self (l : List Nat) (x : Nat) : (l ++ [x]).getD l.length 0 = x := by
  simp [List.getD_eq_getElem?_getD]

theorem getD_le (l : List Nat) (b : Nat) (h : ∀ x ∈ l, x ≤ b) (k : Nat) : l.getD k 0 ≤ b := by
  rw [List.getD_eq_getElem?_getD]
  cases hk : l[k]? with
  | none => exact Nat.zero_le b
  | some x => exact h x (List.mem_of_getElem? hk)

theorem append_le (l : List Nat) (x b : Nat) (h : ∀ y ∈ l, y ≤ b) (hx : x ≤ b) : ∀ y ∈ l ++ [x], y ≤ b := by
  intro y hy
  rcases List.mem_append.1 hy with hy | hy
  · exact h y hy
  · rw [List.mem_singleton.1 hy]; exact hx

theorem before_append (l : List Nat) (x k d : Nat) (h : k ≤ l.length) : before (l ++ [x]) k d = before l k d := by
  unfold before
  split
  · rfl
  · exact getD_append_lt _ _ _ (by omega)

theorem before_append_self (l : List Nat) (x d : Nat) : before (l ++ [x]) (l.length + 1) d = x := by
  unfold before
  rw [if_neg (by omega)]
  exact getD_append_self _ _

theorem before_le (l : List Nat) (b : Nat) (h : ∀ x ∈ l, x ≤ b) (k : Nat) : before l k 0 ≤ b := by
  unfold before
  split
  · exact Nat.zero_le b
  · exact getD_le l b h _

/-- 1 if the stage has taken an operation that it has not got rid of. -/
def Ctl.dTake : Ctl α → Nat
  | .got _ | .busy _ | .putting _ => 1
  | _ => 0

/-- 1 if the stage has called the visitor for an operation that it has not got rid of. -/
def Ctl.dStart : Ctl α → Nat
  | .busy _ | .putting _ => 1
  | _ => 0

/-- 1 if the event has fired for an operation that the stage has not got rid of. -/
def Ctl.dFinish : Ctl α → Nat
  | .putting _ => 1
  | _ => 0

/-- The histories of one stage. `b`, `nb`: lengths of its input and output buffers; `arr`: the arrivals in
the input buffer; `ntk`: the `takes` of the next stage. -/
structure StageOK (lat : Nat → Option Nat) (last : Bool) (now : Nat) (c : Ctl α) (b nb : Nat)
    (dl : Option Nat) (arr tk st fi lv ntk : List Nat) : Prop where
  tkLen : tk.length = lv.length + c.dTake
  stLen : st.length = lv.length + c.dStart
  fiLen : fi.length = lv.length + c.dFinish
  bufLen : arr.length = tk.length + b
  nextLen : last = false → lv.length = ntk.length + nb
  arrLe : ∀ x ∈ arr, x ≤ now
  tkLe : ∀ x ∈ tk, x ≤ now
  fiLe : ∀ x ∈ fi, x ≤ now
  lvLe : ∀ x ∈ lv, x ≤ now
  ntkLe : ∀ x ∈ ntk, x ≤ now
  eqTake : ∀ k, k < tk.length → tk.getD k 0 = max (arr.getD k 0) (before lv k 0)
  eqStart : ∀ k, k < st.length → st.getD k 0 = tk.getD k 0
  eqLeave : ∀ k, k < lv.length →
    lv.getD k 0 = if last then fi.getD k 0 else max (fi.getD k 0) (before ntk k 0)
  order : ∀ k, k < fi.length → st.getD k 0 ≤ fi.getD k 0
  fixed : ∀ k, k < fi.length → ∀ l, lat k = some l → fi.getD k 0 = st.getD k 0 + l
  running : ∀ op, c = .busy op → dl = (lat lv.length).map (fun l => st.getD lv.length 0 + l) ∧
    ∀ d, dl = some d → now ≤ d
  uTake : c = .idle → b ≠ 0 → now = max (arr.getD lv.length 0) (before lv lv.length 0)
  uGot : ∀ op, c = .got op → now = tk.getD lv.length 0
  uPut : ∀ op, c = .putting op → last = false ∧ (nb = 0 → now = max (fi.getD lv.length 0) (before ntk lv.length 0))
  uAfter : ∀ op, c = .after op → lv ≠ [] ∧ now = before lv lv.length 0

section
variable {lat : Nat → Option Nat} {last : Bool} {now : Nat} {c : Ctl α} {b nb : Nat} {dl : Option Nat}
  {arr tk st fi lv ntk : List Nat}

theorem StageOK.take {op : α} (h : StageOK lat last now (Ctl.idle : Ctl α) 1 nb dl arr tk st fi lv ntk) :
    StageOK lat last now (.got op) 0 nb dl arr (tk ++ [now]) st fi lv ntk := by
  have e1 := h.tkLen
  have e2 := h.stLen
  have e3 := h.fiLen
  have e4 := h.bufLen
  simp only [Ctl.dTake, Ctl.dStart, Ctl.dFinish, Nat.add_zero] at e1 e2 e3
  refine ⟨by simp [Ctl.dTake, e1], by simpa [Ctl.dStart] using e2, by simpa [Ctl.dFinish] using e3,
    by simp [e4], h.nextLen, h.arrLe, append_le _ _ _ h.tkLe (le_refl _), h.fiLe, h.lvLe, h.ntkLe, ?_, ?_,
    h.eqLeave, h.order, h.fixed, ?_, ?_, ?_, ?_, ?_⟩
  · intro k hk
    rw [List.length_append, List.length_singleton] at hk
    by_cases hlt : k < tk.length
    · rw [getD_append_lt _ _ _ hlt]; exact h.eqTake k hlt
    · have : k = tk.length := by omega
      subst this
      rw [getD_append_self, h.uTake rfl (by decide), e1]
  · intro k hk
    rw [getD_append_lt _ _ _ (by omega)]; exact h.eqStart k hk
  · intro op' h'; cases h'
  · intro h'; cases h'
  · intro op' _; rw [← e1, getD_append_self]
  · intro op' h'; cases h'
  · intro op' h'; cases h'

/-- The next stage takes an operation. -/
theorem StageOK.nextTake (h : StageOK lat false now c b 1 dl arr tk st fi lv ntk) :
    StageOK lat false now c b 0 dl arr tk st fi lv (ntk ++ [now]) := by
  have e := h.nextLen rfl
  refine ⟨h.tkLen, h.stLen, h.fiLen, h.bufLen, fun _ => by simp [e], h.arrLe, h.tkLe, h.fiLe, h.lvLe,
    append_le _ _ _ h.ntkLe (le_refl _), h.eqTake, h.eqStart, ?_, h.order, h.fixed, h.running, h.uTake, h.uGot,
    ?_, h.uAfter⟩
  · intro k hk
    rw [before_append _ _ _ _ (by omega)]; exact h.eqLeave k hk
  · intro op hc
    refine ⟨rfl, fun _ => ?_⟩
    rw [e, before_append_self, ← e]
    exact (max_eq_right (getD_le _ _ h.fiLe _)).symm

theorem StageOK.start {op : α} (h : StageOK lat last now (.got op) b nb dl arr tk st fi lv ntk) :
    StageOK lat last now (.busy op) b nb ((lat st.length).map fun d => now + d) arr tk (st ++ [now]) fi lv ntk := by
  have e1 := h.tkLen
  have e2 := h.stLen
  have e3 := h.fiLen
  simp only [Ctl.dTake, Ctl.dStart, Ctl.dFinish, Nat.add_zero] at e1 e2 e3
  refine ⟨by simpa [Ctl.dTake] using e1, by simp [Ctl.dStart, e2], by simpa [Ctl.dFinish] using e3,
    h.bufLen, h.nextLen, h.arrLe, h.tkLe, h.fiLe, h.lvLe, h.ntkLe, h.eqTake, ?_,
    h.eqLeave, ?_, ?_, ?_, ?_, ?_, ?_, ?_⟩
  · intro k hk
    rw [List.length_append, List.length_singleton] at hk
    by_cases hlt : k < st.length
    · rw [getD_append_lt _ _ _ hlt]; exact h.eqStart k hlt
    · have : k = st.length := by omega
      subst this
      rw [getD_append_self, e2]; exact h.uGot op rfl
  · intro k hk
    rw [getD_append_lt _ _ _ (by omega)]; exact h.order k hk
  · intro k hk l hl
    rw [getD_append_lt _ _ _ (by omega)]; exact h.fixed k hk l hl
  · intro op' _
    refine ⟨by rw [← e2, getD_append_self], ?_⟩
    intro d hd
    obtain ⟨l, _, rfl⟩ := Option.map_eq_some_iff.1 hd
    omega
  · intro h'; cases h'
  · intro op' h'; cases h'
  · intro op' h'; cases h'
  · intro op' h'; cases h'

theorem StageOK.finish_put {op : α} (h : StageOK lat false now (.busy op) b nb dl arr tk st fi lv ntk)
    (hd : dl = none ∨ dl = some now) :
    StageOK lat false now (.putting op) b nb dl arr tk st (fi ++ [now]) lv ntk := by
  have e1 := h.tkLen
  have e2 := h.stLen
  have e3 := h.fiLen
  simp only [Ctl.dTake, Ctl.dStart, Ctl.dFinish, Nat.add_zero] at e1 e2 e3
  refine ⟨by simpa [Ctl.dTake] using e1, by simpa [Ctl.dStart] using e2, by simp [Ctl.dFinish, e3],
    h.bufLen, h.nextLen, h.arrLe, h.tkLe, append_le _ _ _ h.fiLe (le_refl _), h.lvLe, h.ntkLe, h.eqTake, h.eqStart,
    ?_, ?_, ?_, ?_, ?_, ?_, ?_, ?_⟩
  · intro k hk
    rw [getD_append_lt _ _ _ (by omega)]; exact h.eqLeave k hk
  · intro k hk
    rw [List.length_append, List.length_singleton] at hk
    by_cases hlt : k < fi.length
    · rw [getD_append_lt _ _ _ hlt]; exact h.order k hlt
    · have : k = fi.length := by omega
      subst this
      rw [getD_append_self, h.eqStart _ (by omega)]; exact getD_le _ _ h.tkLe _
  · intro k hk l hl
    rw [List.length_append, List.length_singleton] at hk
    by_cases hlt : k < fi.length
    · rw [getD_append_lt _ _ _ hlt]; exact h.fixed k hlt l hl
    · have : k = fi.length := by omega
      subst this
      have hr := (h.running op rfl).1
      rw [e3] at hl ⊢
      rw [hl] at hr
      rcases hd with hd | hd <;> rw [hd] at hr
      · cases hr
      · rw [← e3, getD_append_self, e3]; exact Option.some.inj hr
  · intro op' h'; cases h'
  · intro h'; cases h'
  · intro op' h'; cases h'
  · intro op' _
    refine ⟨rfl, fun _ => ?_⟩
    rw [← e3, getD_append_self]
    exact (max_eq_left (before_le _ _ h.ntkLe _)).symm
  · intro op' h'; cases h'

theorem StageOK.finish_last {op : α} (h : StageOK lat true now (.busy op) b nb dl arr tk st fi lv ntk)
    (hd : dl = none ∨ dl = some now) :
    StageOK lat true now (.after op) b nb dl arr tk st (fi ++ [now]) (lv ++ [now]) ntk := by
  have e1 := h.tkLen
  have e2 := h.stLen
  have e3 := h.fiLen
  simp only [Ctl.dTake, Ctl.dStart, Ctl.dFinish, Nat.add_zero] at e1 e2 e3
  refine ⟨by simp [Ctl.dTake, e1], by simp [Ctl.dStart, e2], by simp [Ctl.dFinish, e3],
    h.bufLen, fun h' => (by cases h'), h.arrLe, h.tkLe, append_le _ _ _ h.fiLe (le_refl _),
    append_le _ _ _ h.lvLe (le_refl _), h.ntkLe, ?_, h.eqStart,
    ?_, ?_, ?_, ?_, ?_, ?_, ?_, ?_⟩
  · intro k hk
    rw [before_append _ _ _ _ (by omega)]; exact h.eqTake k hk
  · intro k hk
    rw [List.length_append, List.length_singleton] at hk
    rw [if_pos rfl]
    by_cases hlt : k < lv.length
    · rw [getD_append_lt _ _ _ hlt, getD_append_lt _ _ _ (by omega)]
      simpa using h.eqLeave k hlt
    · have : k = lv.length := by omega
      subst this
      rw [getD_append_self, ← e3, getD_append_self]
  · intro k hk
    rw [List.length_append, List.length_singleton] at hk
    by_cases hlt : k < fi.length
    · rw [getD_append_lt _ _ _ hlt]; exact h.order k hlt
    · have : k = fi.length := by omega
      subst this
      rw [getD_append_self, h.eqStart _ (by omega)]; exact getD_le _ _ h.tkLe _
  · intro k hk l hl
    rw [List.length_append, List.length_singleton] at hk
    by_cases hlt : k < fi.length
    · rw [getD_append_lt _ _ _ hlt]; exact h.fixed k hlt l hl
    · have : k = fi.length := by omega
      subst this
      have hr := (h.running op rfl).1
      rw [e3] at hl ⊢
      rw [hl] at hr
      rcases hd with hd | hd <;> rw [hd] at hr
      · cases hr
      · rw [← e3, getD_append_self, e3]; exact Option.some.inj hr
  · intro op' h'; cases h'
  · intro h'; cases h'
  · intro op' h'; cases h'
  · intro op' h'; cases h'
  · intro op' _
    refine ⟨by simp, ?_⟩
    rw [List.length_append, List.length_singleton, before_append_self]

theorem StageOK.putIn {op : α} (h : StageOK lat false now (.putting op) b 0 dl arr tk st fi lv ntk) :
    StageOK lat false now (.after op) b 1 dl arr tk st fi (lv ++ [now]) ntk := by
  have e1 := h.tkLen
  have e2 := h.stLen
  have e3 := h.fiLen
  have e4 := h.nextLen rfl
  simp only [Ctl.dTake, Ctl.dStart, Ctl.dFinish, Nat.add_zero] at e1 e2 e3
  refine ⟨by simp [Ctl.dTake, e1], by simp [Ctl.dStart, e2], by simp [Ctl.dFinish, e3],
    h.bufLen, fun _ => by simp [e4], h.arrLe, h.tkLe, h.fiLe,
    append_le _ _ _ h.lvLe (le_refl _), h.ntkLe, ?_, h.eqStart,
    ?_, h.order, h.fixed, ?_, ?_, ?_, ?_, ?_⟩
  · intro k hk
    rw [before_append _ _ _ _ (by omega)]; exact h.eqTake k hk
  · intro k hk
    rw [List.length_append, List.length_singleton] at hk
    by_cases hlt : k < lv.length
    · rw [getD_append_lt _ _ _ hlt]; exact h.eqLeave k hlt
    · have : k = lv.length := by omega
      subst this
      rw [getD_append_self]
      simpa using (h.uPut op rfl).2 rfl
  · intro op' h'; cases h'
  · intro h'; cases h'
  · intro op' h'; cases h'
  · intro op' h'; cases h'
  · intro op' _
    refine ⟨by simp, ?_⟩
    rw [List.length_append, List.length_singleton, before_append_self]

/-- An operation arrives in the input buffer. -/
theorem StageOK.arrive (h : StageOK lat last now c 0 nb dl arr tk st fi lv ntk) :
    StageOK lat last now c 1 nb dl (arr ++ [now]) tk st fi lv ntk := by
  have e := h.bufLen
  refine ⟨h.tkLen, h.stLen, h.fiLen, by simp [e], h.nextLen, append_le _ _ _ h.arrLe (le_refl _), h.tkLe, h.fiLe,
    h.lvLe, h.ntkLe, ?_, h.eqStart, h.eqLeave, h.order, h.fixed, h.running, ?_, h.uGot, h.uPut, h.uAfter⟩
  · intro k hk
    rw [getD_append_lt _ _ _ (by omega)]; exact h.eqTake k hk
  · intro hc _
    have e1 := h.tkLen
    rw [hc] at e1
    simp only [Ctl.dTake, Nat.add_zero] at e1
    rw [show lv.length = arr.length by omega, getD_append_self]
    exact (max_eq_left (before_le _ _ h.lvLe _)).symm

theorem StageOK.next {op : α} {c' : Ctl α} (h : StageOK lat last now (.after op) b nb dl arr tk st fi lv ntk)
    (hc : c' = .idle ∨ c' = .stopped) :
    StageOK lat last now c' b nb dl arr tk st fi lv ntk := by
  have e1 := h.tkLen
  have e2 := h.stLen
  have e3 := h.fiLen
  simp only [Ctl.dTake, Ctl.dStart, Ctl.dFinish, Nat.add_zero] at e1 e2 e3
  refine ⟨?_, ?_, ?_, h.bufLen, h.nextLen, h.arrLe, h.tkLe, h.fiLe,
    h.lvLe, h.ntkLe, h.eqTake, h.eqStart, h.eqLeave, h.order, h.fixed, ?_, ?_, ?_, ?_, ?_⟩
  · rcases hc with rfl | rfl <;> simpa [Ctl.dTake] using e1
  · rcases hc with rfl | rfl <;> simpa [Ctl.dStart] using e2
  · rcases hc with rfl | rfl <;> simpa [Ctl.dFinish] using e3
  · intro op' h'; rcases hc with rfl | rfl <;> cases h'
  · intro _ _
    have := (h.uAfter op rfl).2
    rw [← this]
    exact (max_eq_right (getD_le _ _ h.arrLe _)).symm
  · intro op' h'; rcases hc with rfl | rfl <;> cases h'
  · intro op' h'; rcases hc with rfl | rfl <;> cases h'
  · intro op' h'; rcases hc with rfl | rfl <;> cases h'

theorem StageOK.tick (h : StageOK lat last now c b nb dl arr tk st fi lv ntk)
    (h1 : c = .idle → b = 0) (h2 : ∀ op, c ≠ .got op) (h3 : ∀ op, c = .busy op → dl ≠ some now)
    (h4 : ∀ op, c = .putting op → nb ≠ 0) (h5 : ∀ op, c ≠ .after op) :
    StageOK lat last (now + 1) c b nb dl arr tk st fi lv ntk := by
  have up : ∀ l : List Nat, (∀ x ∈ l, x ≤ now) → ∀ x ∈ l, x ≤ now + 1 := fun l hl x hx => Nat.le_succ_of_le (hl x hx)
  refine ⟨h.tkLen, h.stLen, h.fiLen, h.bufLen, h.nextLen, up _ h.arrLe, up _ h.tkLe, up _ h.fiLe, up _ h.lvLe,
    up _ h.ntkLe, h.eqTake, h.eqStart, h.eqLeave, h.order, h.fixed, ?_, ?_, ?_, ?_, ?_⟩
  · intro op hc
    refine ⟨(h.running op hc).1, ?_⟩
    intro d hd
    have := (h.running op hc).2 d hd
    have : d ≠ now := by
      rintro rfl
      exact h3 op hc hd
    omega
  · intro hc hb; exact absurd (h1 hc) hb
  · intro op hc; exact absurd hc (h2 op)
  · intro op hc; exact ⟨(h.uPut op hc).1, fun hn => absurd hn (h4 op hc)⟩
  · intro op hc; exact absurd hc (h5 op)

end

/-! ## The whole pipeline -/

variable {hlt : α → Bool} {n : Nat} {lat : Nat → Nat → Option Nat} {t0 : Nat} {prog : List α}

/-- Invariant of the pipeline with a clock. -/
structure TInv (hlt : α → Bool) (n : Nat) (lat : Nat → Nat → Option Nat) (prog : List α) (t0 : Nat)
    (s : Timed α) : Prop where
  inv : Inv hlt n prog s.st
  stage : ∀ i, i < n → StageOK (lat i) (decide (i + 1 = n)) s.now (s.st.ctl i) (s.st.buf i).length
    (s.st.buf (i + 1)).length (s.deadline i) (s.arrivals i) (s.takes i) (s.starts i) (s.finishes i) (s.leaves i)
    (s.takes (i + 1))
  acc : ∀ i, i < n → (s.st.accepted i).length = (s.starts i).length
  base : t0 ≤ s.now
  eqFed : ∀ k, k < s.fed.length → s.fed.getD k 0 = before (s.takes 0) k t0
  uFeed : s.st.feed ≠ [] → s.st.buf 0 = [] → s.now = before (s.takes 0) s.fed.length t0
  uMon : ∀ hm : s.st.monitor < n, s.st.completed s.st.monitor = true →
    s.now = before (s.leaves s.st.monitor) (s.leaves s.st.monitor).length 0
  uSig : s.st.monitor = n → s.st.done = false → s.now = before (s.leaves (n - 1)) (s.leaves (n - 1)).length 0
  done : s.st.done = true → s.doneAt = some (before (s.leaves (n - 1)) (s.leaves (n - 1)).length 0)

theorem tinv_init (hn : 0 < n) : TInv hlt n lat prog t0 (Timed.init prog t0) where
  inv := inv_init
  stage := by
    intro i hi
    have ha : (Timed.init prog t0).arrivals i = [] := by cases i <;> rfl
    rw [ha]
    exact ⟨rfl, rfl, rfl, rfl, fun _ => rfl, by simp, by simp [Timed.init], by simp [Timed.init],
      by simp [Timed.init], by simp [Timed.init], by simp [Timed.init], by simp [Timed.init],
      by simp [Timed.init], by simp [Timed.init], by simp [Timed.init], by simp [Timed.init, Pipeline.init],
      by simp [Timed.init, Pipeline.init], by simp [Timed.init, Pipeline.init],
      by simp [Timed.init, Pipeline.init], by simp [Timed.init, Pipeline.init]⟩
  acc := fun _ _ => rfl
  base := le_refl _
  eqFed := by simp [Timed.init]
  uFeed := fun _ _ => rfl
  uMon := by intro _ h; cases h
  uSig := by intro h; simp [Timed.init, Pipeline.init] at h; omega
  done := by intro h; cases h

/-- Two neighbouring stages that have both left their loop have accepted the same operations. -/
theorem Inv.stopped_eq {s : State α} (h : Inv hlt n prog s) (i : Nat) (hi : i + 1 < n)
    (h1 : s.ctl i = .stopped) (h2 : s.ctl (i + 1) = .stopped) : s.accepted i = s.accepted (i + 1) := by
  obtain ⟨pre, op, e1, _, e3⟩ := h.stop i (by omega) h1
  obtain ⟨pre', op', f1, f2, _⟩ := h.stop (i + 1) hi h2
  have hl := h.link i hi
  rw [h1, h2] at hl
  simp only [Ctl.taken, Ctl.held, List.append_nil] at hl
  rw [e1, f1] at hl ⊢
  rcases List.eq_nil_or_concat (s.buf (i + 1)) with hb | ⟨l, x, hb⟩
  · rw [hb, List.append_nil] at hl; exact hl
  · rw [hb, List.concat_eq_append, ← List.append_assoc] at hl
    have := List.append_inj_left' hl rfl
    have hm := e3 op' (by rw [this]; simp)
    rw [f2] at hm
    cases hm

/-- The last stage that leaves its loop is the last one of the pipeline. -/
theorem TInv.leave_mono {s : Timed α} (h : TInv hlt n lat prog t0 s) (i : Nat) (hi : i + 1 < n)
    (h1 : s.st.ctl i = .stopped) (h2 : s.st.ctl (i + 1) = .stopped) :
    before (s.leaves i) (s.leaves i).length 0 ≤ before (s.leaves (i + 1)) (s.leaves (i + 1)).length 0 := by
  have e := congrArg List.length (h.inv.stopped_eq i hi h1 h2)
  have o1 := h.stage i (by omega)
  have o2 := h.stage (i + 1) hi
  rw [h.acc i (by omega), h.acc (i + 1) hi, o1.stLen, o2.stLen, h1, h2] at e
  simp only [Ctl.dStart, Nat.add_zero] at e
  rw [e]
  unfold before
  split
  · exact le_refl _
  · rename_i hz
    have t1 := o2.tkLen
    have t2 := o2.stLen
    have t3 := o2.fiLen
    rw [h2] at t1 t2 t3
    simp only [Ctl.dTake, Ctl.dStart, Ctl.dFinish, Nat.add_zero] at t1 t2 t3
    have a1 := o2.eqTake ((s.leaves (i + 1)).length - 1) (by omega)
    have a2 := o2.eqStart ((s.leaves (i + 1)).length - 1) (by omega)
    have a3 := o2.order ((s.leaves (i + 1)).length - 1) (by omega)
    have a4 := o2.eqLeave ((s.leaves (i + 1)).length - 1) (by omega)
    have a5 : (s.finishes (i + 1)).getD ((s.leaves (i + 1)).length - 1) 0 ≤
        (s.leaves (i + 1)).getD ((s.leaves (i + 1)).length - 1) 0 := by
      rw [a4]; split
      · exact le_refl _
      · exact le_max_left _ _
    have a6 : (s.leaves i).getD ((s.leaves (i + 1)).length - 1) 0 ≤
        (s.takes (i + 1)).getD ((s.leaves (i + 1)).length - 1) 0 := by
      rw [a1]; exact le_max_left _ _
    omega

/-- Every action but the passing of time is a step of the pipeline without clock. -/
theorem move_step {s t : Timed α} {a : PAct} (h : s.move hlt n lat a = some t) : Step hlt n s.st t.st := by
  cases a with
  | feedIn =>
    simp only [Timed.move, Timed.feedIn] at h
    split at h
    · cases h
    · rename_i op rest hf
      split at h
      · rename_i hb
        cases h
        exact Step.feedIn _ op rest hf hb
      · cases h
  | take i =>
    simp only [Timed.move] at h
    split at h
    · rename_i hi
      unfold Timed.take at h
      split at h
      · rename_i op rest hc hb
        cases h
        exact Step.take _ i hi op rest hc hb
      · cases h
    · cases h
  | start i =>
    simp only [Timed.move] at h
    split at h
    · rename_i hi
      unfold Timed.start at h
      split at h
      · rename_i op hc
        cases h
        exact Step.start _ i hi op hc
      · cases h
    · cases h
  | finish i =>
    simp only [Timed.move] at h
    split at h
    · rename_i hi
      unfold Timed.finish at h
      split at h
      · rename_i op hc
        split at h
        · cases h
          exact Step.finish _ i hi op hc
        · cases h
      · cases h
    · cases h
  | putIn i =>
    simp only [Timed.move] at h
    split at h
    · rename_i hi
      unfold Timed.putIn at h
      split at h
      · rename_i op hc
        split at h
        · rename_i hb
          cases h
          exact Step.putIn _ i hi op hc hb
        · cases h
      · cases h
    · cases h
  | next i =>
    simp only [Timed.move] at h
    split at h
    · rename_i hi
      unfold Timed.next at h
      split at h
      · rename_i op hc
        split at h
        · rename_i hh
          cases h
          exact Step.stop _ i hi op hc hh
        · rename_i hh
          cases h
          exact Step.again _ i hi op hc (by simpa using hh)
      · cases h
    · cases h
  | monitor =>
    simp only [Timed.move, Timed.monitor] at h
    split at h
    · rename_i hm
      cases h
      exact Step.monitor _ hm.1 hm.2
    · cases h
  | signal =>
    simp only [Timed.move, Timed.signal] at h
    split at h
    · rename_i hm
      cases h
      exact Step.signal _ hm.1 hm.2
    · cases h
  | tick => cases h

theorem before_last_append (l : List Nat) (x d : Nat) : before (l ++ [x]) (l ++ [x]).length d = x := by
  rw [List.length_append, List.length_singleton, before_append_self]

theorem tinv_feedIn (hn : 0 < n) {s t : Timed α} (h : TInv hlt n lat prog t0 s) (ht : s.feedIn = some t) :
    TInv hlt n lat prog t0 t := by
  have hi := inv_step hn h.inv (move_step (lat := lat) (a := .feedIn) ht)
  unfold Timed.feedIn at ht
  split at ht
  · cases ht
  · rename_i op rest hf
    split at ht
    · rename_i hb
      have hb0 : s.st.buf 0 = [] := by
        unfold capacity at hb; exact List.length_eq_zero_iff.1 (by omega)
      cases ht
      refine ⟨hi, ?_, h.acc, h.base, ?_, ?_, h.uMon, h.uSig, h.done⟩
      · intro i hi
        have hs := h.stage i hi
        cases i with
        | zero =>
          have hs' := hs
          rw [hb0] at hs'
          dsimp only [Timed.arrivals] at hs' ⊢
          rw [upd_same, upd_ne _ _ _ _ (by omega), hb0]
          exact hs'.arrive
        | succ i =>
          dsimp only [Timed.arrivals] at hs ⊢
          rw [upd_ne _ _ _ _ (by omega), upd_ne _ _ _ _ (by omega)]
          exact hs
      · intro k hk
        dsimp only at hk ⊢
        rw [List.length_append, List.length_singleton] at hk
        by_cases hlt : k < s.fed.length
        · rw [getD_append_lt _ _ _ hlt]; exact h.eqFed k hlt
        · have : k = s.fed.length := by omega
          subst this
          rw [getD_append_self]
          exact h.uFeed (by rw [hf]; simp) hb0
      · intro _ hb'
        dsimp only at hb'
        rw [upd_same] at hb'
        simp at hb'
    · cases ht

theorem tinv_take (hn : 0 < n) {s t : Timed α} (h : TInv hlt n lat prog t0 s) (i : Nat) (hi : i < n)
    (ht : s.take i = some t) : TInv hlt n lat prog t0 t := by
  have hinv := inv_step hn h.inv (move_step (lat := lat) (a := .take i) (t := t)
    (by simpa [Timed.move, hi] using ht))
  unfold Timed.take at ht
  split at ht
  · rename_i op rest hc hb
    have hrest : rest = [] := by
      have := h.inv.cap i; rw [hb] at this
      exact List.length_eq_zero_iff.1 (by simpa using this)
    subst hrest
    cases ht
    refine ⟨hinv, ?_, h.acc, h.base, ?_, ?_, h.uMon, h.uSig, h.done⟩
    · intro j hj
      have hs := h.stage j hj
      by_cases hji : j = i
      · subst hji
        rw [hc, hb] at hs
        dsimp only
        rw [upd_same, upd_same, upd_same, upd_ne _ _ _ _ (by omega), upd_ne _ _ _ _ (by omega)]
        exact hs.take
      · by_cases hj1 : j + 1 = i
        · subst hj1
          have hl : decide (j + 1 = n) = false := by simp; omega
          dsimp only
          rw [upd_ne _ _ _ _ hji, upd_ne _ _ _ _ hji, upd_ne _ _ _ _ hji, upd_same, upd_same, hl]
          rw [hl, hb] at hs
          exact hs.nextTake
        · dsimp only
          rw [upd_ne _ _ _ _ hji, upd_ne _ _ _ _ hji, upd_ne _ _ _ _ hji, upd_ne _ _ _ _ hj1,
            upd_ne _ _ _ _ hj1]
          exact hs
    · intro k hk
      dsimp only at hk ⊢
      by_cases h0 : i = 0
      · subst h0
        have hl := (h.stage 0 hn).bufLen
        rw [hb] at hl
        dsimp only [Timed.arrivals, List.length_singleton] at hl
        rw [upd_same, before_append _ _ _ _ (by omega)]
        exact h.eqFed k hk
      · rw [upd_ne _ _ _ _ (Ne.symm h0)]; exact h.eqFed k hk
    · intro hf hb0
      dsimp only at hf hb0 ⊢
      by_cases h0 : i = 0
      · subst h0
        have hl := (h.stage 0 hn).bufLen
        rw [hb] at hl
        dsimp only [Timed.arrivals, List.length_singleton] at hl
        rw [upd_same, hl, before_append_self]
      · rw [upd_ne _ _ _ _ (Ne.symm h0)] at hb0 ⊢
        exact h.uFeed hf hb0
  · cases ht

theorem tinv_start (hn : 0 < n) {s t : Timed α} (h : TInv hlt n lat prog t0 s) (i : Nat) (hi : i < n)
    (ht : s.start lat i = some t) : TInv hlt n lat prog t0 t := by
  have hinv := inv_step hn h.inv (move_step (lat := lat) (a := .start i) (t := t)
    (by simpa [Timed.move, hi] using ht))
  unfold Timed.start at ht
  split at ht
  · rename_i op hc
    cases ht
    refine ⟨hinv, ?_, ?_, h.base, h.eqFed, h.uFeed, h.uMon, h.uSig, h.done⟩
    · intro j hj
      have hs := h.stage j hj
      by_cases hji : j = i
      · subst hji
        rw [hc] at hs
        dsimp only
        rw [upd_same, upd_same, upd_same, h.acc j hj]
        exact hs.start
      · dsimp only
        rw [upd_ne _ _ _ _ hji, upd_ne _ _ _ _ hji, upd_ne _ _ _ _ hji]
        exact hs
    · intro j hj
      dsimp only
      by_cases hji : j = i
      · subst hji; rw [upd_same, upd_same]; simp [h.acc j hj]
      · rw [upd_ne _ _ _ _ hji, upd_ne _ _ _ _ hji]; exact h.acc j hj
  · cases ht

/-- A stage whose event may fire. -/
theorem due_cases {s : Timed α} {i : Nat} (h : s.due i = true) :
    s.deadline i = none ∨ s.deadline i = some s.now := by
  unfold Timed.due at h
  split at h
  · left; assumption
  · rename_i d hd
    right
    rw [hd, of_decide_eq_true h]

theorem tinv_finish (hn : 0 < n) {s t : Timed α} (h : TInv hlt n lat prog t0 s) (i : Nat) (hi : i < n)
    (ht : s.finish n i = some t) : TInv hlt n lat prog t0 t := by
  have hinv := inv_step hn h.inv (move_step (lat := lat) (a := .finish i) (t := t)
    (by simpa [Timed.move, hi] using ht))
  unfold Timed.finish at ht
  split at ht
  · rename_i op hc
    split at ht
    · rename_i hd
      have hd' := due_cases hd
      have hnc : s.st.completed i = false := by
        cases hcc : s.st.completed i with
        | false => rfl
        | true => rw [(h.inv.comp i hi).1 hcc] at hc; cases hc
      by_cases hin : i + 1 = n
      · simp only [hin, if_true] at ht
        cases ht
        have hin' : n - 1 = i := by omega
        refine ⟨by simpa [hin] using hinv, ?_, h.acc, h.base, h.eqFed, h.uFeed, ?_, ?_, ?_⟩
        · intro j hj
          have hs := h.stage j hj
          by_cases hji : j = i
          · subst hji
            rw [hc] at hs
            have ha : Timed.arrivals { s with
                st := { s.st with ctl := upd s.st.ctl j (.after op) }
                finishes := upd s.finishes j (s.finishes j ++ [s.now])
                leaves := upd s.leaves j (s.leaves j ++ [s.now]) } j = s.arrivals j := by
              cases j with
              | zero => rfl
              | succ j => dsimp only [Timed.arrivals]; rw [upd_ne _ _ _ _ (by omega)]
            rw [ha]
            dsimp only
            rw [upd_same, upd_same, upd_same]
            have hl : decide (j + 1 = n) = true := by simp [hin]
            rw [hl] at hs ⊢
            exact hs.finish_last hd'
          · have ha : Timed.arrivals { s with
                st := { s.st with ctl := upd s.st.ctl i (.after op) }
                finishes := upd s.finishes i (s.finishes i ++ [s.now])
                leaves := upd s.leaves i (s.leaves i ++ [s.now]) } j = s.arrivals j := by
              cases j with
              | zero => rfl
              | succ j => dsimp only [Timed.arrivals]; rw [upd_ne _ _ _ _ (by omega)]
            rw [ha]
            dsimp only
            rw [upd_ne _ _ _ _ hji, upd_ne _ _ _ _ hji, upd_ne _ _ _ _ hji]
            exact hs
        · intro hm hco
          dsimp only at hm hco ⊢
          have : s.st.monitor ≠ i := by
            intro he; rw [he, hnc] at hco; cases hco
          rw [upd_ne _ _ _ _ this]; exact h.uMon hm hco
        · intro hm _
          dsimp only at hm
          have := h.inv.mon.2 i (by omega)
          rw [hnc] at this; cases this
        · intro hdn
          dsimp only at hdn
          have := h.inv.mon.2 i (by rw [h.inv.fin hdn]; exact hi)
          rw [hnc] at this; cases this
      · simp only [hin, if_false] at ht
        cases ht
        refine ⟨by simpa [hin] using hinv, ?_, h.acc, h.base, h.eqFed, h.uFeed, h.uMon, h.uSig, h.done⟩
        intro j hj
        have hs := h.stage j hj
        by_cases hji : j = i
        · subst hji
          rw [hc] at hs
          have hl : decide (j + 1 = n) = false := by simp [hin]
          rw [hl] at hs ⊢
          dsimp only
          rw [upd_same, upd_same]
          exact hs.finish_put hd'
        · dsimp only
          rw [upd_ne _ _ _ _ hji, upd_ne _ _ _ _ hji]
          exact hs
    · cases ht
  · cases ht

theorem tinv_putIn (hn : 0 < n) {s t : Timed α} (h : TInv hlt n lat prog t0 s) (i : Nat) (hi : i < n)
    (ht : s.putIn i = some t) : TInv hlt n lat prog t0 t := by
  have hinv := inv_step hn h.inv (move_step (lat := lat) (a := .putIn i) (t := t)
    (by simpa [Timed.move, hi] using ht))
  unfold Timed.putIn at ht
  split at ht
  · rename_i op hc
    split at ht
    · rename_i hb
      have hb0 : s.st.buf (i + 1) = [] := by
        unfold capacity at hb; exact List.length_eq_zero_iff.1 (by omega)
      have hin : i + 1 < n := h.inv.last i op hc
      have hnc : s.st.completed i = false := by
        cases hcc : s.st.completed i with
        | false => rfl
        | true => rw [(h.inv.comp i hi).1 hcc] at hc; cases hc
      cases ht
      refine ⟨hinv, ?_, h.acc, h.base, h.eqFed, ?_, ?_, ?_, ?_⟩
      · intro j hj
        have hs := h.stage j hj
        by_cases hji : j = i
        · subst hji
          have ha : Timed.arrivals { s with
              st := { s.st with
                buf := upd s.st.buf (j + 1) (s.st.buf (j + 1) ++ [op])
                ctl := upd s.st.ctl j (.after op) }
              leaves := upd s.leaves j (s.leaves j ++ [s.now]) } j = s.arrivals j := by
            cases j with
            | zero => rfl
            | succ j => dsimp only [Timed.arrivals]; rw [upd_ne _ _ _ _ (by omega)]
          rw [ha]
          dsimp only
          rw [upd_same, upd_same, upd_same, upd_ne _ _ _ _ (by omega), hb0]
          have hl : decide (j + 1 = n) = false := by simp; omega
          rw [hl, hc, hb0] at hs
          rw [hl]
          exact hs.putIn
        · by_cases hj1 : j = i + 1
          · subst hj1
            dsimp only [Timed.arrivals] at hs ⊢
            rw [upd_same, upd_same, upd_ne _ _ _ _ (by omega), upd_ne _ _ _ _ (by omega),
              upd_ne _ _ _ _ (by omega), hb0]
            rw [hb0] at hs
            exact hs.arrive
          · have ha : Timed.arrivals { s with
                st := { s.st with
                  buf := upd s.st.buf (i + 1) (s.st.buf (i + 1) ++ [op])
                  ctl := upd s.st.ctl i (.after op) }
                leaves := upd s.leaves i (s.leaves i ++ [s.now]) } j = s.arrivals j := by
              cases j with
              | zero => rfl
              | succ j => dsimp only [Timed.arrivals]; rw [upd_ne _ _ _ _ (by omega)]
            rw [ha]
            dsimp only
            rw [upd_ne _ _ _ _ hji, upd_ne _ _ _ _ hji, upd_ne _ _ _ _ hj1, upd_ne _ _ _ _ (by omega)]
            exact hs
      · intro hf hb'
        dsimp only at hf hb' ⊢
        rw [upd_ne _ _ _ _ (by omega)] at hb'
        exact h.uFeed hf hb'
      · intro hm hco
        dsimp only at hm hco ⊢
        have : s.st.monitor ≠ i := by
          intro he; rw [he, hnc] at hco; cases hco
        rw [upd_ne _ _ _ _ this]; exact h.uMon hm hco
      · intro hm hdn
        dsimp only at hm hdn ⊢
        rw [upd_ne _ _ _ _ (by omega)]; exact h.uSig hm hdn
      · intro hdn
        dsimp only at hdn ⊢
        rw [upd_ne _ _ _ _ (by omega)]; exact h.done hdn
    · cases ht
  · cases ht

theorem tinv_next (hn : 0 < n) {s t : Timed α} (h : TInv hlt n lat prog t0 s) (i : Nat) (hi : i < n)
    (ht : s.next hlt i = some t) : TInv hlt n lat prog t0 t := by
  have hinv := inv_step hn h.inv (move_step (lat := lat) (a := .next i) (t := t)
    (by simpa [Timed.move, hi] using ht))
  unfold Timed.next at ht
  split at ht
  · rename_i op hc
    split at ht
    · rename_i hh
      cases ht
      refine ⟨hinv, ?_, h.acc, h.base, h.eqFed, h.uFeed, ?_, h.uSig, h.done⟩
      · intro j hj
        have hs := h.stage j hj
        by_cases hji : j = i
        · subst hji
          rw [hc] at hs
          dsimp only
          rw [upd_same]
          exact hs.next (Or.inr rfl)
        · dsimp only
          rw [upd_ne _ _ _ _ hji]
          exact hs
      · intro hm hco
        dsimp only at hm hco ⊢
        by_cases hmi : s.st.monitor = i
        · rw [hmi]
          exact ((h.stage i hi).uAfter op hc).2
        · rw [upd_ne _ _ _ _ hmi] at hco
          exact h.uMon hm hco
    · cases ht
      refine ⟨hinv, ?_, h.acc, h.base, h.eqFed, h.uFeed, h.uMon, h.uSig, h.done⟩
      intro j hj
      have hs := h.stage j hj
      by_cases hji : j = i
      · subst hji
        rw [hc] at hs
        dsimp only
        rw [upd_same]
        exact hs.next (Or.inl rfl)
      · dsimp only
        rw [upd_ne _ _ _ _ hji]
        exact hs
  · cases ht

theorem tinv_monitor (hn : 0 < n) {s t : Timed α} (h : TInv hlt n lat prog t0 s)
    (ht : s.monitor n = some t) : TInv hlt n lat prog t0 t := by
  have hinv := inv_step hn h.inv (move_step (lat := lat) (a := .monitor) ht)
  unfold Timed.monitor at ht
  split at ht
  · rename_i hm
    cases ht
    have e := h.uMon hm.1 hm.2
    refine ⟨hinv, h.stage, h.acc, h.base, h.eqFed, h.uFeed, ?_, ?_, ?_⟩
    · intro hm' hco
      dsimp only at hm' hco ⊢
      have h1 := (h.inv.comp _ hm.1).1 hm.2
      have h2 := (h.inv.comp _ hm').1 hco
      have := h.leave_mono _ hm' h1 h2
      have := before_le _ _ (h.stage _ hm').lvLe (s.leaves (s.st.monitor + 1)).length
      omega
    · intro hm' _
      dsimp only at hm' ⊢
      rw [e, ← hm']
      rfl
    · intro hdn
      dsimp only at hdn
      have := h.inv.fin hdn
      omega
  · cases ht

theorem tinv_signal (hn : 0 < n) {s t : Timed α} (h : TInv hlt n lat prog t0 s)
    (ht : s.signal n = some t) : TInv hlt n lat prog t0 t := by
  have hinv := inv_step hn h.inv (move_step (lat := lat) (a := .signal) ht)
  unfold Timed.signal at ht
  split at ht
  · rename_i hm
    cases ht
    refine ⟨hinv, h.stage, h.acc, h.base, h.eqFed, h.uFeed, h.uMon, ?_, ?_⟩
    · intro _ hdn; cases hdn
    · intro _
      dsimp only
      rw [← h.uSig hm.1 hm.2]
  · cases ht

theorem tinv_tick {s : Timed α} (h : TInv hlt n lat prog t0 s)
    (hq : s.quiet hlt n lat = true) : TInv hlt n lat prog t0 { s with now := s.now + 1 } := by
  unfold Timed.quiet at hq
  simp only [Bool.and_eq_true, List.all_eq_true, List.mem_range, Option.isNone_iff_eq_none] at hq
  obtain ⟨⟨⟨hf, hm⟩, hsg⟩, hst⟩ := hq
  refine ⟨h.inv, ?_, h.acc, Nat.le_succ_of_le h.base, h.eqFed, ?_, ?_, ?_, h.done⟩
  · intro i hi
    have hqi := hst i hi
    unfold Timed.stageQuiet at hqi
    simp only [Bool.and_eq_true, Bool.or_eq_true, Option.isNone_iff_eq_none] at hqi
    obtain ⟨⟨⟨⟨q1, q2⟩, q3⟩, q4⟩, q5⟩ := hqi
    refine (h.stage i hi).tick ?_ ?_ ?_ ?_ ?_
    · intro hc
      cases hb : s.st.buf i with
      | nil => rfl
      | cons x xs => simp [Timed.take, hc, hb] at q1
    · intro op hc; simp [Timed.start, hc] at q2
    · intro op hc hd
      rcases q3 with q3 | q3
      · simp [Timed.finish, hc, Timed.due, hd] at q3
      · rw [hd] at q3; cases q3
    · intro op hc hb
      simp [Timed.putIn, hc, hb, capacity] at q4
    · intro op hc
      simp only [Timed.next, hc] at q5
      split at q5 <;> cases q5
  · intro hfe hb
    dsimp only at hfe hb
    unfold Timed.feedIn at hf
    split at hf
    · rename_i h0; exact absurd h0 hfe
    · rw [hb] at hf; simp [capacity] at hf
  · intro hm' hco
    simp [Timed.monitor] at hm
    have := hm hm'
    dsimp only at hco
    rw [this] at hco; cases hco
  · intro hm' hdn
    simp [Timed.signal] at hsg
    have := hsg hm'
    dsimp only at hdn
    rw [this] at hdn; cases hdn

theorem tinv_act (hn : 0 < n) {s t : Timed α} (h : TInv hlt n lat prog t0 s) (a : PAct)
    (ht : s.act hlt n lat a = some t) : TInv hlt n lat prog t0 t := by
  cases a with
  | feedIn => exact tinv_feedIn hn h ht
  | take i =>
    simp only [Timed.act, Timed.move] at ht
    split at ht
    · exact tinv_take hn h i (by assumption) ht
    · cases ht
  | start i =>
    simp only [Timed.act, Timed.move] at ht
    split at ht
    · exact tinv_start hn h i (by assumption) ht
    · cases ht
  | finish i =>
    simp only [Timed.act, Timed.move] at ht
    split at ht
    · exact tinv_finish hn h i (by assumption) ht
    · cases ht
  | putIn i =>
    simp only [Timed.act, Timed.move] at ht
    split at ht
    · exact tinv_putIn hn h i (by assumption) ht
    · cases ht
  | next i =>
    simp only [Timed.act, Timed.move] at ht
    split at ht
    · exact tinv_next hn h i (by assumption) ht
    · cases ht
  | monitor => exact tinv_monitor hn h ht
  | signal => exact tinv_signal hn h ht
  | tick =>
    simp only [Timed.act] at ht
    split at ht
    · cases ht
      exact tinv_tick h (by assumption)
    · cases ht

theorem tinv_run (hn : 0 < n) (acts : List PAct) {s t : Timed α} (h : TInv hlt n lat prog t0 s)
    (ht : s.run hlt n lat acts = some t) : TInv hlt n lat prog t0 t := by
  induction acts generalizing s with
  | nil => cases ht; exact h
  | cons a as ih =>
    simp only [Timed.run, Option.bind_eq_some_iff] at ht
    obtain ⟨u, hu, ht⟩ := ht
    exact ih (tinv_act hn h a hu) ht

theorem run_reach (acts : List PAct) {s t : Timed α} (hs : Reach hlt n prog s.st)
    (ht : s.run hlt n lat acts = some t) : Reach hlt n prog t.st := by
  induction acts generalizing s with
  | nil => cases ht; exact hs
  | cons a as ih =>
    simp only [Timed.run, Option.bind_eq_some_iff] at ht
    obtain ⟨u, hu, ht⟩ := ht
    refine ih ?_ ht
    cases a with
    | tick =>
      simp only [Timed.act] at hu
      split at hu
      · cases hu; exact hs
      · cases hu
    | feedIn => exact Reach.step hs (move_step (lat := lat) (a := .feedIn) hu)
    | take i => exact Reach.step hs (move_step (lat := lat) (a := .take i) hu)
    | start i => exact Reach.step hs (move_step (lat := lat) (a := .start i) hu)
    | finish i => exact Reach.step hs (move_step (lat := lat) (a := .finish i) hu)
    | putIn i => exact Reach.step hs (move_step (lat := lat) (a := .putIn i) hu)
    | next i => exact Reach.step hs (move_step (lat := lat) (a := .next i) hu)
    | monitor => exact Reach.step hs (move_step (lat := lat) (a := .monitor) hu)
    | signal => exact Reach.step hs (move_step (lat := lat) (a := .signal) hu)

/-- How far the histories reach. -/
theorem TInv.take_lens {s : Timed α} (h : TInv hlt n lat prog t0 s) {i k : Nat} (hi : i < n)
    (hk : k < (s.takes i).length) : k < (s.arrivals i).length ∧ k ≤ (s.leaves i).length := by
  have o := h.stage i hi
  have e1 := o.bufLen
  have e2 := o.tkLen
  have : (s.st.ctl i).dTake ≤ 1 := by cases s.st.ctl i <;> simp [Ctl.dTake]
  omega

theorem TInv.leave_lens {s : Timed α} (h : TInv hlt n lat prog t0 s) {i k : Nat} (hi : i < n)
    (hk : k < (s.leaves i).length) :
    k < (s.takes i).length ∧ k < (s.starts i).length ∧ k < (s.finishes i).length ∧
      (i + 1 < n → k ≤ (s.takes (i + 1)).length) := by
  have o := h.stage i hi
  have e1 := o.tkLen
  have e2 := o.stLen
  have e3 := o.fiLen
  refine ⟨by omega, by omega, by omega, fun hi' => ?_⟩
  have e4 := o.nextLen (by simp; omega)
  have := h.inv.cap (i + 1)
  omega

theorem TInv.fed_lens {s : Timed α} (h : TInv hlt n lat prog t0 s) {k : Nat} (hn : 0 < n)
    (hk : k < s.fed.length) : k ≤ (s.takes 0).length := by
  have e4 := (h.stage 0 hn).bufLen
  have := h.inv.cap 0
  dsimp only [Timed.arrivals] at e4
  omega

/-- The times of two runs agree. -/
theorem TInv.agree {s t : Timed α} (hn : 0 < n) (hlat : ∀ i, i < n → ∀ k, lat i k ≠ none)
    (hs : TInv hlt n lat prog t0 s) (ht : TInv hlt n lat prog t0 t) (k : Nat) :
    ∀ i, i < n →
      (k < (s.takes i).length → k < (t.takes i).length → (s.takes i).getD k 0 = (t.takes i).getD k 0) ∧
      (k < (s.leaves i).length → k < (t.leaves i).length → (s.leaves i).getD k 0 = (t.leaves i).getD k 0) := by
  induction k using Nat.strong_induction_on with
  | _ k ihk =>
    have hbl : ∀ i, i < n → k ≤ (s.leaves i).length → k ≤ (t.leaves i).length →
        before (s.leaves i) k 0 = before (t.leaves i) k 0 := by
      intro i hi h1 h2
      unfold before
      split
      · rfl
      · exact (ihk (k - 1) (by omega) i hi).2 (by omega) (by omega)
    have hbt : ∀ i d, i < n → k ≤ (s.takes i).length → k ≤ (t.takes i).length →
        before (s.takes i) k d = before (t.takes i) k d := by
      intro i d hi h1 h2
      unfold before
      split
      · rfl
      · exact (ihk (k - 1) (by omega) i hi).1 (by omega) (by omega)
    intro i
    induction i with
    | zero =>
      intro hi
      have htake : k < (s.takes 0).length → k < (t.takes 0).length →
          (s.takes 0).getD k 0 = (t.takes 0).getD k 0 := by
        intro h1 h2
        have l1 := hs.take_lens hi h1
        have l2 := ht.take_lens hi h2
        rw [(hs.stage 0 hi).eqTake k h1, (ht.stage 0 hi).eqTake k h2, hbl 0 hi l1.2 l2.2]
        dsimp only [Timed.arrivals] at l1 l2 ⊢
        rw [hs.eqFed k l1.1, ht.eqFed k l2.1,
          hbt 0 t0 hi (hs.fed_lens hn l1.1) (ht.fed_lens hn l2.1)]
      refine ⟨htake, fun h1 h2 => ?_⟩
      obtain ⟨a1, a2, a3, a4⟩ := hs.leave_lens hi h1
      obtain ⟨b1, b2, b3, b4⟩ := ht.leave_lens hi h2
      obtain ⟨l, hl⟩ := Option.ne_none_iff_exists'.1 (hlat 0 hi k)
      rw [(hs.stage 0 hi).eqLeave k h1, (ht.stage 0 hi).eqLeave k h2,
        (hs.stage 0 hi).fixed k a3 l hl, (ht.stage 0 hi).fixed k b3 l hl,
        (hs.stage 0 hi).eqStart k a2, (ht.stage 0 hi).eqStart k b2, htake a1 b1]
      split
      · rfl
      · rename_i hlast
        have hi' : 0 + 1 < n := by
          have : ¬ (0 + 1 = n) := by simpa using hlast
          omega
        rw [hbt (0 + 1) 0 hi' (a4 hi') (b4 hi')]
    | succ i ih =>
      intro hi
      have htake : k < (s.takes (i + 1)).length → k < (t.takes (i + 1)).length →
          (s.takes (i + 1)).getD k 0 = (t.takes (i + 1)).getD k 0 := by
        intro h1 h2
        have l1 := hs.take_lens hi h1
        have l2 := ht.take_lens hi h2
        rw [(hs.stage (i + 1) hi).eqTake k h1, (ht.stage (i + 1) hi).eqTake k h2, hbl (i + 1) hi l1.2 l2.2]
        dsimp only [Timed.arrivals] at l1 l2 ⊢
        rw [(ih (by omega)).2 l1.1 l2.1]
      refine ⟨htake, fun h1 h2 => ?_⟩
      obtain ⟨a1, a2, a3, a4⟩ := hs.leave_lens hi h1
      obtain ⟨b1, b2, b3, b4⟩ := ht.leave_lens hi h2
      obtain ⟨l, hl⟩ := Option.ne_none_iff_exists'.1 (hlat (i + 1) hi k)
      rw [(hs.stage (i + 1) hi).eqLeave k h1, (ht.stage (i + 1) hi).eqLeave k h2,
        (hs.stage (i + 1) hi).fixed k a3 l hl, (ht.stage (i + 1) hi).fixed k b3 l hl,
        (hs.stage (i + 1) hi).eqStart k a2, (ht.stage (i + 1) hi).eqStart k b2, htake a1 b1]
      split
      · rfl
      · rename_i hlast
        have hi' : i + 1 + 1 < n := by
          have : ¬ (i + 1 + 1 = n) := by simpa using hlast
          omega
        rw [hbt (i + 1 + 1) 0 hi' (a4 hi') (b4 hi')]

/-- When `done_event` has been triggered, every stage has handled `m` operations. -/
theorem TInv.done_len {s : Timed α} (h : TInv hlt n lat prog t0 s) (hd : s.st.done = true)
    {pre : List α} {op : α} {post : List α} (hp : prog = pre ++ op :: post) (hop : hlt op = true)
    (hpre : ∀ x ∈ pre, hlt x = false) (i : Nat) (hi : i < n) : (s.leaves i).length = pre.length + 1 := by
  have hst : s.st.ctl i = .stopped :=
    (h.inv.comp i hi).1 (h.inv.mon.2 i (by rw [h.inv.fin hd]; exact hi))
  obtain ⟨pre', op', e1, e2, e3⟩ := h.inv.stop i hi hst
  have hq := h.inv.prefix_prog hi
  rw [hp, e1] at hq
  have e4 : pre' = pre := by
    obtain ⟨r, hr⟩ := hq
    rw [List.append_assoc] at hr
    rcases List.append_eq_append_iff.1 hr with ⟨a, ha, hb⟩ | ⟨a, ha, hb⟩
    · cases a with
      | nil => simpa using ha.symm
      | cons x xs =>
        simp only [List.cons_append, List.nil_append, List.cons.injEq] at hb
        have := hpre op' (by rw [ha, hb.1]; simp)
        rw [e2] at this; cases this
    · cases a with
      | nil => simpa using ha
      | cons x xs =>
        simp only [List.cons_append, List.cons.injEq] at hb
        have := e3 op (by rw [ha, hb.1]; simp)
        rw [hop] at this; cases this
  have l1 := congrArg List.length e1
  rw [h.acc i hi, (h.stage i hi).stLen, hst, e4] at l1
  simpa [Ctl.dStart] using l1

/-- Three stages, the first two with fixed times `F` and `D`: bounds on when the third takes the `k`-th
operation, given that it is busy for `e k` with it. -/
theorem three_stages (F D t0 m : Nat) (e fd T0 L0 T1 L1 T2 L2 : Nat → Nat)
    (hfd0 : fd 0 = t0) (hfd : ∀ k, k + 1 < m → fd (k + 1) = T0 k)
    (hT00 : T0 0 = fd 0) (hT0 : ∀ k, k + 1 < m → T0 (k + 1) = max (fd (k + 1)) (L0 k))
    (hL00 : L0 0 = T0 0 + F) (hL0 : ∀ k, k + 1 < m → L0 (k + 1) = max (T0 (k + 1) + F) (T1 k))
    (hT10 : T1 0 = L0 0) (hT1 : ∀ k, k + 1 < m → T1 (k + 1) = max (L0 (k + 1)) (L1 k))
    (hL10 : L1 0 = T1 0 + D) (hL1 : ∀ k, k + 1 < m → L1 (k + 1) = max (T1 (k + 1) + D) (T2 k))
    (hT20 : T2 0 = L1 0) (hT2 : ∀ k, k + 1 < m → T2 (k + 1) = max (L1 (k + 1)) (L2 k))
    (hL2 : ∀ k, k < m → L2 k = T2 k + e k) :
    ∀ k, k < m → t0 + F + D + total e k ≤ T2 k ∧
      T2 k ≤ t0 + F + D + total (fun j => max (e j) (max F D)) k := by
  have key : ∀ k, k < m → t0 + F + D + total e k ≤ T2 k ∧
      T2 k ≤ t0 + F + D + total (fun j => max (e j) (max F D)) k ∧
      L1 k ≤ t0 + F + D + total (fun j => max (e j) (max F D)) k ∧
      T1 k + D ≤ t0 + F + D + total (fun j => max (e j) (max F D)) k ∧
      L0 k + D ≤ t0 + F + D + total (fun j => max (e j) (max F D)) k ∧ T0 k ≤ L0 k := by
    intro k
    induction k with
    | zero => intro _; simp only [total]; omega
    | succ k ih =>
      intro hk
      have i := ih (by omega)
      have a1 := hfd k hk
      have a2 := hT0 k hk
      have a3 := hL0 k hk
      have a4 := hT1 k hk
      have a5 := hL1 k hk
      have a6 := hT2 k hk
      have a7 := hL2 k (by omega)
      simp only [total]
      omega
  intro k hk
  exact ⟨(key k hk).1, (key k hk).2.1⟩

theorem total_mono (f g : Nat → Nat) (m : Nat) (h : ∀ j, j < m → f j = g j) : total f m = total g m := by
  induction m with
  | zero => rfl
  | succ m ih =>
    simp only [total]
    rw [ih (fun j hj => h j (by omega)), h m (by omega)]

/-- The only step that is possible while the clock may advance is the end of an operation, at a time that
the pipeline does not decide about. -/
theorem quiet_step {s : Timed α} (hq : s.quiet hlt n lat = true) {t : State α} (h : Step hlt n s.st t) :
    ∃ i, i < n ∧ (∃ op, s.st.ctl i = .busy op) ∧ ∀ d, s.deadline i = some d → d ≠ s.now := by
  unfold Timed.quiet at hq
  simp only [Bool.and_eq_true, List.all_eq_true, List.mem_range, Option.isNone_iff_eq_none] at hq
  obtain ⟨⟨⟨hf, hm⟩, hsg⟩, hst⟩ := hq
  have hst' : ∀ i, i < n → s.take i = none ∧ s.start lat i = none ∧
      (s.finish n i = none ∨ s.deadline i = none) ∧ s.putIn i = none ∧ s.next hlt i = none := by
    intro i hi
    have hqi := hst i hi
    unfold Timed.stageQuiet at hqi
    simp only [Bool.and_eq_true, Bool.or_eq_true, Option.isNone_iff_eq_none] at hqi
    obtain ⟨⟨⟨⟨q1, q2⟩, q3⟩, q4⟩, q5⟩ := hqi
    exact ⟨q1, q2, q3, q4, q5⟩
  cases h with
  | feedIn op rest h1 h2 => simp [Timed.feedIn, h1, h2] at hf
  | take i hi op rest h1 h2 => have := (hst' i hi).1; simp [Timed.take, h1, h2] at this
  | start i hi op h1 => have := (hst' i hi).2.1; simp [Timed.start, h1] at this
  | finish i hi op h1 =>
    refine ⟨i, hi, ⟨op, h1⟩, ?_⟩
    rintro d hd rfl
    rcases (hst' i hi).2.2.1 with h | h
    · simp [Timed.finish, h1, Timed.due, hd] at h
    · rw [hd] at h; cases h
  | putIn i hi op h1 h2 => have := (hst' i hi).2.2.2.1; simp [Timed.putIn, h1, h2] at this
  | again i hi op h1 h2 => have := (hst' i hi).2.2.2.2; simp [Timed.next, h1, h2] at this
  | stop i hi op h1 h2 => have := (hst' i hi).2.2.2.2; simp [Timed.next, h1, h2] at this
  | monitor h1 h2 => simp [Timed.monitor, h1, h2] at hm
  | signal h1 h2 => simp [Timed.signal, h1, h2] at hsg

end Ramwich.Pipeline
