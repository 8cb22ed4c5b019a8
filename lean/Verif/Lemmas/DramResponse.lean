import Verif.Lemmas.DramTimes

/-! # How long a request to a DRAM controller takes -/
namespace Ramwich

open Spec

/-- The request does not have to wait for data. -/
def Okay (valid : List Bool) (r : Req) : Prop := r.isWrite = true ∨ ready valid r = true

theorem okay_of_servable (valid : List Bool) (r : Req) (h : Servable valid r) : Okay valid r := by
  rcases h with h | ⟨h1, h2, h3⟩
  · exact Or.inl h
  · right
    unfold ready
    rw [pySlice_mem_valid valid _ _ h1.1 h1.2 h2]
    intro a ha1 ha2
    exact h3 a ⟨ha1, ha2⟩

theorem okay_step (lat : Int) (m0 : Memory) (v0 : List Bool) (c c' : Ctrl) (hm : CtrlMem m0 v0 c) {act : CtrlAct}
    (st : CtrlStep lat c act c') (r : Req) (h : Okay c.valid r) : Okay c'.valid r := by
  cases st with
  | write x rest mem data rows h1 h2 h3 h4 =>
    rcases h with h | h
    · exact Or.inl h
    right
    obtain ⟨hs0, hs1, -, -⟩ := mem_write_inv h4
    have hb' : x.start.toNat + data.length ≤ c.valid.length := by
      have := hm.vlen; have := hm.size; omega
    refine ready_mono c.valid _ r ?_ ?_ h
    · rw [pySliceSet_length _ _ _ (by rw [List.length_replicate]; exact hb')]
    · intro a ha; exact valid_mono _ _ _ hb' a ha
  | _ => exact h

theorem workload_append (lat : Int) (a b : List Req) : workload lat (a ++ b) = workload lat a + workload lat b := by
  simp [workload]

theorem workload_cons (lat : Int) (r : Req) (b : List Req) :
    workload lat (r :: b) = serviceTime lat r + workload lat b := by
  simp [workload]

/-- When the server starts with the head of the line. -/
def Ctrl.base (c : Ctrl) : Nat :=
  match c.deadline with
  | none => c.now
  | some _ => max (lastTime c.answers) ((c.bus.head?.map Req.submitTime).getD 0)

theorem base_clearAt (lat : Int) (t0 : Nat) (c : Ctrl) (ht : CtrlTime lat t0 c) (h : CtrlBusy lat c) :
    c.clearAt lat = c.base + workload lat c.line := by
  unfold Ctrl.clearAt Ctrl.base
  cases hd : c.deadline with
  | none => rfl
  | some d =>
    obtain ⟨r, rest, hb, -⟩ := ht.serving d hd
    have := h.serving r rest d hb hd
    simp only [Ctrl.ahead, Ctrl.line, hb, List.cons_append, List.tail_cons, workload_cons, List.head?_cons,
      Option.map_some, Option.getD_some]
    omega

theorem now_le (lat : Int) (t0 : Nat) (c : Ctrl) (ht : CtrlTime lat t0 c) (h : CtrlBusy lat c) (r : Req)
    (pre post : List Req) (hl : c.line = pre ++ r :: post) :
    c.now ≤ c.base + workload lat (pre ++ [r]) := by
  unfold Ctrl.base
  cases hd : c.deadline with
  | none => simp
  | some d =>
    obtain ⟨x, rest, hb, hnow, -⟩ := ht.serving d hd
    have hs := h.serving x rest d hb hd
    have hx : serviceTime lat x ≤ workload lat (pre ++ [r]) := by
      have : c.line = x :: (rest ++ c.handed.toList ++ c.queue) := by simp [Ctrl.line, hb]
      rw [this] at hl
      cases pre with
      | nil =>
        injection hl with h1 h2
        subst h1; simp [workload]
      | cons y ys =>
        injection hl with h1 h2
        subst h1
        simp [workload]
    simp only [hb, List.head?_cons, Option.map_some, Option.getD_some]
    omega

theorem append_cons_split {α : Type} {A B pre post : List α} {x r : α} (hne : x ≠ r)
    (h : A ++ x :: B = pre ++ r :: post) :
    (∃ m, pre = A ++ x :: m ∧ B = m ++ r :: post) ∨ (∃ m, A = pre ++ r :: m ∧ post = m ++ x :: B) := by
  rcases List.append_eq_append_iff.1 h with ⟨m, h1, h2⟩ | ⟨m, h1, h2⟩
  · cases m with
    | nil =>
      simp only [List.nil_append, List.cons.injEq] at h2
      exact absurd h2.1 hne
    | cons y m =>
      simp only [List.cons_append, List.cons.injEq] at h2
      obtain ⟨rfl, h2⟩ := h2
      exact Or.inl ⟨m, h1, h2⟩
  · cases m with
    | nil =>
      simp only [List.nil_append, List.cons.injEq] at h2
      exact absurd h2.1.symm hne
    | cons y m =>
      simp only [List.cons_append, List.cons.injEq] at h2
      obtain ⟨rfl, h2⟩ := h2
      exact Or.inr ⟨m, h1, h2⟩

/-- Request `r` will be answered by time `b` (at time `b`, if `E`). -/
def Due (lat : Int) (r : Req) (b : Nat) (E : Prop) (c : Ctrl) : Prop :=
  (∃ a ∈ c.answers, a.req = r ∧ a.time ≤ b ∧ (E → a.time = b)) ∨
  (Okay c.valid r ∧ ∃ pre post, c.line = pre ++ r :: post ∧ c.base + workload lat (pre ++ [r]) ≤ b ∧
    (E → c.base + workload lat (pre ++ [r]) = b ∧ ∀ x ∈ pre, Okay c.valid x))

/-- What remains to be shown when the line only grows at the end. -/
theorem due_same (lat : Int) (r : Req) (b : Nat) (E : Prop) (c c' : Ctrl) (new : List Req)
    (ho : ∀ x, Okay c.valid x → Okay c'.valid x)
    (h1 : c'.answers = c.answers) (h2 : c'.line = c.line ++ new) (h3 : r ∈ c.line → c'.base = c.base)
    (h : Due lat r b E c) : Due lat r b E c' := by
  rcases h with h | ⟨hok, pre, post, hl, hb, he⟩
  · exact Or.inl (by rw [h1]; exact h)
  · refine Or.inr ⟨ho r hok, pre, post ++ new, ?_, ?_, ?_⟩
    · rw [h2, hl]; simp
    · rw [h3 (by simp [hl])]; exact hb
    · intro e
      rw [h3 (by simp [hl])]
      exact ⟨(he e).1, fun x hx => ho x ((he e).2 x hx)⟩

theorem due_answer (lat : Int) (r : Req) (b : Nat) (E : Prop) (c c' : Ctrl)
    (h : Due lat r b E c) (hbusy : CtrlBusy lat c) (ho : ∀ x, Okay c.valid x → Okay c'.valid x)
    (a : Answer) (rest new : List Req) (h1 : c.bus = a.req :: rest)
    (h2 : c.deadline = some c.now) (ha : a.time = c.now)
    (e1 : c'.now = c.now) (e2 : c'.answers = c.answers ++ [a]) (e3 : c'.deadline = none)
    (e4 : c'.bus = rest) (e5 : c'.handed = c.handed) (e6 : c'.queue = c.queue ++ new) : Due lat r b E c' := by
  have hs := hbusy.serving _ _ _ h1 h2
  have hbase : c.base + serviceTime lat a.req = c.now := by
    unfold Ctrl.base
    simp only [h2, h1, List.head?_cons, Option.map_some, Option.getD_some]
    exact hs.symm
  have hbase' : c'.base = c.now := by unfold Ctrl.base; rw [e3, ← e1]
  rcases h with ⟨x, hx, hx'⟩ | ⟨hok, pre, post, hl, hb, he⟩
  · exact Or.inl ⟨x, by rw [e2]; simp [hx], hx'⟩
  · have hline : c.line = a.req :: (rest ++ c.handed.toList ++ c.queue) := by simp [Ctrl.line, h1]
    have hline' : c'.line = rest ++ c.handed.toList ++ c.queue ++ new := by simp [Ctrl.line, e4, e5, e6]
    rw [hl] at hline
    cases pre with
    | nil =>
      simp only [List.nil_append, List.cons.injEq] at hline
      obtain ⟨rfl, hline⟩ := hline
      left
      simp only [List.nil_append] at hb he
      refine ⟨a, by rw [e2]; simp, rfl, ?_, ?_⟩
      · have : workload lat [a.req] = serviceTime lat a.req := by simp [workload]
        omega
      · intro e
        have : workload lat [a.req] = serviceTime lat a.req := by simp [workload]
        have := (he e).1
        omega
    | cons y ys =>
      simp only [List.cons_append, List.cons.injEq] at hline
      obtain ⟨rfl, hline⟩ := hline
      right
      simp only [List.cons_append, workload_cons] at hb he
      refine ⟨ho r hok, ys, post ++ new, by rw [hline', ← hline]; simp, by rw [hbase']; omega, ?_⟩
      intro e
      refine ⟨by have := (he e).1; rw [hbase']; omega, ?_⟩
      intro x hx
      exact ho x ((he e).2 x (by simp [hx]))

/-- Kept by every step, as long as the handler lives or nothing is left to be served. -/
theorem due_step (lat : Int) (m0 : Memory) (v0 : List Bool) (t0 : Nat) (r : Req) (b : Nat) (E : Prop) (c c' : Ctrl)
    (hall : CtrlAll lat m0 v0 t0 c) (hal : c.handlerAlive = true ∨ c.line = []) (h : Due lat r b E c)
    {act : CtrlAct} (st : CtrlStep lat c act c') : Due lat r b E c' := by
  have ho := okay_step lat m0 v0 c c' hall.inv.mem st
  have hser := hall.inv.time.serving
  cases st with
  | crash e => exact h
  | stopped => exact h
  | stop => exact due_same lat r b E c _ [] ho rfl (by simp [Ctrl.line]) (fun _ => rfl) h
  | submit core start kind hr =>
    exact due_same lat r b E c _ [c.newReq core start kind] ho rfl (by simp [Ctrl.line]) (fun _ => rfl) h
  | pick x rest h1 h2 h0 =>
    exact due_same lat r b E c _ [] ho rfl (by simp [Ctrl.line, h1, h2]) (fun _ => rfl) h
  | toBus x h1 h2 h0 =>
    refine due_same lat r b E c _ [] ho rfl (by simp [Ctrl.line, h1]) (fun _ => ?_) h
    unfold Ctrl.base
    dsimp only
    cases hd : c.deadline with
    | none => rfl
    | some d =>
      obtain ⟨y, ys, hb, -⟩ := hser d hd
      simp [hb]
  | toPending x h1 h2 h3 h0 =>
    rcases h with h | ⟨hok, pre, post, hl, hb, he⟩
    · exact Or.inl h
    · have hnx : ¬Okay c.valid x := by simp [Okay, h2, h3]
      have hne : x ≠ r := by rintro rfl; exact hnx hok
      have hl' : c.bus ++ x :: c.queue = pre ++ r :: post := by rw [← hl]; simp [Ctrl.line, h1]
      right
      rcases append_cons_split hne hl' with ⟨m, hm1, hm2⟩ | ⟨m, hm1, hm2⟩
      · subst hm1
        refine ⟨hok, c.bus ++ m, post, by simp [Ctrl.line, hm2], ?_, ?_⟩
        · show c.base + _ ≤ b
          simp only [workload_append, workload_cons] at hb ⊢
          omega
        · intro e
          exact absurd ((he e).2 x (by simp)) hnx
      · exact ⟨hok, pre, m ++ c.queue, by simp [Ctrl.line, hm1], hb, he⟩
  | grant x rest h1 h2 h3 =>
    refine due_same lat r b E c _ [] ho rfl (by simp [Ctrl.line]) (fun _ => ?_) h
    unfold Ctrl.base
    simp only [h1, h2, List.head?_cons, Option.map_some, Option.getD_some]
    exact (hall.busy.head _ _ h1 h2).symm
  | read x rest mem data h1 h2 h3 h4 =>
    exact due_answer lat r b E c _ h hall.busy ho (.read x c.now data) rest [] h1 h2 rfl rfl rfl rfl rfl rfl
      (by simp)
  | write x rest mem data rows h1 h2 h3 h4 =>
    exact due_answer lat r b E c _ h hall.busy ho (.wrote x c.now) rest _ h1 h2 rfl rfl rfl rfl rfl rfl rfl
  | tick hq =>
    refine due_same lat r b E c _ [] ho rfl (by simp [Ctrl.line]) (fun hr => ?_) h
    rcases hal with hal | hal
    swap
    · rw [hal] at hr; exact absurd hr (by simp)
    unfold Ctrl.quiescent at hq
    simp only [hal, Bool.not_true, Bool.false_or, Bool.and_eq_true, Option.isNone_iff_eq_none,
      List.isEmpty_iff] at hq
    obtain ⟨⟨hq1, hq2⟩, hq3⟩ := hq
    unfold Ctrl.base
    dsimp only
    cases hd : c.deadline with
    | some d => rfl
    | none =>
      rw [hd] at hq3
      cases hb : c.bus with
      | nil => simp [Ctrl.line, hb, hq1, hq2] at hr
      | cons y ys => rw [hb] at hq3; exact absurd hq3 (by simp)

theorem alive_before (lat : Int) (c c' : Ctrl) {act : CtrlAct} (st : CtrlStep lat c act c')
    (h : c'.handlerAlive = true) : c.handlerAlive = true := by
  cases st <;> first | exact h | exact absurd h (by simp)

theorem due_run (lat : Int) (m0 : Memory) (v0 : List Bool) (t0 : Nat) (r : Req) (b : Nat) (E : Prop)
    (acts : List CtrlAct) (c c' : Ctrl) (hall : CtrlAll lat m0 v0 t0 c) (h : Due lat r b E c)
    (hrun : c.run lat acts = some c') (hal : c'.handlerAlive = true) : Due lat r b E c' :=
  (run_induction lat (fun c => CtrlAll lat m0 v0 t0 c ∧ (c.handlerAlive = true → Due lat r b E c))
    (fun c c' _ h st => ⟨ctrlAll_step lat m0 v0 t0 c c' h.1 st, fun ha =>
      have ha' := alive_before lat c c' st ha
      due_step lat m0 v0 t0 r b E c c' h.1 (Or.inl ha') (h.2 ha') st⟩)
    acts c c' ⟨hall, fun _ => h⟩ hrun).2 hal

/-- A request just submitted. -/
theorem due_submitted (lat : Int) (m0 : Memory) (v0 : List Bool) (t0 : Nat) (c : Ctrl)
    (hall : CtrlAll lat m0 v0 t0 c) (hr : c.running = true) (core start : Int) (kind : ReqKind)
    (hs : Servable c.valid (c.newReq core start kind)) :
    Due lat (c.newReq core start kind) (c.clearAt lat + serviceTime lat (c.newReq core start kind))
      (∀ x ∈ c.ahead, Servable c.valid x) (c.submit core start kind) := by
  have hsub : c.submit core start kind = { c with
        queue := c.queue ++ [c.newReq core start kind]
        submitted := c.submitted ++ [c.newReq core start kind]
        stats := c.stats.submitted (c.newReq core start kind) } := by
    unfold Ctrl.submit
    rw [if_neg (by simp [hr])]
    cases kind <;> rfl
  rw [hsub]
  right
  have hb : c.base + workload lat (c.line ++ [c.newReq core start kind]) =
      c.clearAt lat + serviceTime lat (c.newReq core start kind) := by
    rw [base_clearAt lat t0 c hall.inv.time hall.busy, workload_append]
    simp [workload, Nat.add_assoc]
  refine ⟨okay_of_servable _ _ hs, c.line, [], by simp [Ctrl.line], Nat.le_of_eq hb, ?_⟩
  intro e
  exact ⟨hb, fun x hx => okay_of_servable _ _ (e x hx)⟩

end Ramwich
