import Verif.Lemmas.DramProgress
import Verif.Spec.DramTimes

/-! # Times of the answers of a DRAM controller -/
namespace Ramwich

open Spec

/-- Time of the last answer. -/
def lastTime (as : List Answer) : Nat := (as.getLast?.map Answer.time).getD 0

theorem lastTime_snoc (as : List Answer) (a : Answer) : lastTime (as ++ [a]) = a.time := by
  simp [lastTime]

theorem queueTimes_snoc (lat : Int) (rs : List Req) (r : Req) : ∀ free : Nat,
    queueTimes lat free (rs ++ [r]) = queueTimes lat free rs ++
      [max ((queueTimes lat free rs).getLast?.getD free) r.submitTime + serviceTime lat r] := by
  induction rs with
  | nil => intro free; simp [queueTimes]
  | cons x xs ih =>
    intro free
    simp only [List.cons_append, queueTimes, ih]
    congr 2
    cases h : queueTimes lat (max free x.submitTime + serviceTime lat x) xs with
    | nil => simp
    | cons y ys => simp [List.getLast?_cons]

/-- The server is never idle while a request could be served. -/
structure CtrlBusy (lat : Int) (c : Ctrl) : Prop where
  times : c.answers.map Answer.time = queueTimes lat 0 (c.answers.map Answer.req)
  fresh : c.handlerAlive = true → ∀ r ∈ c.handed.toList ++ c.queue,
    r.submitTime = c.now ∨ lastTime c.answers = c.now
  head : ∀ r rest, c.bus = r :: rest → c.deadline = none → c.now = max (lastTime c.answers) r.submitTime
  serving : ∀ r rest d, c.bus = r :: rest → c.deadline = some d →
    d = max (lastTime c.answers) r.submitTime + serviceTime lat r

theorem lastTime_times (lat : Int) (c : Ctrl) (h : CtrlBusy lat c) :
    (queueTimes lat 0 (c.answers.map Answer.req)).getLast?.getD 0 = lastTime c.answers := by
  rw [← h.times, List.getLast?_map]; rfl

theorem lastTime_le (lat : Int) (t0 : Nat) (c : Ctrl) (h : CtrlTime lat t0 c) :
    lastTime c.answers ≤ c.now := by
  unfold lastTime
  cases hl : c.answers.getLast? with
  | none => simp
  | some a => exact (h.answered a (List.mem_of_getLast? hl)).1

theorem ctrlBusy_answer (lat : Int) (t0 : Nat) (c c' : Ctrl) (hl : CtrlLine c) (ht : CtrlTime lat t0 c)
    (h : CtrlBusy lat c) (a : Answer) (rest : List Req) (h1 : c.bus = a.req :: rest)
    (h2 : c.deadline = some c.now) (ha : a.time = c.now) (e1 : c'.now = c.now)
    (e2 : c'.answers = c.answers ++ [a]) (e3 : c'.deadline = none) (e4 : c'.bus = rest) : CtrlBusy lat c' := by
  have hs := h.serving _ _ _ h1 h2
  refine ⟨?_, ?_, ?_, ?_⟩
  · rw [e2, List.map_append, List.map_append, List.map_singleton, List.map_singleton, queueTimes_snoc,
      lastTime_times lat c h, ← h.times, ha, hs]
  · intro _ r _
    rw [e2, lastTime_snoc, e1]; exact Or.inr ha
  · intro r rs hb _
    rw [e4] at hb
    rw [e2, lastTime_snoc, e1, ha]
    have := (ht.past r (line_mem c hl r (by simp [Ctrl.line, h1, hb]))).2
    omega
  · intro r rs d _ hd; rw [e3] at hd; exact absurd hd (by simp)

theorem ctrlBusy_step (lat : Int) (t0 : Nat) (c c' : Ctrl) (hl : CtrlLine c) (ht : CtrlTime lat t0 c)
    (h : CtrlBusy lat c) {act : CtrlAct} (st : CtrlStep lat c act c') : CtrlBusy lat c' := by
  cases st with
  | crash e => exact ⟨h.1, h.2, h.3, h.4⟩
  | stopped => exact h
  | stop => exact ⟨h.1, fun hx => absurd hx (by simp), h.3, h.4⟩
  | submit core start kind hr =>
    refine ⟨h.1, ?_, h.3, h.4⟩
    intro ha r hr
    simp only [List.mem_append, List.mem_singleton] at hr
    rcases hr with hr | hr | hr
    · exact h.fresh ha r (by simp [hr])
    · exact h.fresh ha r (by simp [hr])
    · rw [hr]; exact Or.inl rfl
  | pick r rest h1 h2 h0 =>
    refine ⟨h.1, ?_, h.3, h.4⟩
    intro ha x hx
    exact h.fresh ha x (by simpa [h1, h2] using hx)
  | toBus r h1 h2 h0 =>
    refine ⟨h.1, ?_, ?_, ?_⟩
    · intro ha x hx
      exact h.fresh ha x (by simp at hx; simp [hx])
    · intro x rs hb hd
      dsimp only at hb hd ⊢
      cases hbus : c.bus with
      | nil =>
        rw [hbus] at hb
        injection hb with hb1 hb2
        subst hb1
        have hle := lastTime_le lat t0 c ht
        have hsub := (ht.past r (line_mem c hl r (by simp [Ctrl.line, h1]))).2
        rcases h.fresh h0 r (by simp [h1]) with e | e <;> omega
      | cons y ys =>
        rw [hbus] at hb
        injection hb with hb1 hb2
        subst hb1
        exact h.head _ _ hbus hd
    · intro x rs d hb hd
      dsimp only at hb hd ⊢
      cases hbus : c.bus with
      | nil =>
        obtain ⟨r', rest', hb', _⟩ := ht.serving d hd
        rw [hbus] at hb'; exact absurd hb' (by simp)
      | cons y ys =>
        rw [hbus] at hb
        injection hb with hb1 hb2
        subst hb1
        exact h.serving _ _ _ hbus hd
  | toPending r h1 h2 h3 h0 =>
    refine ⟨h.1, ?_, h.3, h.4⟩
    intro ha x hx
    exact h.fresh ha x (by simp at hx; simp [hx])
  | grant r rest h1 h2 h3 =>
    refine ⟨h.1, h.2, ?_, ?_⟩
    · intro x rs _ hd; exact absurd hd (by simp)
    · intro x rs d hb hd
      dsimp only at hb hd ⊢
      rw [h1] at hb
      injection hb with hb1 hb2
      subst hb1
      injection hd with hd
      rw [← hd, ← h.head _ _ h1 h2]; rfl
  | read r rest mem data h1 h2 h3 h4 =>
    exact ctrlBusy_answer lat t0 c _ hl ht h (.read r c.now data) rest h1 h2 rfl rfl rfl rfl rfl
  | write r rest mem data rows h1 h2 h3 h4 =>
    exact ctrlBusy_answer lat t0 c _ hl ht h (.wrote r c.now) rest h1 h2 rfl rfl rfl rfl rfl
  | tick hq =>
    unfold Ctrl.quiescent at hq
    rw [Bool.and_eq_true] at hq
    refine ⟨h.1, ?_, ?_, h.4⟩
    · intro ha x hx
      dsimp only at ha hx
      simp only [ha, Bool.not_true, Bool.false_or, Bool.and_eq_true, Option.isNone_iff_eq_none,
        List.isEmpty_iff] at hq
      rw [hq.1.1, hq.1.2] at hx
      exact absurd hx (by simp)
    · intro x rs hb hd
      dsimp only at hb hd
      rw [hb, hd] at hq
      exact absurd hq.2 (by simp)

theorem ctrlBusy_started (lat : Int) (m0 : Memory) (v0 : List Bool) (t0 : Nat) :
    CtrlBusy lat (Ctrl.started m0 v0 t0) := by
  refine ⟨rfl, ?_, ?_, ?_⟩ <;> simp [Ctrl.started]

structure CtrlAll (lat : Int) (m0 : Memory) (v0 : List Bool) (t0 : Nat) (c : Ctrl) : Prop where
  inv : CtrlInv lat m0 v0 t0 c
  busy : CtrlBusy lat c

theorem ctrlAll_step (lat : Int) (m0 : Memory) (v0 : List Bool) (t0 : Nat) (c c' : Ctrl)
    (h : CtrlAll lat m0 v0 t0 c) {act : CtrlAct} (st : CtrlStep lat c act c') : CtrlAll lat m0 v0 t0 c' :=
  ⟨ctrlInv_step lat m0 v0 t0 c c' h.inv st, ctrlBusy_step lat t0 c c' h.inv.line h.inv.time h.busy st⟩

theorem ctrlAll_run (lat : Int) (m0 : Memory) (v0 : List Bool) (t0 : Nat) (h0 : GoodStart m0 v0)
    (acts : List CtrlAct) (c : Ctrl) (h : (Ctrl.started m0 v0 t0).run lat acts = some c) :
    CtrlAll lat m0 v0 t0 c :=
  run_induction lat (CtrlAll lat m0 v0 t0) (fun c c' _ h st => ctrlAll_step lat m0 v0 t0 c c' h st) acts _ c
    ⟨ctrlInv_started lat m0 v0 t0 h0, ctrlBusy_started lat m0 v0 t0⟩ h

end Ramwich
