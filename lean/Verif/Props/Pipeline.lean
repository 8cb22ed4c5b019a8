import Verif.Lemmas.Pipeline

/-! # Properties of the pipeline (C24-C27)

`Reach hlt n prog s`: the pipeline with `n` stages, fed with `prog`, can be in state `s`.
`s.accepted i`: the operations stage `i` has called `accept` on, in order. -/
namespace Ramwich.Pipeline

variable {α : Type}

/-- C24: at any time, under any scheduling, what a stage has accepted is a prefix of the program, and
no stage is ahead of an earlier one. (A prefix: in order, nothing skipped, nothing twice.) -/
theorem C24_in_order (hlt : α → Bool) (n : Nat) (prog : List α) (s : State α)
    (h : Reach hlt n prog s) :
    (∀ i, i < n → s.accepted i <+: prog) ∧
    (∀ i j, i ≤ j → j < n → s.accepted j <+: s.accepted i) := by
  by_cases hn : 0 < n
  · exact ⟨fun i hi => (inv_reach hn h).prefix_prog hi, fun i j hij hj => (inv_reach hn h).prefix_le hij hj⟩
  · exact ⟨fun i hi => by omega, fun i j _ hj => by omega⟩

/-- C24, monotone in time: a step appends at most one operation to one stage's history. -/
theorem C24_step (hlt : α → Bool) (n : Nat) (s t : State α) (h : Step hlt n s t) (i : Nat) :
    t.accepted i = s.accepted i ∨ ∃ op, s.ctl i = .got op ∧ t.accepted i = s.accepted i ++ [op] := by
  cases h with
  | start j hj op hc =>
    by_cases hij : i = j
    · subst hij; exact Or.inr ⟨op, hc, upd_same _ _ _⟩
    · exact Or.inl (upd_ne _ _ _ _ hij)
  | _ => exact Or.inl rfl

/-- C25: when completion is signalled, the program splits at its first hlt and every stage has
accepted exactly the part up to and including it. -/
theorem C25_stops_at_hlt (hlt : α → Bool) (n : Nat) (hn : 0 < n) (prog : List α) (s : State α)
    (h : Reach hlt n prog s) (hd : s.done = true) :
    ∃ pre op post, prog = pre ++ op :: post ∧ hlt op = true ∧ (∀ x ∈ pre, hlt x = false) ∧
      ∀ i, i < n → s.accepted i = pre ++ [op] := by
  have hinv := inv_reach hn h
  have hstop : ∀ i, i < n → s.ctl i = .stopped := fun i hi =>
    (hinv.comp i hi).1 (hinv.mon.2 i (by rw [hinv.fin hd]; exact hi))
  obtain ⟨pre, op, e1, e2, e3⟩ := hinv.stop 0 hn (hstop 0 hn)
  refine ⟨pre, op, s.buf 0 ++ s.feed, ?_, e2, e3, ?_⟩
  · conv_lhs => rw [hinv.feed]
    rw [e1, hstop 0 hn]
    simp [Ctl.taken]
  · intro i hi
    obtain ⟨pre', op', f1, f2, f3⟩ := hinv.stop i hi (hstop i hi)
    have hp := hinv.prefix_le (Nat.zero_le i) hi
    rw [e1, f1] at hp
    rcases List.prefix_concat_iff.1 hp with h' | h'
    · rw [f1]; exact h'
    · have : hlt op' = false := e3 op' (h'.subset (by simp))
      rw [f2] at this
      cases this

/-- C25: operations after the first hlt are never accepted by any stage, at any time. -/
theorem C25_nothing_after_hlt (hlt : α → Bool) (n : Nat) (pre : List α) (op : α) (post : List α)
    (hop : hlt op = true) (s : State α) (h : Reach hlt n (pre ++ op :: post) s) (i : Nat) (hi : i < n) :
    s.accepted i <+: pre ++ [op] := by
  have hn : 0 < n := by omega
  have hinv := inv_reach hn h
  have hp := hinv.prefix_prog hi
  -- every element but the last is no hlt
  have hlast : ∀ p x, s.accepted i = p ++ [x] → ∀ y ∈ p, hlt y = false := by
    intro p x hx
    have hfrom : ∀ p' x', s.accepted i = p' ++ [x'] → (∀ y ∈ p', hlt y = false) →
        ∀ y ∈ p, hlt y = false := by
      intro p' x' hx' hy
      have := List.append_inj_left' (hx.symm.trans hx') rfl
      rw [this]; exact hy
    have hall : (∀ y ∈ s.accepted i, hlt y = false) → ∀ y ∈ p, hlt y = false := by
      intro hq y hy; exact hq y (by rw [hx]; simp [hy])
    cases hc : s.ctl i with
    | idle => exact hall (hinv.quiet i hi (Or.inl hc))
    | got o => exact hall (hinv.quiet i hi (Or.inr ⟨o, hc⟩))
    | busy o =>
      obtain ⟨p', e1, e2⟩ := hinv.work i hi o (by rw [hc]; rfl)
      exact hfrom p' o e1 e2
    | putting o =>
      obtain ⟨p', e1, e2⟩ := hinv.work i hi o (by rw [hc]; rfl)
      exact hfrom p' o e1 e2
    | after o =>
      obtain ⟨p', e1, e2⟩ := hinv.work i hi o (by rw [hc]; rfl)
      exact hfrom p' o e1 e2
    | stopped =>
      obtain ⟨p', o, e1, _, e2⟩ := hinv.stop i hi hc
      exact hfrom p' o e1 e2
  have hq : pre ++ [op] <+: pre ++ op :: post := by
    rw [List.prefix_append_right_inj]; simp
  by_contra hcon
  -- otherwise `pre ++ [op]` is a proper prefix of the history
  have hle : (pre ++ [op]).length < (s.accepted i).length := by
    by_contra hlen
    exact hcon (List.prefix_of_prefix_length_le hp hq (by omega))
  have hpre : pre ++ [op] <+: s.accepted i := List.prefix_of_prefix_length_le hq hp (by omega)
  obtain ⟨rest, hr⟩ := hpre
  have hne : rest ≠ [] := by
    rintro rfl
    rw [← hr] at hle
    simp at hle
  have := hlast (pre ++ [op] ++ rest.dropLast) (rest.getLast hne)
    (by rw [← hr]; conv_lhs => rw [← List.dropLast_append_getLast hne]
        simp) op (by simp)
  rw [hop] at this
  cases this

/-- C26: a program with a hlt cannot get stuck: as long as completion is not signalled some step is
possible. -/
theorem C26_not_stuck (hlt : α → Bool) (n : Nat) (hn : 0 < n) (prog : List α)
    (hp : ∃ op ∈ prog, hlt op = true) (s : State α) (h : Reach hlt n prog s) :
    s.done = true ∨ ∃ t, Step hlt n s t := by
  by_contra hcon
  push Not at hcon
  have hinv := inv_reach hn h
  rcases stuck_cases hn hinv hcon.2 with hd | ⟨i, hi, h1, h2, h3, h4⟩
  · exact hcon.1 hd
  · have hq := hinv.quiet i hi (Or.inl h2)
    cases i with
    | zero =>
      obtain ⟨op, hop, hh⟩ := hp
      have := hinv.feed
      rw [h2, h3, h4 rfl] at this
      simp only [Ctl.taken, List.append_nil] at this
      rw [this] at hop
      rw [hq op hop] at hh
      cases hh
    | succ i =>
      obtain ⟨pre, op, e1, e2, e3⟩ := hinv.stop i (by omega) (h1 i (by omega))
      have := hinv.link i hi
      rw [h2, h3, h1 i (by omega)] at this
      simp only [Ctl.taken, Ctl.held, List.append_nil] at this
      have hm : op ∈ s.accepted (i + 1) := by rw [← this, e1]; simp
      rw [hq op hm] at e2
      cases e2

/-- C26: there is a bound on the number of steps of every run, whatever the schedule. -/
theorem C26_terminates (hlt : α → Bool) (n : Nat) (hn : 0 < n) (prog : List α)
    (run : Nat → State α) (k : Nat) (h0 : run 0 = init prog)
    (hs : ∀ i, i < k → Step hlt n (run i) (run (i + 1))) :
    k ≤ prog.length * (5 * n + 1) + n + 1 := by
  have hw : ∀ i, i ≤ k → weight n (run i) + i ≤ weight n (run 0) := by
    intro i
    induction i with
    | zero => intro _; omega
    | succ i ih =>
      intro hi
      have := weight_step hn (hs i (by omega))
      have := ih (by omega)
      omega
  have := hw k (Nat.le_refl k)
  have hi : weight n (init prog : State α) = prog.length * (5 * n + 1) + n + 1 := by
    simp [weight, init, weight_idle]
  rw [h0, hi] at this
  omega

/-- C26: without a hlt completion is never signalled. -/
theorem C26_no_hlt (hlt : α → Bool) (n : Nat) (hn : 0 < n) (prog : List α)
    (hp : ∀ op ∈ prog, hlt op = false) (s : State α) (h : Reach hlt n prog s) : s.done = false := by
  cases hd : s.done with
  | false => rfl
  | true =>
    obtain ⟨pre, op, post, e1, e2, _, _⟩ := C25_stops_at_hlt hlt n hn prog s h hd
    have := hp op (by rw [e1]; simp)
    rw [e2] at this
    cases this

/-- C27: every buffer holds at most one operation, and nothing is lost or duplicated: what was fed is
what a stage has accepted followed by what is in flight towards it. -/
theorem C27_buffers (hlt : α → Bool) (n : Nat) (prog : List α) (s : State α)
    (h : Reach hlt n prog s) :
    (0 < n → ∀ i, (s.buf i).length ≤ 1) ∧ ∀ i, i < n → prog = s.accepted i ++ inFlight s i :=
  ⟨fun hn => (inv_reach hn h).cap, fun i hi => (inv_reach (by omega) h).inFlight i hi⟩

/-! Concrete runs: operations are numbers, 9 is the hlt, three stages. -/

def demoHlt : Nat → Bool := fun x => x == 9

theorem demo_reach (k : Nat) : Reach demoHlt 3 [5, 6, 5, 9, 7] (rounds demoHlt 3 k (init [5, 6, 5, 9, 7])) :=
  reach_rounds k Reach.init

-- in the middle of the run the stages are at different operations
example : (List.range 3).map (rounds demoHlt 3 9 (init [5, 6, 5, 9, 7])).accepted = [[5, 6], [5], []] := by
  decide
example := C24_in_order demoHlt 3 _ _ (demo_reach 9)
example := C27_buffers demoHlt 3 _ _ (demo_reach 9)
-- at the end
example : (rounds demoHlt 3 60 (init [5, 6, 5, 9, 7])).done = true := by decide +kernel
example := C25_stops_at_hlt demoHlt 3 (by decide) _ _ (demo_reach 60) (by decide +kernel)
example := C25_nothing_after_hlt demoHlt 3 [5, 6, 5] 9 [7] rfl _ (demo_reach 60) 2 (by decide)
example := C26_not_stuck demoHlt 3 (by decide) [5, 6, 5, 9, 7] ⟨9, by simp, rfl⟩ _ (demo_reach 9)
example := C26_no_hlt demoHlt 3 (by decide) [5, 6, 5] (by decide) _ (reach_rounds 60 Reach.init)

end Ramwich.Pipeline
