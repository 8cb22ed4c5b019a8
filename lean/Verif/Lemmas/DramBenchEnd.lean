import Verif.Lemmas.DramBenchRun

/-! # Processes beside a DRAM controller go on until any time -/
namespace Ramwich

open Spec

/-- Actions that a statement may still cause. -/
def ClientOp.work (lat : Int) : ClientOp → Nat
  | .sleep _ => 2
  | .submit core start kind =>
    8 + serviceTime lat { id := 0, core := core, start := start, kind := kind, submitTime := 0 }
  | .await _ => 1

def opsWork (lat : Int) (ops : List ClientOp) : Nat := (ops.map (ClientOp.work lat)).sum

def Client.work (lat : Int) (cl : Client) : Nat :=
  match cl.wake, cl.todo with
  | some _, _ :: rest => 1 + opsWork lat rest
  | _, todo => opsWork lat todo

def Bench.work (lat : Int) (b : Bench) : Nat := (b.clients.map (Client.work lat)).sum + b.ctrl.weight lat

theorem work_split (lat : Int) (c : Ctrl) (A B : List Client) (cl : Client) :
    Bench.work lat ⟨c, A ++ cl :: B⟩ = (A.map (Client.work lat)).sum + cl.work lat
      + (B.map (Client.work lat)).sum + c.weight lat := by
  simp only [Bench.work, List.map_append, List.map_cons, List.sum_append, List.sum_cons]
  omega

section
variable {lat : Int} {m0 : Memory} {v0 : List Bool} {t0 : Nat} {scripts : List (List ClientOp)}

theorem bench_work_step (hS : Sound lat m0 v0 scripts) (b b' : Bench) (h : BenchInv lat m0 v0 t0 scripts b)
    (st : BenchStep lat b b') : b'.work lat + 1 + b.ctrl.now ≤ b.work lat + b'.ctrl.now := by
  have h' := benchInv_step hS b b' h st
  cases st with
  | sleep c A B cl n rest h1 h2 =>
    rw [work_split, work_split]
    simp only [Client.work, h1, h2, opsWork, List.map_cons, List.sum_cons, ClientOp.work]
    omega
  | wake c A B cl n t rest h1 h2 h3 =>
    rw [work_split, work_split]
    simp only [Client.work, h1, h2]
    omega
  | await c A B cl i id a rest h1 h2 h3 h4 =>
    have hwn : cl.wake = none := by
      cases hw : cl.wake with
      | none => rfl
      | some t =>
        obtain ⟨-, n, r, hto, -⟩ := (h.clients cl (by simp)).wake t hw
        rw [h1] at hto; cases hto
    rw [work_split, work_split]
    simp only [Client.work, h1, hwn, opsWork, List.map_cons, List.sum_cons, ClientOp.work]
    omega
  | submit c c' A B cl core start kind rest h1 hc h2 =>
    have hwn : cl.wake = none := by
      cases hw : cl.wake with
      | none => rfl
      | some t =>
        obtain ⟨-, n, r, hto, -⟩ := (h.clients cl (by simp)).wake t hw
        rw [h1] at hto; cases hto
    have hcr : c'.crashed = none := h'.fine
    have hst := act_step lat c c' _ h2
    have hw : c'.weight lat ≤ c.weight lat + 7 +
        serviceTime lat { id := 0, core := core, start := start, kind := kind, submitTime := 0 } ∧
        c'.now = c.now := by
      clear h' h2
      cases hst with
      | crash => exact absurd hcr (by simp [Ctrl.crash])
      | submit =>
        refine ⟨?_, rfl⟩
        simp only [Ctrl.weight, List.map_append, List.map_cons, List.map_nil, List.sum_append, List.sum_cons,
          List.sum_nil]
        have e1 : svc lat (c.newReq core start kind) =
          serviceTime lat { id := 0, core := core, start := start, kind := kind, submitTime := 0 } := rfl
        have e2 : detour c.valid (c.newReq core start kind) ≤ 3 := by unfold detour; split <;> omega
        omega
    rw [work_split, work_split]
    simp only [Client.work, h1, hwn, opsWork, List.map_cons, List.sum_cons, ClientOp.work]
    omega
  | ctrl c c' cls a ha ht hact =>
    have hns : a ≠ .stop := by rintro rfl; simp [CtrlAct.internal] at ha
    have hcr : c'.crashed = none := h'.fine
    have hrt := restTime_step lat m0 v0 t0 c c' _ h.inv h.alive hcr hns hact
    have hrt' : c'.now = c.now ∧ ¬c.idle := by
      cases a with
      | submit => simp [CtrlAct.internal] at ha
      | tick => exact absurd rfl ht
      | stop => exact absurd rfl hns
      | pick => exact ⟨hrt.1, hrt.2.2⟩
      | dispatch => exact ⟨hrt.1, hrt.2.2⟩
      | grant => exact ⟨hrt.1, hrt.2.2⟩
      | complete => exact ⟨hrt.1, hrt.2.2⟩
    have hw := (work_decreases lat m0 v0 t0 c c' a h.inv h.alive ha hrt'.2 hact).resolve_left (by simp [hcr])
    have := hw.1
    simp only [Bench.work]
    omega
  | tick c c' cls hact hcl =>
    have hcr : c'.crashed = none := h'.fine
    have hle : c'.weight lat ≤ c.weight lat := by
      by_cases hidle : c.idle
      · have hst := act_step lat c c' _ hact
        clear h' hact
        cases hst with
        | crash => exact absurd hcr (by simp [Ctrl.crash])
        | tick => simp [Ctrl.weight, hidle.2.2, busWeight]
      · have hw := (work_decreases lat m0 v0 t0 c c' .tick h.inv h.alive rfl hidle hact).resolve_left (by simp [hcr])
        omega
    have hn := (restTime_step lat m0 v0 t0 c c' _ h.inv h.alive hcr (by simp) hact).1
    simp only [Bench.work]
    omega

theorem bench_work_run (hS : Sound lat m0 v0 scripts) :
    ∀ (acts : List BenchAct) (b b' : Bench), BenchInv lat m0 v0 t0 scripts b → b.run lat acts = some b' →
      acts.length + b'.work lat + b.ctrl.now ≤ b.work lat + b'.ctrl.now := by
  intro acts
  induction acts with
  | nil =>
    intro b b' _ h
    simp only [Bench.run, Option.some.injEq] at h
    subst h
    simp
  | cons a as ih =>
    intro b b' hi h
    simp only [Bench.run] at h
    cases ha : b.act lat a with
    | none => rw [ha] at h; exact absurd h (by simp)
    | some b1 =>
      rw [ha] at h
      have st := act_benchStep lat b b1 a ha
      have h1 := ih b1 b' (benchInv_step hS b b1 hi st) h
      have h2 := bench_work_step hS b b1 hi st
      simp only [List.length_cons]
      omega

/-- Something can always happen. -/
theorem bench_goes_on (b : Bench) (h : BenchInv lat m0 v0 t0 scripts b) : ∃ a b', b.act lat a = some b' := by
  obtain ⟨c, cls⟩ := b
  have hcr : c.crashed = none := h.fine
  have hun : ∀ a, Bench.act lat ⟨c, cls⟩ a = match a with
    | .client i =>
      match cls[i]? with
      | none => none
      | some cl => (cl.step c).map fun p => { ctrl := p.2, clients := cls.set i p.1 }
    | .pick => c.pick.map fun c => ⟨c, cls⟩
    | .dispatch => c.dispatch.map fun c => ⟨c, cls⟩
    | .grant => (c.grant lat).map fun c => ⟨c, cls⟩
    | .complete => (c.complete lat).map fun c => ⟨c, cls⟩
    | .tick =>
      if cls.all fun cl => (cl.step c).isNone then c.tick.map fun c => ⟨c, cls⟩ else none := by
    intro a
    unfold Bench.act
    rw [if_neg (by simp [hcr])]
    cases a <;> rfl
  by_cases hcl : cls.all fun cl => (cl.step c).isNone
  · by_cases hq : c.quiescent = true
    · exact ⟨.tick, ⟨{ c with now := c.now + 1 }, cls⟩, by rw [hun]; simp [hcl, Ctrl.tick, hq]⟩
    · have hnid : ¬c.idle := by
        intro hid
        apply hq
        simp [Ctrl.quiescent, hid.1, hid.2.1, hid.2.2]
      obtain ⟨a, c', ha, hact⟩ := work_exists lat c hcr h.alive (fun d hd => by
        obtain ⟨r, rest, -, h, -⟩ := h.inv.time.serving d hd
        exact h) hnid
      unfold Ctrl.act at hact
      rw [if_neg (by simp [hcr])] at hact
      cases a with
      | submit => simp [CtrlAct.internal] at ha
      | stop => simp [CtrlAct.internal] at ha
      | pick => exact ⟨.pick, ⟨c', cls⟩, by rw [hun]; dsimp only at hact ⊢; rw [hact]; rfl⟩
      | dispatch => exact ⟨.dispatch, ⟨c', cls⟩, by rw [hun]; dsimp only at hact ⊢; rw [hact]; rfl⟩
      | grant => exact ⟨.grant, ⟨c', cls⟩, by rw [hun]; dsimp only at hact ⊢; rw [hact]; rfl⟩
      | complete => exact ⟨.complete, ⟨c', cls⟩, by rw [hun]; dsimp only at hact ⊢; rw [hact]; rfl⟩
      | tick =>
        dsimp only [Ctrl.tick] at hact
        rw [if_neg hq] at hact
        exact absurd hact (by simp)
  · have hcl' : ∃ cl ∈ cls, (cl.step c).isNone = false := by
      by_contra hno
      apply hcl
      rw [List.all_eq_true]
      intro x hx
      by_contra hx'
      exact hno ⟨x, hx, Bool.eq_false_iff.2 hx'⟩
    obtain ⟨cl, hmem, hsome⟩ := hcl'
    obtain ⟨i, hi⟩ := List.mem_iff_getElem?.1 hmem
    cases hs : cl.step c with
    | none => rw [hs] at hsome; simp at hsome
    | some p => exact ⟨.client i, _, by rw [hun]; dsimp only; rw [hi]; dsimp only; rw [hs]; rfl⟩

theorem bench_run_append (acts acts' : List BenchAct) (b b1 b2 : Bench) (h1 : b.run lat acts = some b1)
    (h2 : b1.run lat acts' = some b2) : b.run lat (acts ++ acts') = some b2 := by
  induction acts generalizing b with
  | nil => simp only [Bench.run, Option.some.injEq] at h1; subst h1; exact h2
  | cons a as ih =>
    simp only [Bench.run, List.cons_append] at h1 ⊢
    cases ha : b.act lat a with
    | none => rw [ha] at h1; exact absurd h1 (by simp)
    | some b' => rw [ha] at h1; exact ih b' h1

/-- Any time is reached. -/
theorem bench_reaches (hS : Sound lat m0 v0 scripts) (T : Nat) :
    ∀ (n : Nat) (b : Bench), BenchInv lat m0 v0 t0 scripts b → b.ctrl.now ≤ T → b.work lat + (T - b.ctrl.now) ≤ n →
      ∃ acts b', b.run lat acts = some b' ∧ b'.ctrl.now = T := by
  intro n
  induction n with
  | zero =>
    intro b h hT hn
    exact ⟨[], b, rfl, by omega⟩
  | succ n ih =>
    intro b h hT hn
    by_cases heq : b.ctrl.now = T
    · exact ⟨[], b, rfl, heq⟩
    · obtain ⟨a, b1, ha⟩ := bench_goes_on b h
      have st := act_benchStep lat b b1 a ha
      have hw := bench_work_step hS b b1 h st
      have h1 := benchInv_step hS b b1 h st
      have hnow : b1.ctrl.now = b.ctrl.now ∨ b1.ctrl.now = b.ctrl.now + 1 := by
        cases st with
        | sleep => exact Or.inl rfl
        | wake => exact Or.inl rfl
        | await => exact Or.inl rfl
        | submit c c' A B cl core start kind rest e1 hc e2 =>
          exact Or.inl (restTime_step lat m0 v0 t0 c c' _ h.inv h.alive h1.fine (by simp) e2).1
        | tick c c' cls e hcl =>
          exact Or.inr (restTime_step lat m0 v0 t0 c c' _ h.inv h.alive h1.fine (by simp) e).1
        | ctrl c c' cls a ha' ht e =>
          have hns : a ≠ .stop := by rintro rfl; simp [CtrlAct.internal] at ha'
          have hrt := restTime_step lat m0 v0 t0 c c' _ h.inv h.alive h1.fine hns e
          cases a with
          | submit => simp [CtrlAct.internal] at ha'
          | tick => exact absurd rfl ht
          | stop => exact absurd rfl hns
          | pick => exact Or.inl hrt.1
          | dispatch => exact Or.inl hrt.1
          | grant => exact Or.inl hrt.1
          | complete => exact Or.inl hrt.1
      obtain ⟨acts, b2, hr, ht⟩ := ih b1 h1 (by omega) (by omega)
      exact ⟨a :: acts, b2, by simp only [Bench.run, ha]; exact hr, ht⟩

end

end Ramwich
