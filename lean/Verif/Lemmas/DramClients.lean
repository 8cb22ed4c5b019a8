import Verif.Spec.DramClients
import Verif.Lemmas.DramProgress

/-! # Processes beside a DRAM controller: steps and invariant -/
namespace Ramwich

open Spec

/-! ## Steps -/

theorem set_split {α : Type} {l : List α} {i : Nat} {x : α} (h : l[i]? = some x) :
    ∃ A B, l = A ++ x :: B ∧ ∀ y, l.set i y = A ++ y :: B := by
  induction l generalizing i with
  | nil => simp at h
  | cons z zs ih =>
    cases i with
    | zero =>
      simp only [List.getElem?_cons_zero, Option.some.injEq] at h
      subst h
      exact ⟨[], zs, rfl, fun y => rfl⟩
    | succ i =>
      rw [List.getElem?_cons_succ] at h
      obtain ⟨A, B, h1, h2⟩ := ih h
      exact ⟨z :: A, B, by rw [h1]; rfl, fun y => by rw [List.set_cons_succ, h2]; rfl⟩

/-- The effective steps of a bench. -/
inductive BenchStep (lat : Int) : Bench → Bench → Prop
  | sleep (c : Ctrl) (A B : List Client) (cl : Client) (n : Nat) (rest : List ClientOp)
      (h1 : cl.todo = .sleep n :: rest) (h2 : cl.wake = none) :
      BenchStep lat ⟨c, A ++ cl :: B⟩ ⟨c, A ++ { cl with wake := some (c.now + n) } :: B⟩
  | wake (c : Ctrl) (A B : List Client) (cl : Client) (n t : Nat) (rest : List ClientOp)
      (h1 : cl.todo = .sleep n :: rest) (h2 : cl.wake = some t) (h3 : t ≤ c.now) :
      BenchStep lat ⟨c, A ++ cl :: B⟩
        ⟨c, A ++ { cl with todo := rest, done := cl.done ++ [.sleep n], wake := none } :: B⟩
  | submit (c c' : Ctrl) (A B : List Client) (cl : Client) (core start : Int) (kind : ReqKind)
      (rest : List ClientOp) (h1 : cl.todo = .submit core start kind :: rest) (hc : c.crashed = none)
      (h2 : c.act lat (.submit core start kind) = some c') :
      BenchStep lat ⟨c, A ++ cl :: B⟩ ⟨c', A ++ { cl with
        todo := rest, done := cl.done ++ [.submit core start kind]
        sent := cl.sent ++ [c.submitted.length] } :: B⟩
  | await (c : Ctrl) (A B : List Client) (cl : Client) (i id : Nat) (a : Answer) (rest : List ClientOp)
      (h1 : cl.todo = .await i :: rest) (h2 : cl.sent[i]? = some id) (h3 : a ∈ c.answers) (h4 : a.id = id) :
      BenchStep lat ⟨c, A ++ cl :: B⟩ ⟨c, A ++ { cl with
        todo := rest, done := cl.done ++ [.await i], got := cl.got ++ [(i, c.now, a.value)] } :: B⟩
  | ctrl (c c' : Ctrl) (cls : List Client) (a : CtrlAct) (ha : a.internal = true) (ht : a ≠ .tick)
      (h : c.act lat a = some c') : BenchStep lat ⟨c, cls⟩ ⟨c', cls⟩
  | tick (c c' : Ctrl) (cls : List Client) (h : c.act lat .tick = some c')
      (hcl : ∀ cl ∈ cls, cl.step c = none) : BenchStep lat ⟨c, cls⟩ ⟨c', cls⟩

theorem act_benchStep (lat : Int) (b b' : Bench) (a : BenchAct) (h : b.act lat a = some b') :
    BenchStep lat b b' := by
  obtain ⟨c, cls⟩ := b
  unfold Bench.act at h
  dsimp only at h
  by_cases hc : c.crashed.isSome
  · rw [if_pos hc] at h; exact absurd h (by simp)
  rw [if_neg hc] at h
  have hcr : c.crashed = none := by simpa using hc
  have hin : ∀ (a : CtrlAct) (o : Option Ctrl), a.internal = true → a ≠ .tick → c.act lat a = o →
      (o.map fun c => (⟨c, cls⟩ : Bench)) = some b' → BenchStep lat ⟨c, cls⟩ b' := by
    intro a o h1 h2 h3 h4
    cases o with
    | none => exact absurd h4 (by simp)
    | some c' =>
      simp only [Option.map_some, Option.some.injEq] at h4
      subst h4
      exact .ctrl c c' cls a h1 h2 h3
  have hact : ∀ a, c.act lat a = match a with
    | .submit core start kind => some (c.submit core start kind)
    | .pick => c.pick
    | .dispatch => c.dispatch
    | .grant => c.grant lat
    | .complete => c.complete lat
    | .tick => c.tick
    | .stop => c.stop := by
    intro a
    unfold Ctrl.act
    rw [if_neg (by simp [hcr])]
    cases a <;> rfl
  cases a with
  | pick => exact hin .pick _ rfl (by simp) (hact _) h
  | dispatch => exact hin .dispatch _ rfl (by simp) (hact _) h
  | grant => exact hin .grant _ rfl (by simp) (hact _) h
  | complete => exact hin .complete _ rfl (by simp) (hact _) h
  | tick =>
    dsimp only at h
    split at h
    · rename_i hall
      cases ht : c.tick with
      | none => rw [ht] at h; exact absurd h (by simp)
      | some c' =>
        rw [ht] at h
        simp only [Option.map_some, Option.some.injEq] at h
        subst h
        refine .tick c c' cls (by rw [hact]; exact ht) ?_
        intro cl hcl
        simpa using List.all_eq_true.1 hall cl hcl
    · exact absurd h (by simp)
  | client i =>
    dsimp only at h
    cases hi : cls[i]? with
    | none => rw [hi] at h; exact absurd h (by simp)
    | some cl =>
      rw [hi] at h
      dsimp only at h
      obtain ⟨A, B, hAB, hset⟩ := set_split hi
      simp only [hset] at h
      rw [hAB]
      unfold Client.step at h
      split at h
      · exact absurd h (by simp)
      · rename_i n rest hto
        split at h
        · rename_i hw
          simp only [Option.map_some, Option.some.injEq] at h
          subst h
          exact .sleep c A B cl n rest hto hw
        · rename_i t hw
          split at h
          · rename_i hle
            simp only [Option.map_some, Option.some.injEq] at h
            subst h
            exact .wake c A B cl n t rest hto hw hle
          · exact absurd h (by simp)
      · rename_i core start kind rest hto
        simp only [Option.map_some, Option.some.injEq] at h
        subst h
        exact .submit c _ A B cl core start kind rest hto hcr (by rw [hact])
      · rename_i j rest hto
        split at h
        · exact absurd h (by simp)
        · rename_i id hid
          split at h
          · exact absurd h (by simp)
          · rename_i a ha
            simp only [Option.map_some, Option.some.injEq] at h
            subst h
            refine .await c A B cl j id a rest hto hid (List.mem_of_find?_eq_some ha) ?_
            simpa using List.find?_some ha

theorem bench_induction (lat : Int) (P : Bench → Prop)
    (hstep : ∀ b b', P b → BenchStep lat b b' → P b') :
    ∀ (acts : List BenchAct) (b b' : Bench), P b → b.run lat acts = some b' → P b' := by
  intro acts
  induction acts with
  | nil => intro b b' hp h; simp only [Bench.run, Option.some.injEq] at h; subst h; exact hp
  | cons a as ih =>
    intro b b' hp h
    simp only [Bench.run] at h
    cases ha : b.act lat a with
    | none => rw [ha] at h; exact absurd h (by simp)
    | some b1 =>
      rw [ha] at h
      exact ih b1 b' (hstep b b1 hp (act_benchStep lat b b1 a ha)) h

/-! ## A controller with requests that fit does not raise -/

theorem act_safe (lat : Int) (c c' : Ctrl) (a : CtrlAct) (size : Nat) (hlat : 0 ≤ lat) (hr : c.running = true)
    (hsize : c.mem.size = size) (hfit : ∀ r ∈ c.bus, Serviceable size r) (ha : a ≠ .stop)
    (h : c.act lat a = some c') : c'.crashed = none := by
  unfold Ctrl.act at h
  by_cases hc : c.crashed.isSome
  · rw [if_pos hc] at h; exact absurd h (by simp)
  rw [if_neg hc] at h
  have hcr : c.crashed = none := by simpa using hc
  cases a with
  | submit core start kind =>
    simp only [Option.some.injEq] at h
    subst h
    unfold Ctrl.submit
    rw [if_neg (by simp [hr])]
    exact hcr
  | pick =>
    simp only [Ctrl.pick] at h
    split at h
    · injection h with h; subst h; exact hcr
    · exact absurd h (by simp)
  | dispatch =>
    simp only [Ctrl.dispatch] at h
    split at h
    · split at h <;> (injection h with h; subst h; exact hcr)
    · exact absurd h (by simp)
  | grant =>
    simp only [Ctrl.grant] at h
    split at h
    · rename_i r rest h1 h2
      have hf := (hfit r (by rw [h1]; simp)).2.1
      rw [if_neg (by have := Int.mul_nonneg hlat hf; omega)] at h
      injection h with h; subst h; exact hcr
    · exact absurd h (by simp)
  | complete =>
    simp only [Ctrl.complete] at h
    split at h
    · rename_i r rest d h1 h2
      obtain ⟨⟨f1, f2⟩, f3, f4⟩ := hfit r (by rw [h1]; simp)
      split at h
      · exact absurd h (by simp)
      · split at h
        · rename_i b n hk
          have hpos := f4 (by simp [Req.isWrite, hk])
          have hrd : ∃ x : List I32 × Memory, c.mem.read r.start r.length r.numBatches = (.ok x.1, x.2) := by
            unfold Memory.read
            dsimp only
            rw [if_neg (by rw [hsize]; omega), if_neg (by omega)]
            exact ⟨(_, _), rfl⟩
          obtain ⟨x, hx⟩ := hrd
          rw [hx] at h
          injection h with h; subst h; exact hcr
        · rename_i data rows hk
          have hlen : r.length = data.length := by simp [Req.length, hk]
          have hwr : ∃ m, c.mem.write r.start data r.numBatches = (.ok (), m) := by
            unfold Memory.write
            dsimp only
            rw [if_neg (by rw [hsize]; omega)]
            exact ⟨_, rfl⟩
          obtain ⟨m, hm⟩ := hwr
          rw [hm] at h
          injection h with h; subst h; exact hcr
    · exact absurd h (by simp)
  | tick =>
    simp only [Ctrl.tick] at h
    split at h
    · injection h with h; subst h; exact hcr
    · exact absurd h (by simp)
  | stop => exact absurd rfl ha

/-! ## Remaining time -/

/-- Time that the bus still needs for what is on it. -/
def busRest (lat : Int) (bus : List Req) (deadline : Option Nat) (now : Nat) : Nat :=
  match bus with
  | [] => 0
  | r :: rest =>
    (match deadline with
     | none => serviceTime lat r
     | some d => d - now) + workload lat rest

/-- Time that the DRAM still needs for the requests that are not answered. -/
def Ctrl.restTime (lat : Int) (c : Ctrl) : Nat :=
  workload lat c.queue + workload lat c.handed.toList + workload lat c.pending
    + busRest lat c.bus c.deadline c.now

theorem workload_snoc (lat : Int) (rs : List Req) (r : Req) :
    workload lat (rs ++ [r]) = workload lat rs + serviceTime lat r := by
  simp [workload]

theorem busRest_none (lat : Int) (bus : List Req) (now : Nat) : busRest lat bus none now = workload lat bus := by
  cases bus <;> simp [busRest, workload]

theorem busRest_snoc (lat : Int) (bus : List Req) (deadline : Option Nat) (now : Nat) (r : Req)
    (h : bus = [] → deadline = none) :
    busRest lat (bus ++ [r]) deadline now = busRest lat bus deadline now + serviceTime lat r := by
  cases bus with
  | nil => rw [h rfl]; simp [busRest, workload]
  | cons x xs => simp [busRest, workload]; omega

/-- How an action of a running controller changes the remaining time. -/
def RestStep (lat : Int) (c c' : Ctrl) : CtrlAct → Prop
  | .submit core start kind => c'.now = c.now ∧ c'.restTime lat = c.restTime lat +
      serviceTime lat { id := 0, core := core, start := start, kind := kind, submitTime := 0 }
  | .tick => c'.now = c.now + 1 ∧ c'.restTime lat ≤ c.restTime lat ∧
      (c'.restTime lat + 1 ≤ c.restTime lat ∨ c.idle)
  | _ => c'.now = c.now ∧ c'.restTime lat = c.restTime lat ∧ ¬c.idle

/-- Requests are moved, not changed: the remaining time changes by submissions and by time. -/
theorem restTime_step (lat : Int) (m0 : Memory) (v0 : List Bool) (t0 : Nat) (c c' : Ctrl) (a : CtrlAct)
    (hi : CtrlInv lat m0 v0 t0 c) (halive : c.handlerAlive = true) (hc' : c'.crashed = none) (hs : a ≠ .stop)
    (h : c.act lat a = some c') :
    RestStep lat c c' a := by
  have hdl : c.bus = [] → c.deadline = none := by
    intro hb
    cases hd : c.deadline with
    | none => rfl
    | some d =>
      obtain ⟨r, rest, hb', -⟩ := hi.time.serving d hd
      rw [hb] at hb'; cases hb'
  have hst := act_step lat c c' a h
  clear h
  cases hst with
  | crash _ e => exact absurd hc' (by simp [Ctrl.crash])
  | stopped => exact absurd rfl hs
  | stop => exact absurd rfl hs
  | submit core start kind hr =>
    refine ⟨rfl, ?_⟩
    simp only [Ctrl.restTime, workload_snoc]
    have : serviceTime lat (c.newReq core start kind) =
      serviceTime lat { id := 0, core := core, start := start, kind := kind, submitTime := 0 } := rfl
    omega
  | pick r rest h1 h2 =>
    refine ⟨rfl, ?_, fun hid => by simp [hid.1] at h2⟩
    simp only [Ctrl.restTime, h1, h2, workload, Option.toList_some, Option.toList_none, List.map_cons, List.map_nil,
      List.sum_cons, List.sum_nil]
    omega
  | toBus r h1 h2 =>
    refine ⟨rfl, ?_, fun hid => by simp [hid.2.1] at h1⟩
    simp only [Ctrl.restTime, h1, busRest_snoc lat _ _ _ r hdl]
    simp only [workload, Option.toList_some, Option.toList_none, List.map_cons, List.map_nil,
      List.sum_cons, List.sum_nil]
    omega
  | toPending r h1 h2 h3 =>
    refine ⟨rfl, ?_, fun hid => by simp [hid.2.1] at h1⟩
    simp only [Ctrl.restTime, h1, workload_snoc]
    simp only [workload, Option.toList_some, Option.toList_none, List.map_cons, List.map_nil,
      List.sum_cons, List.sum_nil]
    omega
  | grant r rest h1 h2 h3 =>
    refine ⟨rfl, ?_, fun hid => by simp [hid.2.2] at h1⟩
    have : serviceTime lat r = (lat * r.numBatches).toNat := rfl
    simp only [Ctrl.restTime, h1, h2, busRest]
    omega
  | tick hq =>
    refine ⟨rfl, ?_⟩
    unfold Ctrl.quiescent at hq
    rw [halive] at hq
    simp only [Bool.not_true, Bool.false_or, Bool.and_eq_true, Option.isNone_iff_eq_none,
      List.isEmpty_iff] at hq
    obtain ⟨⟨q1, q2⟩, q3⟩ := hq
    cases hb : c.bus with
    | nil => exact ⟨by simp [Ctrl.restTime, hb, busRest], Or.inr ⟨q2, q1, hb⟩⟩
    | cons r rest =>
      cases hd : c.deadline with
      | none => rw [hb, hd] at q3; exact absurd q3 (by simp)
      | some d =>
        rw [hb, hd] at q3
        simp only [decide_eq_true_eq] at q3
        simp only [Ctrl.restTime, hb, hd, busRest]
        constructor
        · omega
        · left; omega
  | read r rest mem data h1 h2 h3 h4 =>
    refine ⟨rfl, ?_, fun hid => by simp [hid.2.2] at h1⟩
    simp only [Ctrl.restTime, h1, h2, busRest_none]
    simp only [busRest]
    omega
  | write r rest mem data rows h1 h2 h3 h4 =>
    refine ⟨rfl, ?_, fun hid => by simp [hid.2.2] at h1⟩
    simp only [Ctrl.restTime, h1, h2, busRest_none]
    rw [updateReady_release _ _ (pending_nodup c hi.line)]
    have hperm := ((release_perm (ready (pySliceSet c.valid r.start.toNat (List.replicate data.length true)))
      c.pending).map (serviceTime lat)).sum_eq
    generalize release (ready (pySliceSet c.valid r.start.toNat (List.replicate data.length true))) c.pending = u
      at hperm ⊢
    rw [List.map_append, List.sum_append] at hperm
    simp only [busRest, workload, List.map_append, List.sum_append]
    omega

/-- Time that a process still needs, apart from its answers. -/
def Client.restTime (lat : Int) (now : Nat) (cl : Client) : Nat :=
  match cl.wake, cl.todo with
  | some t, _ :: rest => (t - now) + cost lat rest
  | _, todo => cost lat todo

/-- Time that is still needed. -/
def Bench.restTime (lat : Int) (b : Bench) : Nat :=
  (b.clients.map (Client.restTime lat b.ctrl.now)).sum + b.ctrl.restTime lat

/-- Nothing is left to do. -/
def Bench.settled (b : Bench) : Prop :=
  (∀ cl ∈ b.clients, cl.todo = []) ∧ b.ctrl.idle ∧ b.ctrl.pending = []

end Ramwich
