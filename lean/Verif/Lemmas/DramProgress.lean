import Verif.Lemmas.DramAnswers

/-! # Progress of a DRAM controller -/
namespace Ramwich

open Spec

/-! ## The handler lives while the controller runs -/

theorem alive_step (lat : Int) (c c' : Ctrl) (h : c.running = c.handlerAlive) {act : CtrlAct} (st : CtrlStep lat c act c') :
    c'.running = c'.handlerAlive := by
  cases st <;> first | exact h | rfl

theorem alive_run (lat : Int) (m0 : Memory) (v0 : List Bool) (t0 : Nat) (acts : List CtrlAct) (c : Ctrl)
    (h : (Ctrl.started m0 v0 t0).run lat acts = some c) : c.running = c.handlerAlive :=
  run_induction lat (fun c => c.running = c.handlerAlive) (fun c c' _ h st => alive_step lat c c' h st) acts _ c rfl h

/-! ## Some action is possible -/

theorem not_idle_cases (c : Ctrl) (hr : c.handlerAlive = true) (hn : ¬c.idle) :
    (∃ r rest, c.handed = none ∧ c.queue = r :: rest) ∨ (∃ r, c.handed = some r) ∨
      (∃ r rest, c.handed = none ∧ c.queue = [] ∧ c.bus = r :: rest) := by
  cases hh : c.handed with
  | some r => exact Or.inr (Or.inl ⟨r, rfl⟩)
  | none =>
    cases hq : c.queue with
    | cons r rest => exact Or.inl ⟨r, rest, rfl, rfl⟩
    | nil =>
      cases hb : c.bus with
      | cons r rest => exact Or.inr (Or.inr ⟨r, rest, rfl, rfl, rfl⟩)
      | nil => exact absurd ⟨hq, hh, hb⟩ hn

theorem work_exists (lat : Int) (c : Ctrl) (hcr : c.crashed = none) (hr : c.handlerAlive = true)
    (hser : ∀ d, c.deadline = some d → c.now ≤ d) (hn : ¬c.idle) : ∃ a c', a.internal = true ∧ c.act lat a = some c' := by
  have hact : ∀ a, c.act lat a = match a with
    | .submit core start kind => some (c.submit core start kind)
    | .pick => c.pick
    | .dispatch => c.dispatch
    | .grant => c.grant lat
    | .complete => c.complete lat
    | .tick => c.tick
    | .stop => c.stop := by
    intro a
    unfold Ctrl.act
    rw [if_neg (by simp [hcr])]
    cases a <;> rfl
  rcases not_idle_cases c hr hn with ⟨r, rest, h1, h2⟩ | ⟨r, h1⟩ | ⟨r, rest, h1, h2, h3⟩
  · refine ⟨.pick, { c with handed := some r, queue := rest }, rfl, ?_⟩
    rw [hact]; simp [Ctrl.pick, h1, h2, hr]
  · by_cases hb : r.isWrite = true ∨ ready c.valid r = true
    · refine ⟨.dispatch, { c with handed := none, bus := c.bus ++ [r] }, rfl, ?_⟩
      rw [hact]; simp [Ctrl.dispatch, h1, hr, hb]
    · refine ⟨.dispatch, { c with handed := none, pending := c.pending ++ [r] }, rfl, ?_⟩
      rw [hact]; simp [Ctrl.dispatch, h1, hr, hb]
  · cases hd : c.deadline with
    | none =>
      by_cases hneg : lat * r.numBatches < 0
      · exact ⟨.grant, c.crash .valueError, rfl, by rw [hact]; simp [Ctrl.grant, h3, hd, hneg]⟩
      · exact ⟨.grant, { c with deadline := some (c.now + (lat * r.numBatches).toNat) }, rfl,
          by rw [hact]; simp [Ctrl.grant, h3, hd, hneg]⟩
    | some d =>
      by_cases hdn : d = c.now
      · have : ∃ c', c.complete lat = some c' := by
          unfold Ctrl.complete
          simp only [h3, hd, hdn, ne_eq, not_true_eq_false, if_false]
          split
          · split <;> exact ⟨_, rfl⟩
          · split <;> exact ⟨_, rfl⟩
        obtain ⟨c', hc'⟩ := this
        exact ⟨.complete, c', rfl, by rw [hact]; exact hc'⟩
      · have hlt : c.now < d := by have := hser d hd; omega
        refine ⟨.tick, { c with now := c.now + 1 }, rfl, ?_⟩
        rw [hact]
        have : c.quiescent = true := by simp [Ctrl.quiescent, h1, h2, h3, hd, hlt]
        simp [Ctrl.tick, this]

/-! ## Work ends -/

def svc (lat : Int) (r : Req) : Nat := (lat * r.numBatches).toNat

/-- Steps by which a request may still be sent to the waiting list. -/
def detour (valid : List Bool) (r : Req) : Nat := if r.isWrite = true ∨ ready valid r = true then 0 else 3

def busWeight (lat : Int) (bus : List Req) (deadline : Option Nat) (now : Nat) : Nat :=
  match bus with
  | [] => 0
  | r :: rest =>
    (match deadline with
     | none => 2 + svc lat r
     | some d => 1 + (d - now)) + (rest.map fun r => 2 + svc lat r).sum

def Ctrl.weight (lat : Int) (c : Ctrl) : Nat :=
  (c.queue.map fun r => 4 + svc lat r + detour c.valid r).sum
    + (c.handed.toList.map fun r => 3 + svc lat r + detour c.valid r).sum
    + (c.pending.map fun r => 5 + svc lat r).sum
    + busWeight lat c.bus c.deadline c.now

theorem busWeight_none (lat : Int) (bus : List Req) (now : Nat) :
    busWeight lat bus none now = (bus.map fun r => 2 + svc lat r).sum := by
  cases bus <;> simp [busWeight]

theorem busWeight_snoc (lat : Int) (bus : List Req) (deadline : Option Nat) (now : Nat) (r : Req)
    (h : bus = [] → deadline = none) :
    busWeight lat (bus ++ [r]) deadline now = busWeight lat bus deadline now + (2 + svc lat r) := by
  cases bus with
  | nil => rw [h rfl]; simp [busWeight]
  | cons x xs => simp [busWeight]; omega

theorem sum_map_le {α : Type} (l : List α) (f g : α → Nat) (h : ∀ x ∈ l, f x ≤ g x) :
    (l.map f).sum ≤ (l.map g).sum := by
  induction l with
  | nil => simp
  | cons x xs ih =>
    simp only [List.map_cons, List.sum_cons]
    have := h x (by simp)
    have := ih (fun y hy => h y (by simp [hy]))
    omega

theorem sum_map_add_one {α : Type} (l : List α) (f g : α → Nat) (h : ∀ x ∈ l, f x + 1 = g x) :
    (l.map f).sum + l.length = (l.map g).sum := by
  induction l with
  | nil => simp
  | cons x xs ih =>
    simp only [List.map_cons, List.sum_cons, List.length_cons]
    have := h x (by simp)
    have := ih (fun y hy => h y (by simp [hy]))
    omega

/-- What the work measure needs of a state. -/
structure Steady (lat : Int) (c : Ctrl) : Prop where
  alive : c.handlerAlive = true
  serving : ∀ d, c.deadline = some d → c.bus ≠ [] ∧ c.now ≤ d

theorem work_decreases (lat : Int) (m0 : Memory) (v0 : List Bool) (t0 : Nat) (c c' : Ctrl) (a : CtrlAct)
    (hi : CtrlInv lat m0 v0 t0 c) (halive : c.handlerAlive = true)
    (ha : a.internal = true) (hn : ¬c.idle) (h : c.act lat a = some c') :
    c'.crashed.isSome = true ∨ (c'.weight lat < c.weight lat ∧ c'.handlerAlive = true) := by
  have hdl : c.bus = [] → c.deadline = none := by
    intro hb
    cases hd : c.deadline with
    | none => rfl
    | some d =>
      obtain ⟨r, rest, hb', -⟩ := hi.time.serving d hd
      rw [hb] at hb'; cases hb'
  have hst := act_step lat c c' a h
  clear h
  cases hst with
  | crash _ e => exact Or.inl rfl
  | submit => exact absurd ha (by simp [CtrlAct.internal])
  | stopped => exact absurd ha (by simp [CtrlAct.internal])
  | stop => exact absurd ha (by simp [CtrlAct.internal])
  | pick r rest h1 h2 =>
    refine Or.inr ⟨?_, halive⟩
    simp only [Ctrl.weight, h1, h2, List.map_cons, List.sum_cons, Option.toList_some,
      Option.toList_none, List.map_nil, List.sum_nil]
    omega
  | toBus r h1 h2 =>
    refine Or.inr ⟨?_, halive⟩
    have hd : detour c.valid r = 0 := if_pos h2
    simp only [Ctrl.weight, h1, List.map_cons, List.sum_cons, Option.toList_some,
      Option.toList_none, List.map_nil, List.sum_nil, busWeight_snoc lat _ _ _ r hdl, hd]
    omega
  | toPending r h1 h2 h3 =>
    refine Or.inr ⟨?_, halive⟩
    have hd : detour c.valid r = 3 := if_neg (by simp [h2, h3])
    simp only [Ctrl.weight, h1, List.map_cons, List.sum_cons, Option.toList_some,
      Option.toList_none, List.map_nil, List.sum_nil, List.map_append, List.sum_append, hd]
    omega
  | grant r rest h1 h2 h3 =>
    refine Or.inr ⟨?_, halive⟩
    have : svc lat r = (lat * r.numBatches).toNat := rfl
    simp only [Ctrl.weight, h1, h2, busWeight]
    omega
  | tick hq =>
    refine Or.inr ⟨?_, halive⟩
    unfold Ctrl.quiescent at hq
    rw [halive] at hq
    simp only [Bool.not_true, Bool.false_or, Bool.and_eq_true, Option.isNone_iff_eq_none,
      List.isEmpty_iff] at hq
    obtain ⟨⟨q1, q2⟩, q3⟩ := hq
    cases hb : c.bus with
    | nil => exact absurd ⟨q2, q1, hb⟩ hn
    | cons r rest =>
      cases hd : c.deadline with
      | none => rw [hb, hd] at q3; exact absurd q3 (by simp)
      | some d =>
        rw [hb, hd] at q3
        simp only [decide_eq_true_eq] at q3
        simp only [Ctrl.weight, hb, hd, busWeight]
        omega
  | read r rest mem data h1 h2 h3 h4 =>
    refine Or.inr ⟨?_, halive⟩
    simp only [Ctrl.weight, h1, h2, busWeight_none]
    simp only [busWeight]
    omega
  | write r rest mem data rows h1 h2 h3 h4 =>
    refine Or.inr ⟨?_, halive⟩
    have hm := hi.mem
    obtain ⟨hs0, hs1, -, -⟩ := mem_write_inv h4
    have hb' : r.start.toNat + data.length ≤ c.valid.length := by
      have := hm.vlen; have := hm.size; omega
    rw [updateReady_release _ _ (pending_nodup c hi.line)]
    generalize hv : pySliceSet c.valid r.start.toNat (List.replicate data.length true) = v'
    have hmono : ∀ a, c.valid.getD a false = true → v'.getD a false = true := by
      intro a ha
      rw [← hv]
      exact valid_mono _ _ _ hb' a ha
    have hvl : v'.length = c.valid.length := by
      rw [← hv, pySliceSet_length _ _ _ (by rw [List.length_replicate]; exact hb')]
    have hdet : ∀ x, detour v' x ≤ detour c.valid x := by
      intro x
      unfold detour
      by_cases hx : x.isWrite = true ∨ ready c.valid x = true
      · rw [if_pos hx, if_pos (hx.imp id (ready_mono c.valid v' x hvl hmono))]
      · rw [if_neg hx]; split <;> omega
    have hperm := (((release_perm (ready v') c.pending).map fun r => 5 + svc lat r)).sum_eq
    have hrdy := release_ready (ready v') c.pending
    generalize release (ready v') c.pending = u at hperm hrdy ⊢
    rw [List.map_append, List.sum_append] at hperm
    have hq := sum_map_le c.queue (fun r => 4 + svc lat r + detour v' r)
      (fun r => 4 + svc lat r + detour c.valid r) (fun x _ => by have := hdet x; omega)
    have hh := sum_map_le c.handed.toList (fun r => 3 + svc lat r + detour v' r)
      (fun r => 3 + svc lat r + detour c.valid r) (fun x _ => by have := hdet x; omega)
    have hu := sum_map_le u.1 (fun r => 4 + svc lat r + detour v' r)
      (fun r => 5 + svc lat r) (fun x hx => by
        have : detour v' x = 0 := if_pos (Or.inr (hrdy x hx))
        omega)
    simp only [Ctrl.weight, h1, h2, busWeight_none, List.map_append, List.sum_append]
    simp only [busWeight]
    omega

theorem run_crashed (lat : Int) (c : Ctrl) (acts : List CtrlAct) (hc : c.crashed.isSome = true)
    (h : Works lat c acts) : acts = [] := by
  cases acts with
  | nil => rfl
  | cons a as =>
    obtain ⟨-, -, c', h, -⟩ := h
    unfold Ctrl.act at h
    rw [if_pos hc] at h
    exact absurd h (by simp)

theorem works_bound (lat : Int) (m0 : Memory) (v0 : List Bool) (t0 : Nat) :
    ∀ (acts : List CtrlAct) (c : Ctrl), CtrlInv lat m0 v0 t0 c → c.handlerAlive = true →
      Works lat c acts → acts.length ≤ c.weight lat + 1 := by
  intro acts
  induction acts with
  | nil => intro c _ _ _; simp
  | cons a as ih =>
    intro c hi hal h
    obtain ⟨h1, h2, c', h3, h4⟩ := h
    rcases work_decreases lat m0 v0 t0 c c' a hi hal h1 h2 h3 with hc | ⟨hw, hal'⟩
    · rw [run_crashed lat c' as hc h4]; simp
    · have := ih c' (ctrlInv_step lat m0 v0 t0 c c' hi (act_step lat c c' a h3)) hal' h4
      simp only [List.length_cons]
      omega

/-! ## Reads that are not ready -/

theorem release_short (ok : Req → Bool) (l : List Req) (hl : l.length ≤ 1) :
    ∀ r ∈ (release ok l).2, ok r = false := by
  match l, hl with
  | [], _ => simp [release]
  | [x], _ =>
    by_cases hx : ok x = true
    · simp [release, hx]
    · simp [release, hx]

def NoReady (c : Ctrl) : Prop := ∀ r ∈ c.pending, ready c.valid r = false

theorem noReady_step (lat : Int) (m0 : Memory) (v0 : List Bool) (t0 : Nat) (c c' : Ctrl)
    (hi : CtrlInv lat m0 v0 t0 c) (hp : c.pending.length ≤ 1) (h : NoReady c)
    {act : CtrlAct} (st : CtrlStep lat c act c') : NoReady c' := by
  cases st with
  | toPending r h1 h2 h3 =>
    intro x hx
    rcases List.mem_append.1 hx with hx | hx
    · exact h x hx
    · rw [List.mem_singleton.1 hx]; exact h3
  | write r rest mem data rows h1 h2 h3 h4 =>
    intro x hx
    dsimp only at hx ⊢
    rw [updateReady_release _ _ (pending_nodup c hi.line)] at hx
    exact release_short _ _ hp x hx
  | _ => exact h

theorem noReady_run (lat : Int) (m0 : Memory) (v0 : List Bool) (t0 : Nat) :
    ∀ (acts : List CtrlAct) (c c' : Ctrl), CtrlInv lat m0 v0 t0 c → NoReady c →
      (∀ pre s, pre <+: acts → c.run lat pre = some s → s.pending.length ≤ 1) →
      c.run lat acts = some c' → NoReady c' := by
  intro acts
  induction acts with
  | nil => intro c c' _ h _ hr; simp only [Ctrl.run, Option.some.injEq] at hr; subst hr; exact h
  | cons a as ih =>
    intro c c' hi h hp hr
    simp only [Ctrl.run] at hr
    cases ha : c.act lat a with
    | none => rw [ha] at hr; exact absurd hr (by simp)
    | some c1 =>
      rw [ha] at hr
      have st := act_step lat c c1 a ha
      refine ih c1 c' (ctrlInv_step lat m0 v0 t0 c c1 hi st)
        (noReady_step lat m0 v0 t0 c c1 hi (hp [] c (List.nil_prefix) rfl) h st) ?_ hr
      intro pre s hpre hs
      refine hp (a :: pre) s ?_ ?_
      · exact (List.prefix_cons_inj a).2 hpre
      · simp only [Ctrl.run, ha]; exact hs

/-! ## Waiting without writes -/

/-- The action submits no write. -/
def CtrlAct.noWrite : CtrlAct → Bool
  | .submit _ _ (.write ..) => false
  | _ => true

theorem pending_kept_step (lat : Int) (c c' : Ctrl) (hw : ∀ r ∈ c.line, r.isWrite = false)
    (a : CtrlAct) (ha : a.noWrite = true) (st : CtrlStep lat c a c') :
    (∀ r ∈ c'.line, r.isWrite = false) ∧ c.pending ⊆ c'.pending := by
  cases st with
  | submit core start kind hr =>
    refine ⟨?_, fun x hx => hx⟩
    intro x hx
    simp only [Ctrl.line, ← List.append_assoc] at hx
    rcases List.mem_append.1 hx with hx | hx
    · exact hw x hx
    · rw [List.mem_singleton.1 hx]
      cases kind with
      | read => rfl
      | write => exact absurd ha (by simp [CtrlAct.noWrite])
  | pick r rest h1 h2 =>
    refine ⟨?_, fun x hx => hx⟩
    intro x hx
    apply hw x
    simp only [Ctrl.line, h1, h2] at hx ⊢
    simpa using hx
  | toBus r h1 h2 =>
    refine ⟨?_, fun x hx => hx⟩
    intro x hx
    apply hw x
    simp only [Ctrl.line, h1] at hx ⊢
    simpa using hx
  | toPending r h1 h2 h3 =>
    refine ⟨?_, fun x hx => List.mem_append_left _ hx⟩
    intro x hx
    apply hw x
    simp only [Ctrl.line, h1] at hx ⊢
    simp only [Option.toList_none, List.append_nil, List.mem_append] at hx
    simp only [Option.toList_some, List.mem_append, List.mem_singleton]
    rcases hx with hx | hx
    · exact Or.inl (Or.inl hx)
    · exact Or.inr hx
  | read r rest mem data h1 h2 h3 h4 =>
    refine ⟨?_, fun x hx => hx⟩
    intro x hx
    apply hw x
    simp only [Ctrl.line, h1] at hx ⊢
    simp only [List.cons_append]
    exact List.mem_cons_of_mem _ hx
  | write r rest mem data rows h1 h2 h3 h4 =>
    have := hw r (by simp [Ctrl.line, h1])
    rw [(isWrite_of_kind h3).1] at this
    exact absurd this (by simp)
  | _ => exact ⟨hw, fun x hx => hx⟩

theorem pending_kept (lat : Int) :
    ∀ (acts : List CtrlAct) (c c' : Ctrl), (∀ r ∈ c.line, r.isWrite = false) →
      (∀ a ∈ acts, a.noWrite = true) → c.run lat acts = some c' → c.pending ⊆ c'.pending := by
  intro acts
  induction acts with
  | nil => intro c c' _ _ hr; simp only [Ctrl.run, Option.some.injEq] at hr; subst hr; exact fun x hx => hx
  | cons a as ih =>
    intro c c' hw hn hr
    simp only [Ctrl.run] at hr
    cases ha : c.act lat a with
    | none => rw [ha] at hr; exact absurd hr (by simp)
    | some c1 =>
      rw [ha] at hr
      have st := pending_kept_step lat c c1 hw a (hn a (by simp)) (act_step lat c c1 a ha)
      have := ih c1 c' st.1 (fun x hx => hn x (by simp [hx])) hr
      exact fun x hx => this (st.2 hx)

end Ramwich
