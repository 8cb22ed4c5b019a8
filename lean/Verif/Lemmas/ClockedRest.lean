import Verif.Lemmas.ClockedProgress

/-! # The node with one clock: nothing but time passes -/
namespace Ramwich

open Spec Pipeline

section
variable {cfg : SysCfg} {l : StageLat} {f f' f'' : FSys} {i : SysInit}

theorem frun_append (as bs : List FAct) : ∀ {f : FSys}, f.run cfg l (as ++ bs) = (f.run cfg l as).bind fun g => g.run cfg l bs := by
  induction as with
  | nil => intro f; rfl
  | cons a as ih =>
    intro f
    simp only [List.cons_append, FSys.run]
    cases f.act cfg l a with
    | none => rfl
    | some g => exact ih

theorem frun_append_some {as bs : List FAct} (h : f.run cfg l as = some f') (h' : f'.run cfg l bs = some f'') :
    f.run cfg l (as ++ bs) = some f'' := by
  rw [frun_append, h]; exact h'

theorem rest_run {as : List FAct} (h : clockedRest cfg l f) (hr : f.run cfg l as = some f') : clockedRest cfg l f' := by
  intro bs g hg a ha
  exact h (as ++ bs) g (frun_append_some hr hg) a (by simp [ha])

theorem rest_act {a : FAct} (h : clockedRest cfg l f) (ha : idleAct a = false) : f.act cfg l a = none := by
  cases hf : f.act cfg l a with
  | none => rfl
  | some g =>
    have := h [a] g (by simp [FSys.run, hf]) a (by simp)
    rw [ha] at this
    cases this

/-! ## Looking again -/

/-- How often the processes that look at the queues still do so at the current time. -/
def FSys.polls (cfg : SysCfg) (f : FSys) : Nat :=
  (if f.clk.look = f.ts.now then 1 else 0) + ((List.range cfg.net.tiles).filter fun t => f.clk.check t = f.ts.now).length

theorem filter_upd {g : Nat → Nat} {x y t : Nat} (hx : g t = x) (hy : y ≠ x) {n : Nat} (ht : t < n) :
    ((List.range n).filter fun j => upd g t y j = x).length < ((List.range n).filter fun j => g j = x).length := by
  have h1 : ∀ n, ((List.range n).filter fun j => upd g t y j = x).length + (if t < n then 1 else 0) =
      ((List.range n).filter fun j => g j = x).length := by
    intro n
    induction n with
    | zero => rfl
    | succ n ih =>
      rw [List.range_succ, List.filter_append, List.filter_append, List.length_append, List.length_append, ← ih]
      by_cases hn : n = t
      · subst hn
        simp [upd_same, hx, hy]
      · rw [List.filter_singleton, List.filter_singleton, upd_ne _ _ _ _ hn]
        have : t < n + 1 ↔ t < n := by omega
        simp only [this]
        omega
  have := h1 n
  rw [if_pos ht] at this
  omega

/-- `f'` is `f`, `n` cycles later. -/
structure Later (f f' : FSys) (n : Nat) : Prop where
  now : f'.ts.now = f.ts.now + n
  net : f'.ts.sys.net = f.ts.sys.net
  crashed : f'.ts.sys.crashed = f.ts.sys.crashed
  tile : ∀ t, ∃ m, f'.ts.sys.tile t = { f.ts.sys.tile t with ctrl := { (f.ts.sys.tile t).ctrl with now := m } }
  pipe : ∀ t k, ∃ m, f'.ts.pipe t k = { f.ts.pipe t k with now := m }
  due : f'.ts.due = f.ts.due
  flight : f'.clk.flight = f.clk.flight
  adds : f'.clk.adds = f.clk.adds
  check : ∀ t, f.ts.sys.net.queue t = [] → f'.clk.check t = f.clk.check t

theorem Later.rfl' (f : FSys) : Later f f 0 :=
  ⟨rfl, rfl, rfl, fun t => ⟨(f.ts.sys.tile t).ctrl.now, rfl⟩, fun t k => ⟨(f.ts.pipe t k).now, rfl⟩, rfl, rfl, rfl, fun _ _ => rfl⟩

theorem Later.trans {n n' : Nat} (h : Later f f' n) (h' : Later f' f'' n') : Later f f'' (n + n') := by
  refine ⟨by rw [h'.now, h.now, Nat.add_assoc], h'.net.trans h.net, h'.crashed.trans h.crashed, fun t => ?_, fun t k => ?_,
    h'.due.trans h.due, h'.flight.trans h.flight, h'.adds.trans h.adds, fun t hq => ?_⟩
  · obtain ⟨m, e⟩ := h.tile t
    obtain ⟨m', e'⟩ := h'.tile t
    exact ⟨m', by rw [e', e]⟩
  · obtain ⟨m, e⟩ := h.pipe t k
    obtain ⟨m', e'⟩ := h'.pipe t k
    exact ⟨m', by rw [e', e]⟩
  · rw [h'.check t (by rw [h.net]; exact hq), h.check t hq]

/-- A process looks at the queues and finds nothing to do. -/
theorem later_poll {a : FAct} (h : f.act cfg l a = some f') (ha : idleAct a = true) (ht : a ≠ .t .tick) :
    Later f f' 0 ∧ f'.polls cfg < f.polls cfg := by
  have hc := fact_alive h
  unfold FSys.act at h
  rw [if_neg (by rw [hc]; simp)] at h
  cases a with
  | t b => cases b <;> first | exact absurd rfl ht | cases ha
  | recheck t =>
    dsimp only at h
    split at h
    swap
    · cases h
    rename_i hlt
    rw [Option.map_eq_some_iff] at h
    obtain ⟨k, h1, rfl⟩ := h
    unfold NetClock.recheck at h1
    split at h1
    swap
    · cases h1
    split at h1
    swap
    · cases h1
    rename_i hcond
    injection h1 with h1
    subst h1
    refine ⟨⟨rfl, rfl, rfl, fun t => ⟨(f.ts.sys.tile t).ctrl.now, rfl⟩, fun t k => ⟨(f.ts.pipe t k).now, rfl⟩, rfl, rfl, rfl,
      fun j hq => ?_⟩, ?_⟩
    · exact upd_ne _ _ _ _ fun e => by subst e; exact hcond.2 hq
    · unfold FSys.polls
      dsimp only
      have := filter_upd (g := f.clk.check) (y := f.ts.now + 1) hcond.1 (by omega) hlt
      omega
  | monitor =>
    dsimp only at h
    rw [Option.map_eq_some_iff] at h
    obtain ⟨k, h1, rfl⟩ := h
    unfold NetClock.monitor at h1
    split at h1
    swap
    · cases h1
    rename_i hlook
    injection h1 with h1
    subst h1
    refine ⟨⟨rfl, rfl, rfl, fun t => ⟨(f.ts.sys.tile t).ctrl.now, rfl⟩, fun t k => ⟨(f.ts.pipe t k).now, rfl⟩, rfl, rfl, rfl,
      fun j hq => rfl⟩, ?_⟩
    unfold FSys.polls
    dsimp only
    rw [if_pos hlook, if_neg (by omega)]
    omega

/-- Time passes. -/
theorem later_tick (h : f.act cfg l (.t .tick) = some f') : Later f f' 1 := by
  have hc := fact_alive h
  unfold FSys.act at h
  rw [if_neg (by rw [hc]; simp)] at h
  dsimp only at h
  split at h
  swap
  · cases h
  rw [Option.map_eq_some_iff] at h
  obtain ⟨ts, h1, rfl⟩ := h
  unfold TSys.act at h1
  rw [if_neg (by rw [hc]; simp)] at h1
  dsimp only at h1
  unfold TSys.tick at h1
  split at h1
  swap
  · cases h1
  injection h1 with h1
  subst h1
  refine ⟨rfl, rfl, rfl, fun t => ?_, fun t k => ?_, rfl, rfl, rfl, fun _ _ => rfl⟩
  · by_cases ht : t < cfg.net.tiles
    · exact ⟨(f.ts.sys.tile t).ctrl.now + 1, by dsimp only; rw [if_pos ht]; rfl⟩
    · exact ⟨(f.ts.sys.tile t).ctrl.now, by dsimp only; rw [if_neg ht]⟩
  · by_cases ht : cfg.hasCore t k = true
    · exact ⟨f.ts.now + 1, by dsimp only; rw [if_pos ht]⟩
    · exact ⟨(f.ts.pipe t k).now, by dsimp only; rw [if_neg ht]⟩

/-- When nothing happens any more, the next cycle comes. -/
theorem rest_tick (h0 : ∀ t, GoodStart (i.mem t) (i.valid t)) : ∀ n {f : FSys}, f.polls cfg = n → FInv cfg l i f →
    f.ts.sys.crashed = none → clockedRest cfg l f → ∃ as f', f.run cfg l as = some f' ∧ Later f f' 1 := by
  intro n
  induction n using Nat.strong_induction_on with
  | _ n ih =>
    intro f hn h hc hr
    obtain ⟨a, f1, ha⟩ := f_progress h0 h hc
    by_cases ht : a = .t .tick
    · subst ht
      exact ⟨[.t .tick], f1, by simp [FSys.run, ha], later_tick ha⟩
    · have hid : idleAct a = true := by
        by_contra hx
        rw [rest_act hr (by simpa using hx)] at ha
        cases ha
      obtain ⟨h1, h2⟩ := later_poll ha hid ht
      have hrun : f.run cfg l [a] = some f1 := by simp [FSys.run, ha]
      obtain ⟨as, f2, h3, h4⟩ := ih _ (by rw [← hn]; exact h2) rfl (finv_act h0 h ha) (by rw [h1.crashed]; exact hc) (rest_run hr hrun)
      exact ⟨[a] ++ as, f2, frun_append_some hrun h3, by simpa using h1.trans h4⟩

/-- When nothing happens any more, any number of cycles passes. -/
theorem rest_later (h0 : ∀ t, GoodStart (i.mem t) (i.valid t)) (h : FInv cfg l i f) (hc : f.ts.sys.crashed = none)
    (hr : clockedRest cfg l f) (n : Nat) : ∃ as f', f.run cfg l as = some f' ∧ Later f f' n := by
  induction n with
  | zero => exact ⟨[], f, rfl, .rfl' f⟩
  | succ n ih =>
    obtain ⟨as, f1, h1, h2⟩ := ih
    obtain ⟨bs, f2, h3, h4⟩ := rest_tick h0 _ rfl (finv_run h0 as h h1) (by rw [h2.crashed]; exact hc) (rest_run hr h1)
    exact ⟨as ++ bs, f2, frun_append_some h1 h3, h2.trans h4⟩

/-- A state at rest, at a given later time. -/
theorem rest_when (h0 : ∀ t, GoodStart (i.mem t) (i.valid t)) (h : FInv cfg l i f) (hc : f.ts.sys.crashed = none)
    (hr : clockedRest cfg l f) {d : Nat} (hd : f.ts.now ≤ d) :
    ∃ f' n, Later f f' n ∧ f'.ts.now = d ∧ FInv cfg l i f' ∧ f'.ts.sys.crashed = none ∧
      ∀ a, idleAct a = false → f'.act cfg l a = none := by
  obtain ⟨as, f', h1, h2⟩ := rest_later h0 h hc hr (d - f.ts.now)
  refine ⟨f', _, h2, ?_, finv_run h0 as h h1, by rw [h2.crashed]; exact hc, fun a ha => rest_act (rest_run hr h1) ha⟩
  rw [h2.now]; omega

end
end Ramwich
