import Verif.Spec.Pipeline
import Verif.Lemmas.Lists
import Mathlib.Algebra.BigOperators.Group.Finset.Basic
import Mathlib.Tactic.Ring
import Mathlib.Tactic.Linarith

/-! # Invariants of the pipeline -/
namespace Ramwich.Pipeline

variable {α : Type} {hlt : α → Bool} {n : Nat} {prog : List α}

/-- The operation the stage is working on or has just handed on. -/
def Ctl.current : Ctl α → Option α
  | .busy op => some op
  | .putting op => some op
  | .after op => some op
  | _ => none

theorem upd_same {β : Type} (f : Nat → β) (i : Nat) (b : β) : upd f i b i = b := if_pos rfl
theorem upd_ne {β : Type} (f : Nat → β) (i j : Nat) (b : β) (h : j ≠ i) : upd f i b j = f j := if_neg h

/-- Invariant of the pipeline. -/
structure Inv (hlt : α → Bool) (n : Nat) (prog : List α) (s : State α) : Prop where
  /-- everything fed is accepted by stage 0, in flight to it, or still waiting -/
  feed : prog = s.accepted 0 ++ (s.ctl 0).taken ++ s.buf 0 ++ s.feed
  /-- everything stage `i` accepted is accepted by the next one, in flight to it, or still held -/
  link : ∀ i, i + 1 < n →
    s.accepted i = s.accepted (i + 1) ++ (s.ctl (i + 1)).taken ++ s.buf (i + 1) ++ (s.ctl i).held
  cap : ∀ i, (s.buf i).length ≤ 1
  /-- a stage outside its loop body has accepted no hlt -/
  quiet : ∀ i, i < n → s.ctl i = .idle ∨ (∃ op, s.ctl i = .got op) → ∀ op ∈ s.accepted i, hlt op = false
  /-- a stage in its loop body works on the last operation it accepted -/
  work : ∀ i, i < n → ∀ op, (s.ctl i).current = some op →
    ∃ pre, s.accepted i = pre ++ [op] ∧ ∀ x ∈ pre, hlt x = false
  stop : ∀ i, i < n → s.ctl i = .stopped →
    ∃ pre op, s.accepted i = pre ++ [op] ∧ hlt op = true ∧ ∀ x ∈ pre, hlt x = false
  comp : ∀ i, i < n → (s.completed i = true ↔ s.ctl i = .stopped)
  mon : s.monitor ≤ n ∧ ∀ i, i < s.monitor → s.completed i = true
  fin : s.done = true → s.monitor = n
  last : ∀ i op, s.ctl i = .putting op → i + 1 < n

theorem inv_init : Inv hlt n prog (init prog) where
  feed := by simp [init, Ctl.taken]
  link := by intro i _; simp [init, Ctl.taken, Ctl.held]
  cap := by intro i; simp [init]
  quiet := by intro i _ _ op h; simp [init] at h
  work := by intro i _ op h; simp [init, Ctl.current] at h
  stop := by intro i _ h; simp [init] at h
  comp := by intro i _; simp [init]
  mon := by simp [init]
  fin := by simp [init]
  last := by intro i op h; simp [init] at h

theorem inv_step (hn : 0 < n) {s t : State α} (h : Inv hlt n prog s) (hst : Step hlt n s t) :
    Inv hlt n prog t := by
  cases hst with
  | feedIn op rest hf hb =>
    have hb0 : s.buf 0 = [] := by
      unfold capacity at hb; exact List.length_eq_zero_iff.1 (by omega)
    refine ⟨?_, ?_, ?_, h.quiet, h.work, h.stop, h.comp, h.mon, h.fin, h.last⟩
    · rw [h.feed, hf]; simp [upd_same, hb0]
    · intro i hi; dsimp only; rw [upd_ne _ _ _ _ (by omega)]; exact h.link i hi
    · intro i; dsimp only
      by_cases hi : i = 0
      · subst hi; simp [upd_same, hb0]
      · rw [upd_ne _ _ _ _ hi]; exact h.cap i
  | take i hi op rest hc hb =>
    have hrest : rest = [] := by
      have := h.cap i; rw [hb] at this
      exact List.length_eq_zero_iff.1 (by simpa using this)
    subst hrest
    refine ⟨?_, ?_, ?_, ?_, ?_, ?_, ?_, h.mon, h.fin, ?_⟩
    · dsimp only
      by_cases h0 : i = 0
      · subst h0
        rw [h.feed, hc, hb]; simp [upd_same, Ctl.taken]
      · rw [upd_ne _ _ _ _ (Ne.symm h0), upd_ne _ _ _ _ (Ne.symm h0)]; exact h.feed
    · intro j hj
      dsimp only
      have hl := h.link j hj
      by_cases h1 : j + 1 = i
      · subst h1
        rw [upd_same, upd_same, upd_ne _ _ _ _ (by omega), hl, hc, hb]
        simp [Ctl.taken]
      · rw [upd_ne _ _ _ _ h1, upd_ne _ _ _ _ h1]
        by_cases h2 : j = i
        · subst h2; rw [upd_same, hl, hc]; simp [Ctl.held]
        · rw [upd_ne _ _ _ _ h2]; exact hl
    · intro j; dsimp only
      by_cases hj : j = i
      · subst hj; simp [upd_same]
      · rw [upd_ne _ _ _ _ hj]; exact h.cap j
    · intro j hj hq
      dsimp only at hq ⊢
      by_cases hji : j = i
      · subst hji; exact h.quiet j hj (Or.inl hc)
      · rw [upd_ne _ _ _ _ hji] at hq; exact h.quiet j hj hq
    · intro j hj o ho
      dsimp only at ho ⊢
      by_cases hji : j = i
      · subst hji; rw [upd_same] at ho; cases ho
      · rw [upd_ne _ _ _ _ hji] at ho; exact h.work j hj o ho
    · intro j hj ho
      dsimp only at ho ⊢
      by_cases hji : j = i
      · subst hji; rw [upd_same] at ho; cases ho
      · rw [upd_ne _ _ _ _ hji] at ho; exact h.stop j hj ho
    · intro j hj
      dsimp only
      by_cases hji : j = i
      · subst hji; rw [upd_same, h.comp j hj, hc]; simp
      · rw [upd_ne _ _ _ _ hji]; exact h.comp j hj
    · intro j o ho
      dsimp only at ho
      by_cases hji : j = i
      · subst hji; rw [upd_same] at ho; cases ho
      · rw [upd_ne _ _ _ _ hji] at ho; exact h.last j o ho
  | start i hi op hc =>
    refine ⟨?_, ?_, h.cap, ?_, ?_, ?_, ?_, h.mon, h.fin, ?_⟩
    · dsimp only
      by_cases h0 : i = 0
      · subst h0
        rw [h.feed, hc]; simp [upd_same, Ctl.taken]
      · rw [upd_ne _ _ _ _ (Ne.symm h0), upd_ne _ _ _ _ (Ne.symm h0)]; exact h.feed
    · intro j hj
      dsimp only
      have hl := h.link j hj
      by_cases h1 : j + 1 = i
      · subst h1
        rw [upd_same, upd_same, upd_ne _ _ _ _ (by omega), upd_ne _ _ _ _ (by omega), hl, hc]
        simp [Ctl.taken]
      · rw [upd_ne _ _ _ _ h1, upd_ne _ _ _ _ h1]
        by_cases h2 : j = i
        · subst h2; rw [upd_same, upd_same, hl, hc]; simp [Ctl.held]
        · rw [upd_ne _ _ _ _ h2, upd_ne _ _ _ _ h2]; exact hl
    · intro j hj hq
      dsimp only at hq ⊢
      by_cases hji : j = i
      · subst hji; rw [upd_same] at hq
        rcases hq with hq | ⟨o, hq⟩ <;> cases hq
      · rw [upd_ne _ _ _ _ hji] at hq ⊢; exact h.quiet j hj hq
    · intro j hj o ho
      dsimp only at ho ⊢
      by_cases hji : j = i
      · subst hji
        rw [upd_same] at ho ⊢
        simp only [Ctl.current, Option.some.injEq] at ho
        subst ho
        exact ⟨s.accepted j, rfl, h.quiet j hj (Or.inr ⟨_, hc⟩)⟩
      · rw [upd_ne _ _ _ _ hji] at ho ⊢; exact h.work j hj o ho
    · intro j hj ho
      dsimp only at ho ⊢
      by_cases hji : j = i
      · subst hji; rw [upd_same] at ho; cases ho
      · rw [upd_ne _ _ _ _ hji] at ho ⊢; exact h.stop j hj ho
    · intro j hj
      dsimp only
      by_cases hji : j = i
      · subst hji; rw [upd_same, h.comp j hj, hc]; simp
      · rw [upd_ne _ _ _ _ hji]; exact h.comp j hj
    · intro j o ho
      dsimp only at ho
      by_cases hji : j = i
      · subst hji; rw [upd_same] at ho; cases ho
      · rw [upd_ne _ _ _ _ hji] at ho; exact h.last j o ho
  | finish i hi op hc =>
    refine ⟨?_, ?_, h.cap, ?_, ?_, ?_, ?_, h.mon, h.fin, ?_⟩
    · dsimp only
      by_cases h0 : i = 0
      · subst h0
        rw [h.feed, hc, upd_same]; split <;> simp [Ctl.taken]
      · rw [upd_ne _ _ _ _ (Ne.symm h0)]; exact h.feed
    · intro j hj
      dsimp only
      have hl := h.link j hj
      by_cases h1 : j + 1 = i
      · subst h1
        rw [upd_same, upd_ne _ _ _ _ (by omega), hl, hc]
        split <;> simp [Ctl.taken]
      · rw [upd_ne _ _ _ _ h1]
        by_cases h2 : j = i
        · subst h2; rw [upd_same, hl, hc, if_neg (by omega)]; simp [Ctl.held]
        · rw [upd_ne _ _ _ _ h2]; exact hl
    · intro j hj hq
      dsimp only at hq ⊢
      by_cases hji : j = i
      · subst hji; rw [upd_same] at hq
        split at hq <;> rcases hq with hq | ⟨o, hq⟩ <;> cases hq
      · rw [upd_ne _ _ _ _ hji] at hq; exact h.quiet j hj hq
    · intro j hj o ho
      dsimp only at ho ⊢
      by_cases hji : j = i
      · subst hji
        rw [upd_same] at ho
        apply h.work j hj o
        rw [hc]
        split at ho <;> exact ho
      · rw [upd_ne _ _ _ _ hji] at ho; exact h.work j hj o ho
    · intro j hj ho
      dsimp only at ho ⊢
      by_cases hji : j = i
      · subst hji; rw [upd_same] at ho; split at ho <;> cases ho
      · rw [upd_ne _ _ _ _ hji] at ho; exact h.stop j hj ho
    · intro j hj
      dsimp only
      by_cases hji : j = i
      · subst hji; rw [upd_same, h.comp j hj, hc]; split <;> simp
      · rw [upd_ne _ _ _ _ hji]; exact h.comp j hj
    · intro j o ho
      dsimp only at ho
      by_cases hji : j = i
      · subst hji
        rw [upd_same] at ho
        split at ho
        · cases ho
        · omega
      · rw [upd_ne _ _ _ _ hji] at ho; exact h.last j o ho
  | putIn i hi op hc hb =>
    have hb0 : s.buf (i + 1) = [] := by
      unfold capacity at hb; exact List.length_eq_zero_iff.1 (by omega)
    refine ⟨?_, ?_, ?_, ?_, ?_, ?_, ?_, h.mon, h.fin, ?_⟩
    · dsimp only
      rw [upd_ne _ _ _ _ (by omega : (0 : Nat) ≠ i + 1)]
      by_cases h0 : i = 0
      · subst h0
        rw [h.feed, hc]; simp [upd_same, Ctl.taken]
      · rw [upd_ne _ _ _ _ (Ne.symm h0)]; exact h.feed
    · intro j hj
      dsimp only
      have hl := h.link j hj
      by_cases h1 : j = i
      · subst h1
        rw [upd_same, upd_same, upd_ne _ _ _ _ (by omega), hl, hc, hb0]
        simp [Ctl.held]
      · rw [upd_ne _ _ _ _ (by omega : j + 1 ≠ i + 1), upd_ne _ _ _ _ h1]
        by_cases h2 : j + 1 = i
        · subst h2; rw [upd_same, hl, hc]; simp [Ctl.taken]
        · rw [upd_ne _ _ _ _ h2]; exact hl
    · intro j; dsimp only
      by_cases hj : j = i + 1
      · subst hj; simp [upd_same, hb0]
      · rw [upd_ne _ _ _ _ hj]; exact h.cap j
    · intro j hj hq
      dsimp only at hq ⊢
      by_cases hji : j = i
      · subst hji; rw [upd_same] at hq
        rcases hq with hq | ⟨o, hq⟩ <;> cases hq
      · rw [upd_ne _ _ _ _ hji] at hq; exact h.quiet j hj hq
    · intro j hj o ho
      dsimp only at ho ⊢
      by_cases hji : j = i
      · subst hji
        rw [upd_same] at ho
        apply h.work j hj o
        rw [hc]
        exact ho
      · rw [upd_ne _ _ _ _ hji] at ho; exact h.work j hj o ho
    · intro j hj ho
      dsimp only at ho ⊢
      by_cases hji : j = i
      · subst hji; rw [upd_same] at ho; cases ho
      · rw [upd_ne _ _ _ _ hji] at ho; exact h.stop j hj ho
    · intro j hj
      dsimp only
      by_cases hji : j = i
      · subst hji; rw [upd_same, h.comp j hj, hc]; simp
      · rw [upd_ne _ _ _ _ hji]; exact h.comp j hj
    · intro j o ho
      dsimp only at ho
      by_cases hji : j = i
      · subst hji; rw [upd_same] at ho; cases ho
      · rw [upd_ne _ _ _ _ hji] at ho; exact h.last j o ho
  | again i hi op hc hh =>
    have hall : ∀ x ∈ s.accepted i, hlt x = false := by
      obtain ⟨pre, hp, hx⟩ := h.work i hi op (by rw [hc]; rfl)
      intro x hx'
      rw [hp] at hx'
      rcases List.mem_append.1 hx' with hx' | hx'
      · exact hx x hx'
      · rw [List.mem_singleton.1 hx']; exact hh
    refine ⟨?_, ?_, h.cap, ?_, ?_, ?_, ?_, h.mon, h.fin, ?_⟩
    · dsimp only
      by_cases h0 : i = 0
      · subst h0
        rw [h.feed, hc]; simp [upd_same, Ctl.taken]
      · rw [upd_ne _ _ _ _ (Ne.symm h0)]; exact h.feed
    · intro j hj
      dsimp only
      have hl := h.link j hj
      by_cases h1 : j + 1 = i
      · subst h1
        rw [upd_same, upd_ne _ _ _ _ (by omega), hl, hc]
        simp [Ctl.taken]
      · rw [upd_ne _ _ _ _ h1]
        by_cases h2 : j = i
        · subst h2; rw [upd_same, hl, hc]; simp [Ctl.held]
        · rw [upd_ne _ _ _ _ h2]; exact hl
    · intro j hj hq
      dsimp only at hq ⊢
      by_cases hji : j = i
      · subst hji; exact hall
      · rw [upd_ne _ _ _ _ hji] at hq; exact h.quiet j hj hq
    · intro j hj o ho
      dsimp only at ho ⊢
      by_cases hji : j = i
      · subst hji; rw [upd_same] at ho; cases ho
      · rw [upd_ne _ _ _ _ hji] at ho; exact h.work j hj o ho
    · intro j hj ho
      dsimp only at ho ⊢
      by_cases hji : j = i
      · subst hji; rw [upd_same] at ho; cases ho
      · rw [upd_ne _ _ _ _ hji] at ho; exact h.stop j hj ho
    · intro j hj
      dsimp only
      by_cases hji : j = i
      · subst hji; rw [upd_same, h.comp j hj, hc]; simp
      · rw [upd_ne _ _ _ _ hji]; exact h.comp j hj
    · intro j o ho
      dsimp only at ho
      by_cases hji : j = i
      · subst hji; rw [upd_same] at ho; cases ho
      · rw [upd_ne _ _ _ _ hji] at ho; exact h.last j o ho
  | stop i hi op hc hh =>
    refine ⟨?_, ?_, h.cap, ?_, ?_, ?_, ?_, ⟨h.mon.1, ?_⟩, h.fin, ?_⟩
    · dsimp only
      by_cases h0 : i = 0
      · subst h0
        rw [h.feed, hc]; simp [upd_same, Ctl.taken]
      · rw [upd_ne _ _ _ _ (Ne.symm h0)]; exact h.feed
    · intro j hj
      dsimp only
      have hl := h.link j hj
      by_cases h1 : j + 1 = i
      · subst h1
        rw [upd_same, upd_ne _ _ _ _ (by omega), hl, hc]
        simp [Ctl.taken]
      · rw [upd_ne _ _ _ _ h1]
        by_cases h2 : j = i
        · subst h2; rw [upd_same, hl, hc]; simp [Ctl.held]
        · rw [upd_ne _ _ _ _ h2]; exact hl
    · intro j hj hq
      dsimp only at hq ⊢
      by_cases hji : j = i
      · subst hji; rw [upd_same] at hq
        rcases hq with hq | ⟨o, hq⟩ <;> cases hq
      · rw [upd_ne _ _ _ _ hji] at hq; exact h.quiet j hj hq
    · intro j hj o ho
      dsimp only at ho ⊢
      by_cases hji : j = i
      · subst hji; rw [upd_same] at ho; cases ho
      · rw [upd_ne _ _ _ _ hji] at ho; exact h.work j hj o ho
    · intro j hj ho
      dsimp only at ho ⊢
      by_cases hji : j = i
      · subst hji
        obtain ⟨pre, hp, hx⟩ := h.work j hj op (by rw [hc]; rfl)
        exact ⟨pre, op, hp, hh, hx⟩
      · rw [upd_ne _ _ _ _ hji] at ho; exact h.stop j hj ho
    · intro j hj
      dsimp only
      by_cases hji : j = i
      · subst hji; rw [upd_same, upd_same]; simp
      · rw [upd_ne _ _ _ _ hji, upd_ne _ _ _ _ hji]; exact h.comp j hj
    · intro j hj
      dsimp only at hj ⊢
      by_cases hji : j = i
      · subst hji; rw [upd_same]
      · rw [upd_ne _ _ _ _ hji]; exact h.mon.2 j hj
    · intro j o ho
      dsimp only at ho
      by_cases hji : j = i
      · subst hji; rw [upd_same] at ho; cases ho
      · rw [upd_ne _ _ _ _ hji] at ho; exact h.last j o ho
  | monitor hm hc =>
    refine ⟨h.feed, h.link, h.cap, h.quiet, h.work, h.stop, h.comp, ⟨hm, ?_⟩, ?_, h.last⟩
    · intro j hj
      dsimp only at hj ⊢
      by_cases hjm : j = s.monitor
      · subst hjm; exact hc
      · exact h.mon.2 j (by omega)
    · intro hd; have := h.fin hd; omega
  | signal hm hd =>
    exact ⟨h.feed, h.link, h.cap, h.quiet, h.work, h.stop, h.comp, h.mon, fun _ => hm, h.last⟩


theorem inv_reach (hn : 0 < n) {s : State α} (h : Reach hlt n prog s) : Inv hlt n prog s := by
  induction h with
  | init => exact inv_init
  | step _ hst ih => exact inv_step hn ih hst

/-- Each stage's history is a prefix of the previous one's. -/
theorem Inv.prefix_succ {s : State α} (h : Inv hlt n prog s) {i : Nat} (hi : i + 1 < n) :
    s.accepted (i + 1) <+: s.accepted i := by
  rw [h.link i hi, List.append_assoc, List.append_assoc]
  exact List.prefix_append _ _

theorem Inv.prefix_le {s : State α} (h : Inv hlt n prog s) {i j : Nat} (hij : i ≤ j) (hj : j < n) :
    s.accepted j <+: s.accepted i := by
  induction j with
  | zero => rw [Nat.le_zero.1 hij]
  | succ j ih =>
    by_cases he : i = j + 1
    · rw [he]
    · exact (h.prefix_succ hj).trans (ih (by omega) (by omega))

theorem Inv.prefix_prog {s : State α} (h : Inv hlt n prog s) {i : Nat} (hi : i < n) :
    s.accepted i <+: prog := by
  have h0 : s.accepted 0 <+: prog := by
    conv_rhs => rw [h.feed]
    rw [List.append_assoc, List.append_assoc]
    exact List.prefix_append _ _
  exact (h.prefix_le (Nat.zero_le i) hi).trans h0

/-! ## Termination -/

/-- Work left for an operation in the control state of stage `i`. -/
def Ctl.weight (n i : Nat) : Ctl α → Nat
  | .idle => 0
  | .got _ => 5 * (n - i) - 1
  | .busy _ => 5 * (n - i) - 2
  | .putting _ => 5 * (n - i) - 3
  | .after _ => 1
  | .stopped => 0

theorem weight_idle (n i : Nat) : (Ctl.idle : Ctl α).weight n i = 0 := rfl
theorem weight_got (n i : Nat) (op : α) : (Ctl.got op).weight n i = 5 * (n - i) - 1 := rfl
theorem weight_busy (n i : Nat) (op : α) : (Ctl.busy op).weight n i = 5 * (n - i) - 2 := rfl
theorem weight_putting (n i : Nat) (op : α) : (Ctl.putting op).weight n i = 5 * (n - i) - 3 := rfl
theorem weight_after (n i : Nat) (op : α) : (Ctl.after op).weight n i = 1 := rfl
theorem weight_stopped (n i : Nat) : (Ctl.stopped : Ctl α).weight n i = 0 := rfl

/-- Work left in the whole pipeline. -/
def weight (n : Nat) (s : State α) : Nat :=
  s.feed.length * (5 * n + 1) +
    (Finset.range n).sum (fun i => (s.buf i).length * (5 * (n - i)) + (s.ctl i).weight n i) +
    (n - s.monitor) + (if s.done then 0 else 1)

theorem sum_upd (f g : Nat → Nat) (i : Nat) (hi : i < n) (h : ∀ j, j < n → j ≠ i → g j = f j) :
    (Finset.range n).sum g + f i = (Finset.range n).sum f + g i := by
  have hm : i ∈ Finset.range n := Finset.mem_range.2 hi
  rw [← Finset.add_sum_erase _ g hm, ← Finset.add_sum_erase _ f hm]
  have : ∑ x ∈ (Finset.range n).erase i, g x = ∑ x ∈ (Finset.range n).erase i, f x := by
    apply Finset.sum_congr rfl
    intro j hj
    have := Finset.mem_erase.1 hj
    exact h j (Finset.mem_range.1 this.2) this.1
  omega

theorem weight_step {s t : State α} (hn : 0 < n) (hst : Step hlt n s t) :
    weight n t < weight n s := by
  cases hst with
  | feedIn op rest hf hb =>
    unfold weight
    dsimp only
    have := sum_upd (n := n) (fun i => (s.buf i).length * (5 * (n - i)) + (s.ctl i).weight n i)
      (fun i => (upd s.buf 0 (s.buf 0 ++ [op]) i).length * (5 * (n - i)) + (s.ctl i).weight n i) 0 hn
      (by intro j _ hj; simp only [upd_ne _ _ _ _ hj])
    simp only [upd_same, List.length_append, List.length_singleton, Nat.add_mul] at this
    rw [hf]
    simp only [List.length_cons, Nat.add_mul]
    omega
  | take i hi op rest hc hb =>
    unfold weight
    dsimp only
    have := sum_upd (n := n) (fun i => (s.buf i).length * (5 * (n - i)) + (s.ctl i).weight n i)
      (fun j => (upd s.buf i rest j).length * (5 * (n - j)) + (upd s.ctl i (Ctl.got op) j).weight n j) i hi
      (by intro j _ hj; simp only [upd_ne _ _ _ _ hj])
    simp only [upd_same, hc, hb, weight_idle, weight_got, List.length_cons, Nat.add_mul] at this
    omega
  | start i hi op hc =>
    unfold weight
    dsimp only
    have := sum_upd (n := n) (fun i => (s.buf i).length * (5 * (n - i)) + (s.ctl i).weight n i)
      (fun j => (s.buf j).length * (5 * (n - j)) + (upd s.ctl i (Ctl.busy op) j).weight n j) i hi
      (by intro j _ hj; simp only [upd_ne _ _ _ _ hj])
    simp only [upd_same, hc, weight_idle, weight_got, weight_busy, weight_putting, weight_after, weight_stopped] at this
    omega
  | finish i hi op hc =>
    unfold weight
    dsimp only
    have := sum_upd (n := n) (fun i => (s.buf i).length * (5 * (n - i)) + (s.ctl i).weight n i)
      (fun j => (s.buf j).length * (5 * (n - j)) +
        (upd s.ctl i (if i + 1 = n then Ctl.after op else Ctl.putting op) j).weight n j) i hi
      (by intro j _ hj; simp only [upd_ne _ _ _ _ hj])
    simp only [upd_same, hc] at this
    by_cases hl : i + 1 = n
    · simp only [if_pos hl, weight_busy, weight_after] at this ⊢
      omega
    · simp only [if_neg hl, weight_busy, weight_putting] at this ⊢
      omega
  | putIn i hi op hc hb =>
    unfold weight
    dsimp only
    have h1 := sum_upd (n := n) (fun i => (s.buf i).length * (5 * (n - i)) + (s.ctl i).weight n i)
      (fun j => (s.buf j).length * (5 * (n - j)) + (upd s.ctl i (Ctl.after op) j).weight n j) i hi
      (by intro j _ hj; simp only [upd_ne _ _ _ _ hj])
    simp only [upd_same, hc, weight_idle, weight_got, weight_busy, weight_putting, weight_after, weight_stopped] at h1
    by_cases hl : i + 1 < n
    · have h2 := sum_upd (n := n)
        (fun j => (s.buf j).length * (5 * (n - j)) + (upd s.ctl i (Ctl.after op) j).weight n j)
        (fun j => (upd s.buf (i + 1) (s.buf (i + 1) ++ [op]) j).length * (5 * (n - j)) +
          (upd s.ctl i (Ctl.after op) j).weight n j) (i + 1) hl
        (by intro j _ hj; simp only [upd_ne _ _ _ _ hj])
      simp only [upd_same, List.length_append, List.length_singleton, Nat.add_mul] at h2
      omega
    · have h2 : (Finset.range n).sum (fun j => (upd s.buf (i + 1) (s.buf (i + 1) ++ [op]) j).length * (5 * (n - j)) +
          (upd s.ctl i (Ctl.after op) j).weight n j)
          = (Finset.range n).sum (fun j => (s.buf j).length * (5 * (n - j)) +
            (upd s.ctl i (Ctl.after op) j).weight n j) := by
        apply Finset.sum_congr rfl
        intro j hj
        have := Finset.mem_range.1 hj
        rw [upd_ne _ _ _ _ (by omega)]
      rw [h2]
      omega
  | again i hi op hc hh =>
    unfold weight
    dsimp only
    have := sum_upd (n := n) (fun i => (s.buf i).length * (5 * (n - i)) + (s.ctl i).weight n i)
      (fun j => (s.buf j).length * (5 * (n - j)) + (upd s.ctl i (Ctl.idle : Ctl α) j).weight n j) i hi
      (by intro j _ hj; simp only [upd_ne _ _ _ _ hj])
    simp only [upd_same, hc, weight_idle, weight_got, weight_busy, weight_putting, weight_after, weight_stopped] at this
    omega
  | stop i hi op hc hh =>
    unfold weight
    dsimp only
    have := sum_upd (n := n) (fun i => (s.buf i).length * (5 * (n - i)) + (s.ctl i).weight n i)
      (fun j => (s.buf j).length * (5 * (n - j)) + (upd s.ctl i (Ctl.stopped : Ctl α) j).weight n j) i hi
      (by intro j _ hj; simp only [upd_ne _ _ _ _ hj])
    simp only [upd_same, hc, weight_idle, weight_got, weight_busy, weight_putting, weight_after, weight_stopped] at this
    omega
  | monitor hm hc => unfold weight; dsimp only; omega
  | signal hm hd => unfold weight; simp [hd]

/-- If no step is possible then either the pipeline is done, or every stage waits for input that will
never come. -/
theorem stuck_cases (hn : 0 < n) {s : State α} (h : Inv hlt n prog s) (hst : ∀ t, ¬ Step hlt n s t) :
    s.done = true ∨ ∃ i, i < n ∧ (∀ j, j < i → s.ctl j = .stopped) ∧ s.ctl i = .idle ∧ s.buf i = [] ∧
      (i = 0 → s.feed = []) := by
  by_cases hd : s.done = true
  · exact Or.inl hd
  right
  -- stage control is idle, putting or stopped
  have hctl : ∀ i, i < n → s.ctl i = .idle ∨ s.ctl i = .stopped ∨ ∃ op, s.ctl i = .putting op := by
    intro i hi
    cases hc : s.ctl i with
    | idle => exact Or.inl rfl
    | got op => exact absurd (Step.start s i hi op hc) (hst _)
    | busy op => exact absurd (Step.finish s i hi op hc) (hst _)
    | putting op => exact Or.inr (Or.inr ⟨op, rfl⟩)
    | after op =>
      cases hh : hlt op with
      | true => exact absurd (Step.stop s i hi op hc hh) (hst _)
      | false => exact absurd (Step.again s i hi op hc hh) (hst _)
    | stopped => exact Or.inr (Or.inl rfl)
  have hidle : ∀ i, i < n → s.ctl i = .idle → s.buf i = [] := by
    intro i hi hc
    cases hb : s.buf i with
    | nil => rfl
    | cons op rest => exact absurd (Step.take s i hi op rest hc hb) (hst _)
  -- some stage is not stopped
  have hex : ∃ i, i < n ∧ s.ctl i ≠ .stopped := by
    by_contra hall
    push Not at hall
    have hmon := h.mon.1
    by_cases hm : s.monitor < n
    · exact hst _ (Step.monitor s hm ((h.comp _ hm).2 (hall _ hm)))
    · exact hst _ (Step.signal s (by omega) (by simpa using hd))
  classical
  let i := Nat.find hex
  obtain ⟨hi, hns⟩ : i < n ∧ s.ctl i ≠ .stopped := Nat.find_spec hex
  have hmin : ∀ j, j < i → s.ctl j = .stopped := by
    intro j hj
    by_contra hc
    exact Nat.find_min hex hj ⟨by omega, hc⟩
  -- stage i cannot be putting: look at the next stages
  have hput : ∀ k i, i + k = n → i < n → (∃ op, s.ctl i = .putting op) → False := by
    intro k
    induction k with
    | zero => intro i h1 h2; omega
    | succ k ih =>
      intro i h1 h2 hp
      obtain ⟨op, hp⟩ := hp
      by_cases hb : (s.buf (i + 1)).length < capacity
      · exact hst _ (Step.putIn s i h2 op hp hb)
      · by_cases hl : i + 1 < n
        · rcases hctl (i + 1) hl with hc | hc | hc
          · rw [hidle (i + 1) hl hc] at hb
            exact hb Nat.zero_lt_one
          · -- the next stage stopped at a hlt, which this stage accepted earlier
            obtain ⟨pre, o, e1, e2, e3⟩ := h.stop (i + 1) hl hc
            obtain ⟨pre', e4, e5⟩ := h.work i h2 op (by rw [hp]; rfl)
            have hlk := h.link i hl
            rw [e4, hp, e1] at hlk
            simp only [Ctl.held] at hlk
            have hpre := List.append_inj_left' hlk rfl
            have : hlt o = false := e5 o (by rw [hpre]; simp)
            rw [e2] at this
            cases this
          · exact ih (i + 1) (by omega) hl hc
        · exact hl (h.last i op hp)
  refine ⟨i, hi, hmin, ?_⟩
  rcases hctl i hi with hc | hc | hc
  · refine ⟨hc, hidle i hi hc, ?_⟩
    intro h0
    cases hf : s.feed with
    | nil => rfl
    | cons op rest =>
      have hb : s.buf 0 = [] := by rw [← h0]; exact hidle i hi hc
      exact absurd (Step.feedIn s op rest hf (by rw [hb]; exact Nat.zero_lt_one)) (hst _)
  · exact absurd hc hns
  · exact (hput (n - i) i (by omega) hi hc).elim

theorem Inv.inFlight {s : State α} (h : Inv hlt n prog s) (i : Nat) (hi : i < n) :
    prog = s.accepted i ++ inFlight s i := by
  induction i with
  | zero =>
    conv_lhs => rw [h.feed]
    simp [Pipeline.inFlight]
  | succ i ih =>
    conv_lhs => rw [ih (by omega), h.link i hi]
    simp [Pipeline.inFlight]

/-! ## A scheduler, used to exhibit runs -/

/-- The step of stage `i` that is possible, if any. -/
def stageNext (hlt : α → Bool) (n : Nat) (s : State α) (i : Nat) : Option (State α) :=
  match s.ctl i with
  | .idle => match s.buf i with
    | op :: rest => some { s with buf := upd s.buf i rest, ctl := upd s.ctl i (.got op) }
    | [] => none
  | .got op => some { s with
        ctl := upd s.ctl i (.busy op)
        accepted := upd s.accepted i (s.accepted i ++ [op]) }
  | .busy op => some { s with ctl := upd s.ctl i (if i + 1 = n then .after op else .putting op) }
  | .putting op => if (s.buf (i + 1)).length < capacity then some { s with
        buf := upd s.buf (i + 1) (s.buf (i + 1) ++ [op])
        ctl := upd s.ctl i (.after op) } else none
  | .after op => if hlt op then some { s with
        ctl := upd s.ctl i .stopped
        completed := upd s.completed i true }
      else some { s with ctl := upd s.ctl i .idle }
  | .stopped => none

theorem stageNext_sound {s t : State α} {i : Nat} (hi : i < n) (h : stageNext hlt n s i = some t) :
    Step hlt n s t := by
  unfold stageNext at h
  cases hc : s.ctl i with
  | idle =>
    rw [hc] at h
    cases hb : s.buf i with
    | nil => rw [hb] at h; cases h
    | cons op rest => rw [hb] at h; injection h with h; subst h; exact Step.take s i hi op rest hc hb
  | got op => rw [hc] at h; injection h with h; subst h; exact Step.start s i hi op hc
  | busy op => rw [hc] at h; injection h with h; subst h; exact Step.finish s i hi op hc
  | putting op =>
    rw [hc] at h
    simp only at h
    split at h
    · injection h with h; subst h; exact Step.putIn s i hi op hc (by assumption)
    · cases h
  | after op =>
    rw [hc] at h
    simp only at h
    split at h
    · injection h with h; subst h; exact Step.stop s i hi op hc (by assumption)
    · rename_i hh; injection h with h; subst h; exact Step.again s i hi op hc (by simpa using hh)
  | stopped => rw [hc] at h; cases h

/-- Run each stage once where possible, then the feed and the monitor. -/
def round (hlt : α → Bool) (n : Nat) (s : State α) : State α :=
  let s := (List.range n).reverse.foldl (fun s i => (stageNext hlt n s i).getD s) s
  let s := match s.feed with
    | op :: rest => if (s.buf 0).length < capacity then
        { s with feed := rest, buf := upd s.buf 0 (s.buf 0 ++ [op]) } else s
    | [] => s
  if s.monitor < n then
    if s.completed s.monitor then { s with monitor := s.monitor + 1 } else s
  else if s.monitor = n ∧ s.done = false then { s with done := true } else s

theorem reach_round {s : State α} (h : Reach hlt n prog s) : Reach hlt n prog (round hlt n s) := by
  unfold round
  have h1 : ∀ l : List Nat, (∀ i ∈ l, i < n) → ∀ s : State α, Reach hlt n prog s →
      Reach hlt n prog (l.foldl (fun s i => (stageNext hlt n s i).getD s) s) := by
    intro l
    induction l with
    | nil => intro _ s h; exact h
    | cons i l ih =>
      intro hl s h
      apply ih (fun i hi => hl i (List.mem_cons_of_mem _ hi))
      dsimp only
      cases hx : stageNext hlt n s i with
      | none => exact h
      | some t => exact Reach.step h (stageNext_sound (hl i (List.mem_cons_self ..)) hx)
  have h2 := h1 (List.range n).reverse (by simp) s h
  generalize (List.range n).reverse.foldl (fun s i => (stageNext hlt n s i).getD s) s = s1 at h2
  dsimp only
  have h3 : Reach hlt n prog (match s1.feed with
      | op :: rest => if (s1.buf 0).length < capacity then
          { s1 with feed := rest, buf := upd s1.buf 0 (s1.buf 0 ++ [op]) } else s1
      | [] => s1) := by
    cases hf : s1.feed with
    | nil => exact h2
    | cons op rest =>
      simp only
      split
      · exact Reach.step h2 (Step.feedIn s1 op rest hf (by assumption))
      · exact h2
  generalize (match s1.feed with
      | op :: rest => if (s1.buf 0).length < capacity then
          { s1 with feed := rest, buf := upd s1.buf 0 (s1.buf 0 ++ [op]) } else s1
      | [] => s1) = s2 at h3
  split
  · split
    · exact Reach.step h3 (Step.monitor s2 (by assumption) (by assumption))
    · exact h3
  · split
    · rename_i hx; exact Reach.step h3 (Step.signal s2 hx.1 hx.2)
    · exact h3

/-- `k` rounds. -/
def rounds (hlt : α → Bool) (n : Nat) : Nat → State α → State α
  | 0, s => s
  | k + 1, s => rounds hlt n k (round hlt n s)

theorem reach_rounds (k : Nat) {s : State α} (h : Reach hlt n prog s) :
    Reach hlt n prog (rounds hlt n k s) := by
  induction k generalizing s with
  | zero => exact h
  | succ k ih => exact ih (reach_round h)

end Ramwich.Pipeline
