import Verif.Lemmas.Network

/-! # The ghost histories of the network are the histories of the run -/
namespace Ramwich

open Spec
open Pipeline (upd)

theorem sent_thread (c : NetConfig) (s s' : Net) (i : Nat) (h : s.thread c i = some s') :
    s'.sent = s.sent ∧ s'.readLog = s.readLog := by
  unfold Net.thread at h
  dsimp only at h
  repeat' split at h
  all_goals first
    | (injection h with h; subst h; exact ⟨rfl, rfl⟩)
    | cases h

theorem act_sent (c : NetConfig) (s s' : Net) (a : NetAct) (h : s.act c a = some s') (i d : Nat) :
    dataTo d (s'.sent i) = dataTo d (s.sent i) ++ sends [a] i d ∧
    s'.readLog d i = s.readLog d i ++ (if a = .readDone d then takenFrom i (s.reader d) else []) := by
  obtain ⟨-, -, h⟩ := net_act_cases h
  cases a with
  | send j t x =>
    obtain ⟨rfl, -⟩ := sendIf_send h
    refine ⟨?_, by simp [Net.send]⟩
    simp only [Net.send]
    by_cases hj : i = j
    · subst hj
      rw [upd_same, dataTo_append]
      by_cases ht : t = (d : Int) <;> simp [dataTo, sends, ht]
    · rw [upd_ne _ _ _ _ hj]
      have : ¬(j = i ∧ t = (d : Int)) := fun hx => hj hx.1.symm
      simp [sends, this]
  | added j =>
    unfold Net.added at h
    dsimp only at h
    split at h
    · cases h
    · injection h with h; subst h; exact ⟨by simp [sends], by simp⟩
  | thread j =>
    obtain ⟨h1, h2⟩ := sent_thread c s s' j h
    rw [h1, h2]
    exact ⟨by simp [sends], by simp⟩
  | startRead j src =>
    unfold Net.startRead at h
    dsimp only at h
    repeat' split at h
    all_goals first
      | (injection h with h; subst h; exact ⟨by simp [sends, Net.crash], by simp [Net.crash]⟩)
      | cases h
  | take j =>
    unfold Net.take at h
    dsimp only at h
    repeat' split at h
    all_goals first
      | (injection h with h; subst h; exact ⟨by simp [sends], by simp⟩)
      | cases h
  | readDone j =>
    obtain ⟨x, h⟩ := h
    unfold Net.readDone at h
    split at h
    · rename_i src y hk
      simp only [Option.some.injEq, Prod.mk.injEq] at h
      obtain ⟨h, rfl⟩ := h
      subst h
      refine ⟨by simp [sends], ?_⟩
      dsimp only
      by_cases hd : d = j
      · subst hd
        rw [upd_same, hk, if_pos rfl]
        by_cases hi : i = src
        · subst hi; rw [upd_same]; simp [takenFrom]
        · rw [upd_ne _ _ _ _ hi]; simp [takenFrom, Ne.symm hi]
      · rw [upd_ne _ _ _ _ hd, if_neg (by simp [Ne.symm hd])]; simp
    · cases h
  | halt j =>
    unfold Net.halt at h
    dsimp only at h
    split at h
    · injection h with h; subst h; exact ⟨by simp [sends], by simp⟩
    · cases h
  | stopStep j =>
    unfold Net.stopStep at h
    dsimp only at h
    repeat' split at h
    all_goals first
      | (injection h with h; subst h; exact ⟨by simp [sends], by simp⟩)
      | cases h

theorem sends_cons (a : NetAct) (as : List NetAct) (i d : Nat) :
    sends (a :: as) i d = sends [a] i d ++ sends as i d := by
  unfold sends
  rw [← List.filterMap_append]
  rfl

theorem run_histories (c : NetConfig) : ∀ (as : List NetAct) (s s' : Net), s.run c as = some s' →
    ∀ i d : Nat, dataTo d (s'.sent i) = dataTo d (s.sent i) ++ sends as i d ∧
      s'.readLog d i = s.readLog d i ++ reads c s as d i := by
  intro as
  induction as with
  | nil =>
    intro s s' h i d
    simp only [Net.run, Option.some.injEq] at h
    subst h
    simp [sends, reads]
  | cons a as ih =>
    intro s s' h i d
    simp only [Net.run, Option.bind_eq_some_iff] at h
    obtain ⟨s1, h1, h2⟩ := h
    obtain ⟨e1, e2⟩ := act_sent c s s1 a h1 i d
    obtain ⟨f1, f2⟩ := ih s1 s' h2 i d
    rw [f1, f2, e1, e2, sends_cons a as]
    refine ⟨by simp, ?_⟩
    rw [List.append_assoc]
    simp only [reads, h1]

theorem sendCalls_run (c : NetConfig) : ∀ (as : List NetAct) (s s' : Net), s.run c as = some s' →
    ∀ i, (s'.sent i).length = (s.sent i).length + sendCalls as i := by
  intro as
  induction as with
  | nil =>
    intro s s' h i
    simp only [Net.run, Option.some.injEq] at h
    subst h
    simp [sendCalls]
  | cons a as ih =>
    intro s s' h i
    simp only [Net.run, Option.bind_eq_some_iff] at h
    obtain ⟨s1, h1, h2⟩ := h
    rw [ih s1 s' h2 i]
    have e : (s1.sent i).length = (s.sent i).length + sendCalls [a] i := by
      obtain ⟨-, -, h⟩ := net_act_cases h1
      cases a with
      | send j t x =>
        obtain ⟨rfl, -⟩ := sendIf_send h
        simp only [Net.send, sendCalls]
        by_cases hj : i = j
        · subst hj; rw [upd_same]; simp
        · rw [upd_ne _ _ _ _ hj]; simp [Ne.symm hj]
      | thread j => rw [(sent_thread c s s1 j h).1]; simp [sendCalls]
      | readDone j =>
        obtain ⟨x, h⟩ := h
        unfold Net.readDone at h
        split at h
        · simp only [Option.some.injEq, Prod.mk.injEq] at h
          obtain ⟨h, -⟩ := h
          subst h
          simp [sendCalls]
        · cases h
      | _ =>
        simp only [Net.added, Net.startRead, Net.take, Net.halt, Net.stopStep] at h
        repeat' split at h
        all_goals first
          | (injection h with h; subst h; simp [sendCalls, Net.crash])
          | cases h
    have e2 : sendCalls (a :: as) i = sendCalls [a] i + sendCalls as i := by
      unfold sendCalls
      rw [← List.length_append, ← List.filter_append]
      rfl
    omega

/-! ## A blocked send thread -/

/-- An action of another tile's send thread. -/
theorem thread_frame (c : NetConfig) (s s' : Net) (h : NetInv c s) (j : Nat)
    (hs : s.thread c j = some s') (i : Nat) (hij : i ≠ j) :
    s'.sender i = s.sender i ∧ s'.queue i = s.queue i ∧ s'.stopper = s.stopper ∧
    ∀ d, s'.buf d i = s.buf d i := by
  have hsrc := (h.src j).2
  unfold Net.thread at hs
  dsimp only at hs
  split at hs
  · cases hs
  cases hk : s.sender j <;> rw [hk] at hs hsrc <;> dsimp only at hs
  case putting p inter =>
    have hps : p.src = j := hsrc p rfl
    split at hs
    · injection hs with hs
      subst hs
      refine ⟨upd_ne _ _ _ _ hij, rfl, rfl, ?_⟩
      intro d
      dsimp only
      by_cases hd : d = p.target.toNat
      · subst hd; rw [upd_same, upd_ne _ _ _ _ (by rw [hps]; exact hij)]
      · rw [upd_ne _ _ _ _ hd]
    · cases hs
  all_goals
    repeat' split at hs
    all_goals first
      | (injection hs with hs; subst hs
         exact ⟨by first | rfl | exact upd_ne _ _ _ _ hij, by first | rfl | exact upd_ne _ _ _ _ hij,
           rfl, fun _ => rfl⟩)
      | cases hs

/-- While nobody takes from the full buffer, a blocked thread and the packets behind it stay. -/
theorem blocked_act (c : NetConfig) (s s' : Net) (a : NetAct) (i : Nat) (p : Packet) (inter : Bool)
    (hinv : NetInv c s) (hok : NetStop s)
    (hk : s.sender i = .putting p inter) (hb : s.buf p.target.toNat i ≠ [])
    (ha : ¬(a = .take p.target.toNat ∧ s.reader p.target.toNat = .waiting i))
    (h : s.act c a = some s') :
    s'.sender i = .putting p inter ∧ s'.buf p.target.toNat i = s.buf p.target.toNat i ∧
    ∃ more, s'.queue i = s.queue i ++ more := by
  have hps : p.src = i := (hinv.src i).2 p (by rw [hk]; rfl)
  have hcrash : s.stopper i ≠ .stopped := by
    intro hst
    have hstop := hok i
    rw [hst, hk] at hstop
    cases hstop
  have hlen : ¬(s.buf p.target.toNat p.src).length < bufferCapacity := by
    rw [hps]
    have := List.length_pos_iff.2 hb
    unfold bufferCapacity
    omega
  obtain ⟨-, -, h⟩ := net_act_cases h
  cases a with
  | send j t x =>
    obtain ⟨rfl, -⟩ := sendIf_send h
    refine ⟨hk, rfl, ?_⟩
    simp only [Net.send]
    by_cases hj : i = j
    · subst hj; rw [upd_same]; exact ⟨_, rfl⟩
    · rw [upd_ne _ _ _ _ hj]; exact ⟨[], by simp⟩
  | added j =>
    unfold Net.added at h
    dsimp only at h
    split at h
    · cases h
    · injection h with h; subst h; exact ⟨hk, rfl, ⟨[], by simp⟩⟩
  | thread j =>
    dsimp only at h
    by_cases hj : i = j
    · subst hj
      unfold Net.thread at h
      rw [if_neg hcrash, hk] at h
      dsimp only at h
      rw [if_neg hlen] at h
      cases h
    · obtain ⟨h1, h2, -, h3⟩ := thread_frame c s s' hinv j h i hj
      exact ⟨by rw [h1, hk], h3 _, ⟨[], by simp [h2]⟩⟩
  | startRead j src =>
    unfold Net.startRead at h
    dsimp only at h
    repeat' split at h
    all_goals first
      | (injection h with h; subst h; exact ⟨hk, rfl, ⟨[], by simp [Net.crash]⟩⟩)
      | cases h
  | take j =>
    unfold Net.take at h
    dsimp only at h
    split at h
    · rename_i src hw
      split at h
      · cases h
      · injection h with h
        subst h
        refine ⟨hk, ?_, ⟨[], by simp⟩⟩
        dsimp only
        by_cases hj : p.target.toNat = j
        · rw [← hj, upd_same]
          by_cases hi : i = src
          · exact absurd ⟨by rw [hj], by rw [hj, hw, hi]⟩ ha
          · rw [upd_ne _ _ _ _ hi]
        · rw [upd_ne _ _ _ _ hj]
    · cases h
  | readDone j =>
    obtain ⟨x, h⟩ := h
    unfold Net.readDone at h
    split at h
    · simp only [Option.some.injEq, Prod.mk.injEq] at h
      obtain ⟨h, -⟩ := h
      subst h
      exact ⟨hk, rfl, ⟨[], by simp⟩⟩
    · cases h
  | halt j =>
    unfold Net.halt at h
    dsimp only at h
    split at h
    · injection h with h; subst h; exact ⟨hk, rfl, ⟨[], by simp⟩⟩
    · cases h
  | stopStep j =>
    unfold Net.stopStep at h
    dsimp only at h
    repeat' split at h
    all_goals first
      | (injection h with h; subst h; exact ⟨hk, rfl, ⟨[], by simp⟩⟩)
      | cases h

end Ramwich
