import Verif.Spec.ClockCheck
import Verif.Lemmas.TimedSystem

/-! # The pipelines of the check with the clock -/
namespace Ramwich

open Pipeline Spec

/-- A pipeline without its histories. -/
def ofTimed (p : Timed CoreOp) : DPipe :=
  { feed := p.st.feed
    buf := [p.st.buf 0, p.st.buf 1, p.st.buf 2]
    ctl := [p.st.ctl 0, p.st.ctl 1, p.st.ctl 2]
    due := [p.deadline 0, p.deadline 1, p.deadline 2]
    completed := [p.st.completed 0, p.st.completed 1, p.st.completed 2]
    monitor := p.st.monitor
    done := p.st.done }

/-- The operations that a stage has taken and not passed on. -/
def Ctl.has : Ctl CoreOp → List CoreOp
  | .got op => [op]
  | .busy op => [op]
  | .putting op => [op]
  | _ => []

/-- The operation that the execution stage has not started. -/
def Ctl.next : Ctl CoreOp → List CoreOp
  | .got op => [op]
  | _ => []

/-- The operations that the execution stage has not started. -/
def left (p : Timed CoreOp) : List CoreOp :=
  Ctl.next (p.st.ctl 2) ++ p.st.buf 2 ++ Ctl.has (p.st.ctl 1) ++ p.st.buf 1 ++ Ctl.has (p.st.ctl 0) ++ p.st.buf 0 ++ p.st.feed

theorem three_cases {i : Nat} (h : i < 3) : i = 0 ∨ i = 1 ∨ i = 2 := by omega

theorem pipe_start {q : ClockPar} {l : StageLat} (hf : q.fetch = l.fetch) (hd : q.decode = l.decode) {now i : Nat} (hi : i < 3)
    {p : Timed CoreOp} (hp : p.now = now) {d : DPipe} (h : (ofTimed p).start q now i = some d) :
    ∃ p', p.start l.lat i = some p' ∧ d = ofTimed p' ∧ p'.now = now ∧ (i < 2 → left p' = left p) ∧
      (i = 2 → ∃ op, p.st.ctl 2 = .got op ∧ left p = op :: left p') := by
  subst hp
  unfold DPipe.start at h
  rcases three_cases hi with rfl | rfl | rfl
  all_goals
    simp only [ofTimed, List.getD_cons_zero, List.getD_cons_succ] at h
    split at h
    · rename_i op hop
      injection h with h
      subst h
      simp only [Timed.start, hop]
      refine ⟨_, rfl, ?_, rfl, ?_, ?_⟩
      · simp [ofTimed, ClockPar.stage, StageLat.lat, upd, hf, hd]
      · intro h
        first
        | (exfalso; omega)
        | simp [left, upd, hop, Ctl.has]
      · intro h
        first
        | (exfalso; omega)
        | exact ⟨op, rfl, by simp [left, upd, hop, Ctl.next]⟩
    · cases h

theorem pipe_finish {now i : Nat} (hi : i < 3) {p : Timed CoreOp} (hp : p.now = now) {d : DPipe}
    (h : (ofTimed p).finish now i = some d) :
    ∃ p', p.finish 3 i = some p' ∧ d = ofTimed p' ∧ p'.now = now ∧ left p' = left p := by
  subst hp
  unfold DPipe.finish at h
  rcases three_cases hi with rfl | rfl | rfl
  all_goals
    simp only [ofTimed, List.getD_cons_zero, List.getD_cons_succ] at h
    split at h
    · rename_i op hop
      rw [Option.ite_none_right_eq_some] at h
      obtain ⟨hdue, h⟩ := h
      injection h with h
      subst h
      first
      | change p.due 0 = true at hdue
      | change p.due 1 = true at hdue
      | change p.due 2 = true at hdue
      simp only [Timed.finish, hop, hdue, if_true]
      refine ⟨_, rfl, ?_, rfl, ?_⟩
      · simp [ofTimed, upd]
      · simp [left, upd, hop, Ctl.has, Ctl.next]
    · cases h

theorem pipe_move {q : ClockPar} {l : StageLat} (hf : q.fetch = l.fetch) (hd : q.decode = l.decode) {now : Nat}
    {p : Timed CoreOp} (hp : p.now = now) {a : PAct} (h2 : a ≠ .start 2) {d : DPipe}
    (h : (ofTimed p).move q now a = some d) :
    ∃ p', p.move isHlt 3 l.lat a = some p' ∧ d = ofTimed p' ∧ p'.now = now ∧ left p' = left p := by
  cases a with
  | start i =>
    simp only [DPipe.move] at h
    split at h
    · rename_i hi
      obtain ⟨p', k1, k2, k3, k4, -⟩ := pipe_start hf hd hi hp h
      refine ⟨p', by simp only [Timed.move, if_pos hi, k1], k2, k3, k4 ?_⟩
      rcases three_cases hi with rfl | rfl | rfl
      · omega
      · omega
      · exact absurd rfl h2
    · cases h
  | finish i =>
    simp only [DPipe.move] at h
    split at h
    · rename_i hi
      obtain ⟨p', k1, k2, k3, k4⟩ := pipe_finish hi hp h
      exact ⟨p', by simp only [Timed.move, if_pos hi, k1], k2, k3, k4⟩
    · cases h
  | feedIn =>
    simp only [DPipe.move, ofTimed, List.getD_cons_zero] at h
    split at h
    · rename_i op rest e1 e2
      injection h with h
      subst h
      simp only [Timed.move, Timed.feedIn, e1, e2, List.length_nil, capacity, Nat.zero_lt_one, if_true, List.nil_append]
      refine ⟨_, rfl, ?_, hp, ?_⟩
      · simp [ofTimed, upd]
      · simp [left, upd, e1, e2]
    · cases h
  | take i =>
    simp only [DPipe.move] at h
    split at h
    · rename_i hi
      rcases three_cases hi with rfl | rfl | rfl
      all_goals
        simp only [ofTimed, List.getD_cons_zero, List.getD_cons_succ] at h
        split at h
        · rename_i op rest e1 e2
          injection h with h
          subst h
          simp only [Timed.move, hi, if_true, Timed.take, e1, e2]
          refine ⟨_, rfl, ?_, hp, ?_⟩
          · simp [ofTimed, upd]
          · simp [left, upd, e1, e2, Ctl.has, Ctl.next]
        · cases h
    · cases h
  | putIn i =>
    simp only [DPipe.move] at h
    split at h
    · rename_i hi
      have : i = 0 ∨ i = 1 := by omega
      rcases this with rfl | rfl
      all_goals
        simp only [ofTimed, List.getD_cons_zero, List.getD_cons_succ, Nat.zero_add, Nat.reduceAdd] at h
        split at h
        · rename_i op e1 e2
          injection h with h
          subst h
          simp only [Timed.move, Nat.zero_lt_succ, Nat.one_lt_ofNat, if_true, Timed.putIn, e1, e2, Nat.zero_add, Nat.reduceAdd,
            List.length_nil, capacity, Nat.zero_lt_one, List.nil_append]
          refine ⟨_, rfl, ?_, hp, ?_⟩
          · simp [ofTimed, upd]
          · simp [left, upd, e1, e2, Ctl.has, Ctl.next]
        · cases h
    · cases h
  | next i =>
    simp only [DPipe.move] at h
    split at h
    · rename_i hi
      rcases three_cases hi with rfl | rfl | rfl
      all_goals
        simp only [ofTimed, List.getD_cons_zero, List.getD_cons_succ] at h
        split at h
        · rename_i op e1
          split at h
          · rename_i hh
            injection h with h
            subst h
            simp only [Timed.move, hi, if_true, Timed.next, e1, hh]
            refine ⟨_, rfl, ?_, hp, ?_⟩
            · simp [ofTimed, upd]
            · simp [left, upd, e1, Ctl.has, Ctl.next]
          · rename_i hh
            injection h with h
            subst h
            simp only [Timed.move, hi, if_true, Timed.next, e1, hh]
            refine ⟨_, rfl, ?_, hp, ?_⟩
            · simp [ofTimed, upd]
            · simp [left, upd, e1, Ctl.has, Ctl.next]
        · cases h
    · cases h
  | monitor =>
    simp only [DPipe.move] at h
    split at h
    · rename_i hh
      injection h with h
      subst h
      have e : p.st.monitor < 3 ∧ p.st.completed p.st.monitor = true := by
        obtain ⟨h1, h2⟩ := hh
        have h1 : p.st.monitor < 3 := h1
        refine ⟨h1, ?_⟩
        rcases three_cases h1 with e | e | e <;> simpa [ofTimed, e] using h2
      simp only [Timed.move, Timed.monitor, if_pos e]
      exact ⟨_, rfl, rfl, hp, rfl⟩
    · cases h
  | signal =>
    simp only [DPipe.move] at h
    split at h
    · rename_i hh
      injection h with h
      subst h
      have e : p.st.monitor = 3 ∧ p.st.done = false := hh
      simp only [Timed.move, Timed.signal, if_pos e]
      exact ⟨_, rfl, rfl, hp, rfl⟩
    · cases h
  | tick => cases h

theorem until_rest {p : Timed CoreOp} {u : Nat} (h : u < (ofTimed p).until) : (ofTimed p).rest = true ∧
    u < (ofTimed p).stageUntil 0 ∧ u < (ofTimed p).stageUntil 1 ∧ u < (ofTimed p).stageUntil 2 := by
  unfold DPipe.until at h
  split at h
  · rename_i h1
    exact ⟨h1, by omega, by omega, by omega⟩
  · omega

theorem until_got {p : Timed CoreOp} {u : Nat} (h : u < (ofTimed p).until) (op : CoreOp) : p.st.ctl 2 ≠ .got op := by
  intro he
  have := (until_rest h).2.2.2
  simp [DPipe.stageUntil, ofTimed, he] at this

/-- Nothing is to be done before the time of `until`. -/
theorem pipe_quiet {l : StageLat} {p : Timed CoreOp} (h : p.now < (ofTimed p).until) : p.quiet isHlt 3 l.lat = true := by
  obtain ⟨h1, h2, h3, h4⟩ := until_rest h
  have stage : ∀ i < 3, p.now < (ofTimed p).stageUntil i → p.stageQuiet isHlt 3 l.lat i = true := by
    intro i hi hu
    rcases three_cases hi with rfl | rfl | rfl
    all_goals
      unfold DPipe.stageUntil at hu
      simp only [ofTimed, List.getD_cons_zero, List.getD_cons_succ, Nat.zero_add, Nat.reduceAdd] at hu
      unfold Timed.stageQuiet Timed.take Timed.start Timed.finish Timed.putIn Timed.next Timed.due
      split at hu
      · rename_i e
        split at hu
        · rename_i e2
          simp [e, e2]
        · omega
      · omega
      · rename_i e
        simp only [e]
        cases hd : p.deadline _ with
        | none => simp
        | some dd =>
          rw [hd] at hu
          simp only [Option.getD_some] at hu
          simp
          omega
      · rename_i e
        split at hu
        · omega
        · rename_i e2
          simp only [e]
          first
          | (exfalso; simp at e2; done)
          | (simp [capacity, List.length_pos_iff]; exact e2)
      · omega
      · rename_i e
        simp [e]
  unfold Timed.quiet
  simp only [Bool.and_eq_true, List.all_eq_true, List.mem_range]
  unfold DPipe.rest at h1
  simp only [Bool.and_eq_true] at h1
  obtain ⟨⟨g1, g2⟩, g3⟩ := h1
  refine ⟨⟨⟨?_, ?_⟩, ?_⟩, ?_⟩
  · simp only [ofTimed, List.getD_cons_zero] at g1
    unfold Timed.feedIn
    cases hf : p.st.feed with
    | nil => rfl
    | cons op rest =>
      cases hb : p.st.buf 0 with
      | nil => simp [hf, hb] at g1
      | cons a b => simp [capacity]
  · unfold Timed.monitor
    rw [if_neg]
    · rfl
    · rintro ⟨k1, k2⟩
      rcases three_cases k1 with e | e | e <;> simp [ofTimed, e] at g2 <;> simp [e, g2] at k2
  · unfold Timed.signal
    rw [if_neg]
    · rfl
    · rintro ⟨k1, k2⟩
      simp [ofTimed, k1, k2] at g3
  · intro i hi
    rcases three_cases hi with rfl | rfl | rfl
    · exact stage 0 hi h2
    · exact stage 1 hi h3
    · exact stage 2 hi h4

end Ramwich
