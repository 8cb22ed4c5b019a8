import Verif.Lemmas.SysWork
import Verif.Props.SysRest

/-! # Every program comes to an end -/
namespace Ramwich

open Spec

/-! ## C79: runs are bounded -/

/-- C79: apart from the passing of time a run has at most as many actions as the sizes of its programs say, for
every order of the processes and all latencies; one more if the last one raises. So no process is ever in an endless
loop. -/
theorem C79_bounded (cfg : SysCfg) (i : SysInit) (h0 : i.ok) (as : List SysAct) (s : Sys)
    (hrun : i.start.run cfg as = some s) :
    (as.filter SysAct.isWork).length ≤ programWork cfg i + if s.crashed = none then 0 else 1 := by
  have alive : ∀ bs s', i.start.run cfg bs = some s' → s'.crashed = none →
      (bs.filter SysAct.isWork).length ≤ programWork cfg i := by
    intro bs s' h hn
    have := run_work h0.good bs [] i.start s' rfl h hn
    rw [sysWork_start] at this
    omega
  by_cases hn : s.crashed = none
  · rw [if_pos hn]; exact alive as s hrun hn
  · rw [if_neg hn]
    rcases List.eq_nil_or_concat as with rfl | ⟨bs, b, rfl⟩
    · simp
    · rw [List.concat_eq_append] at hrun ⊢
      have h1 : ∀ (bs : List SysAct) (s0 : Sys), Sys.run cfg s0 (bs ++ [b]) = some s →
          ∃ s1, Sys.run cfg s0 bs = some s1 ∧ s1.act cfg b = some s := by
        intro bs
        induction bs with
        | nil =>
          intro s0 h
          simp only [List.nil_append, Sys.run] at h
          cases hb : s0.act cfg b with
          | none => rw [hb] at h; cases h
          | some s1 => rw [hb] at h; exact ⟨s0, rfl, by rw [hb]; exact h⟩
        | cons a bs ih =>
          intro s0 h
          simp only [List.cons_append, Sys.run] at h ⊢
          cases ha : s0.act cfg a with
          | none => rw [ha] at h; cases h
          | some s1 => rw [ha] at h; exact ih s1 h
      obtain ⟨s1, h2, h3⟩ := h1 bs i.start hrun
      have h4 := alive bs s1 h2 (crashed_act h3)
      rw [List.filter_append, List.length_append]
      have h5 : ([b].filter SysAct.isWork).length ≤ 1 := List.length_filter_le _ _
      omega

/-- C79: however a run has begun, if it is continued as long as anything can happen, it comes to a state in which
nothing happens any more (all programs executed, a deadlock, or an exception). -/
theorem C79_comes_to_rest (cfg : SysCfg) (i : SysInit) (h0 : i.ok) (as : List SysAct) (s : Sys)
    (hrun : i.start.run cfg as = some s) : ∃ bs s', s.run cfg bs = some s' ∧ atRest cfg s' := by
  generalize hk : programWork cfg i + 1 - (as.filter SysAct.isWork).length = k
  induction k using Nat.strong_induction_on generalizing as s with
  | _ k ih =>
    by_cases hr : atRest cfg s
    · exact ⟨[], s, rfl, hr⟩
    · unfold atRest at hr
      push Not at hr
      obtain ⟨bs, s1, h1, a, ha, hw⟩ := hr
      have haw : a.isWork = true := by
        cases a with
        | ctrl t a => cases a <;> first | rfl | exact absurd rfl (hw t)
        | _ => rfl
      have hrun1 := run_append_some hrun h1
      have hb := C79_bounded cfg i h0 (as ++ bs) s1 hrun1
      have hpos : 0 < (bs.filter SysAct.isWork).length := List.length_pos_of_mem (List.mem_filter.2 ⟨ha, haw⟩)
      rw [List.filter_append, List.length_append] at hb
      have hle : programWork cfg i + (if s1.crashed = none then 0 else 1) ≤ programWork cfg i + 1 := by
        split <;> omega
      obtain ⟨cs, s2, h2, h3⟩ := ih _ (by
        rw [← hk, List.filter_append, List.length_append]
        omega) (as ++ bs) s1 hrun1 rfl
      exact ⟨bs ++ cs, s2, run_append_some h1 h2, h3⟩

/-- The program of C42: 82 actions at most. -/
example : programWork demoSys demoInit = 82 ∧ (demoRun.1.filter SysAct.isWork).length = 77 ∧
    (otherRun.1.filter SysAct.isWork).length = 76 := by decide +kernel
example := C79_bounded demoSys demoInit demoInit_ok demoRun.1 demoRun.2 demoRun_runs
example := C79_comes_to_rest demoSys demoInit demoInit_ok demoRun.1 demoRun.2 demoRun_runs

end Ramwich
