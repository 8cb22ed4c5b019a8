import Verif.Lemmas.DramResponse
import Verif.Props.DramController

/-! # Times of the DRAM controller (C63, C64)

`acts` is any sequence of submissions, controller steps, clock ticks and stops that is possible from a started
controller, whatever the DRAM holds at the start. -/
namespace Ramwich

open Spec

/-! ## C63: the controller is a queue with one server that never idles -/

/-- C63: a request is answered its service time after the later of its submission and the previous answer. This
holds for reads that had to wait for data, too: they are released when a write is answered. -/
theorem C63_times (lat : Int) (m0 : Memory) (v0 : List Bool) (t0 : Nat)
    (hm : m0.cells.length = m0.size) (hv : v0.length = m0.size) (acts : List CtrlAct) (c : Ctrl)
    (hrun : (Ctrl.started m0 v0 t0).run lat acts = some c) :
    c.answers.map Answer.time = queueTimes lat 0 (c.answers.map Answer.req) :=
  (ctrlAll_run lat m0 v0 t0 ⟨hm, hv⟩ acts c hrun).busy.times

/-- C63: the statistics of the waiting times are determined by the order of the answers and the times of the
submissions. -/
theorem C63_waits (lat : Int) (m0 : Memory) (v0 : List Bool) (t0 : Nat)
    (hm : m0.cells.length = m0.size) (hv : v0.length = m0.size) (acts : List CtrlAct) (c : Ctrl)
    (hrun : (Ctrl.started m0 v0 t0).run lat acts = some c) :
    c.stats.totalWaitTime = (queueWaits lat 0 (c.answers.map Answer.req)).sum ∧
    c.stats.maxWaitTime = (queueWaits lat 0 (c.answers.map Answer.req)).foldl max 0 := by
  have hall := ctrlAll_run lat m0 v0 t0 ⟨hm, hv⟩ acts c hrun
  have hw : queueWaits lat 0 (c.answers.map Answer.req) = c.answers.map waited := by
    unfold queueWaits
    rw [← hall.busy.times, List.zipWith_map]
    clear * -
    induction c.answers with
    | nil => rfl
    | cons a as ih => rw [List.zipWith_cons_cons, ih]; rfl
  rw [hw]
  refine ⟨hall.inv.time.waits, ?_⟩
  obtain ⟨h1, h2, h3⟩ := hall.inv.time.maxWait
  generalize c.stats.maxWaitTime = m at h1 h2 h3
  have hfold : ∀ (l : List Int) (z : Int), z ≤ m → (∀ x ∈ l, x ≤ m) → (m = z ∨ m ∈ l) →
      l.foldl max z = m := by
    intro l
    induction l with
    | nil =>
      intro z hz _ hx
      rcases hx with hx | hx
      · exact hx.symm
      · simp at hx
    | cons y ys ih =>
      intro z hz hle hx
      rw [List.foldl_cons]
      have hy := hle y (by simp)
      refine ih (max z y) (by omega) (fun x hx => hle x (by simp [hx])) ?_
      rcases hx with hx | hx
      · left; omega
      · rcases List.mem_cons.1 hx with hx | hx
        · left; omega
        · exact Or.inr hx
  refine (hfold _ 0 h3 ?_ ?_).symm
  · intro x hx
    obtain ⟨a, ha, rfl⟩ := List.mem_map.1 hx
    exact h1 a ha
  · rcases h2 with h2 | ⟨a, ha, h2⟩
    · exact Or.inl h2
    · exact Or.inr (List.mem_map.2 ⟨a, ha, h2⟩)

example := C63_times 3 demoDram demoValid 10 rfl rfl demoActs demoEnd demo_run
example := C63_waits 3 demoDram demoValid 10 rfl rfl demoActs demoEnd demo_run
/-- The answers of the example: the read of words 1-4, submitted first, was released by the write submitted
after it; the last three requests were queued behind each other. -/
example : demoEnd.answers.map (fun a => (a.req.id, a.req.submitTime, a.time)) =
    [(1, 10, 13), (0, 10, 19), (2, 13, 22), (3, 13, 25)] := by decide +kernel

/-! ## C64: response time -/

/-- C64: a request that does not have to wait for data is answered at the latest when the DRAM has served all
requests ahead of it and the request itself: exactly then, if none of the requests ahead has to wait for data
(otherwise it may overtake some). While the controller runs, the clock does not pass that time before. -/
theorem C64_response (lat : Int) (m0 : Memory) (v0 : List Bool) (t0 : Nat)
    (hm : m0.cells.length = m0.size) (hv : v0.length = m0.size) (before after : List CtrlAct) (c c' : Ctrl)
    (hrun : (Ctrl.started m0 v0 t0).run lat before = some c) (hr : c.running = true)
    (core start : Int) (kind : ReqKind) (r : Req)
    (hsub : (c.submit core start kind).submitted = c.submitted ++ [r]) (hs : Servable c.valid r)
    (hrun' : (c.submit core start kind).run lat after = some c') (hr' : c'.running = true) :
    (∃ a ∈ c'.answers, a.req = r ∧ a.time ≤ c.clearAt lat + serviceTime lat r ∧
      ((∀ x ∈ c.ahead, Servable c.valid x) → a.time = c.clearAt lat + serviceTime lat r)) ∨
    (∀ a ∈ c'.answers, a.req ≠ r) ∧ c'.now ≤ c.clearAt lat + serviceTime lat r := by
  have hall := ctrlAll_run lat m0 v0 t0 ⟨hm, hv⟩ before c hrun
  have hst : CtrlStep lat c (.submit core start kind) (c.submit core start kind) := by
    unfold Ctrl.submit
    rw [if_neg (by simp [hr])]
    have := CtrlStep.submit (lat := lat) c core start kind hr
    cases kind <;> exact this
  have hall1 := ctrlAll_step lat m0 v0 t0 c _ hall hst
  have hreq : r = c.newReq core start kind := by
    have : (c.submit core start kind).submitted = c.submitted ++ [c.newReq core start kind] := by
      unfold Ctrl.submit; rw [if_neg (by simp [hr])]; rfl
    rw [this] at hsub
    simpa using hsub.symm
  subst hreq
  have hall' : CtrlAll lat m0 v0 t0 c' :=
    run_induction lat (CtrlAll lat m0 v0 t0) (fun c c' _ h st => ctrlAll_step lat m0 v0 t0 c c' h st) after _ c'
      hall1 hrun'
  have hal : c'.running = c'.handlerAlive := by
    have h1 := alive_run lat m0 v0 t0 before c hrun
    exact run_induction lat (fun c => c.running = c.handlerAlive) (fun c c' _ h st => alive_step lat c c' h st)
      after _ c' (alive_step lat c _ h1 hst) hrun'
  have hd := due_run lat m0 v0 t0 _ _ _ after _ c' hall1
    (due_submitted lat m0 v0 t0 c hall hr core start kind hs) hrun' (by rw [← hal, hr'])
  rcases hd with h | ⟨-, pre, post, hl, hb, -⟩
  · exact Or.inl h
  · right
    refine ⟨?_, ?_⟩
    · intro a ha hne
      have hnd := hall'.inv.line.perm.nodup_iff.2 (submitted_nodup c' hall'.inv.line)
      have := (List.nodup_append.1 hnd).2.2 (c.newReq core start kind) (by simp [hl]) a.req
        (List.mem_map_of_mem ha)
      exact this hne.symm
    · have := now_le lat t0 c' hall'.inv.time hall'.busy _ pre post hl
      omega

/-- C64: in particular a request to an idle controller takes exactly its service time if it does not have to
wait for data. -/
theorem C64_idle (lat : Int) (m0 : Memory) (v0 : List Bool) (t0 : Nat)
    (hm : m0.cells.length = m0.size) (hv : v0.length = m0.size) (before after : List CtrlAct) (c c' : Ctrl)
    (hrun : (Ctrl.started m0 v0 t0).run lat before = some c) (hr : c.running = true) (hidle : c.idle)
    (core start : Int) (kind : ReqKind) (r : Req)
    (hsub : (c.submit core start kind).submitted = c.submitted ++ [r]) (hs : Servable c.valid r)
    (hrun' : (c.submit core start kind).run lat after = some c') (hr' : c'.running = true) :
    (∃ a ∈ c'.answers, a.req = r ∧ a.time = c.now + serviceTime lat r) ∨
    (∀ a ∈ c'.answers, a.req ≠ r) ∧ c'.now ≤ c.now + serviceTime lat r := by
  have hall := ctrlAll_run lat m0 v0 t0 ⟨hm, hv⟩ before c hrun
  have hah : c.ahead = [] := by simp [Ctrl.ahead, hidle.1, hidle.2.1, hidle.2.2]
  have hcl : c.clearAt lat = c.now := by
    unfold Ctrl.clearAt
    cases hd : c.deadline with
    | none => simp [hah, workload]
    | some d =>
      obtain ⟨x, rest, hb, -⟩ := hall.inv.time.serving d hd
      rw [hidle.2.2] at hb; exact absurd hb (by simp)
  rcases C64_response lat m0 v0 t0 hm hv before after c c' hrun hr core start kind r hsub hs hrun' hr' with
    ⟨a, ha, h1, -, h3⟩ | h
  · refine Or.inl ⟨a, ha, h1, ?_⟩
    rw [h3 (by simp [hah]), hcl]
  · rw [hcl] at h; exact Or.inr h

/-- A write is in service, a read of the preloaded words is queued behind it. -/
def aheadActs : List CtrlAct :=
  [.submit 1 2 (.write [7, 8, 9] 1), .pick, .dispatch, .grant, .tick, .submit 0 0 (.read 1 2)]

def aheadState : Ctrl := ((Ctrl.started demoDram demoValid 10).run 3 aheadActs).getD (Ctrl.started demoDram [] 0)

theorem ahead_run : (Ctrl.started demoDram demoValid 10).run 3 aheadActs = some aheadState := by decide +kernel

/-- Then a write of word 3 is submitted, the controller works, and a read that cannot be served arrives. -/
def afterActs : List CtrlAct :=
  [.pick, .dispatch, .pick, .dispatch, .tick, .tick, .complete, .grant, .submit 0 6 (.read 1 1), .pick, .dispatch] ++
    List.replicate 6 .tick ++ [.complete, .grant] ++ List.replicate 3 .tick ++ [.complete, .tick, .tick]

def afterState : Ctrl :=
  ((aheadState.submit 2 3 (.write [1] 1)).run 3 afterActs).getD (Ctrl.started demoDram [] 0)

theorem after_run : (aheadState.submit 2 3 (.write [1] 1)).run 3 afterActs = some afterState := by decide +kernel

def aheadReq : Req := { id := 2, core := 2, start := 3, kind := .write [1] 1, submitTime := 11 }

example := C64_response 3 demoDram demoValid 10 rfl rfl aheadActs afterActs aheadState afterState ahead_run
  (by decide +kernel) 2 3 (.write [1] 1) aheadReq (by decide +kernel) (Or.inl rfl) after_run (by decide +kernel)
/-- The write in service ends at 13, the read of two batches takes 6 cycles, the write itself 3. -/
example : aheadState.now = 11 ∧ aheadState.clearAt 3 = 19 ∧ serviceTime 3 aheadReq = 3 ∧
    afterState.answers.map (fun a => (a.req.id, a.time)) = [(0, 13), (1, 19), (2, 22)] := by decide +kernel

/-- A read of preloaded words is submitted to an idle controller. -/
def idleReq : Req := { id := 0, core := 0, start := 0, kind := .read 1 2, submitTime := 10 }

def idleEnd : Ctrl :=
  (((Ctrl.started demoDram demoValid 10).submit 0 0 (.read 1 2)).run 3
    ([.pick, .dispatch, .grant] ++ List.replicate 6 .tick ++ [.complete, .tick])).getD (Ctrl.started demoDram [] 0)

example := C64_idle 3 demoDram demoValid 10 rfl rfl [] ([.pick, .dispatch, .grant] ++ List.replicate 6 .tick ++
    [.complete, .tick]) (Ctrl.started demoDram demoValid 10) idleEnd rfl rfl (by decide) 0 0 (.read 1 2) idleReq
  (by decide) (Or.inr ⟨by decide, by decide, by
    intro a ha
    have : a = 0 ∨ a = 1 := by
      obtain ⟨h1, h2⟩ := ha
      simp only [idleReq, Req.length] at h1 h2
      omega
    rcases this with rfl | rfl <;> rfl⟩) (by decide +kernel) (by decide +kernel)
example : idleEnd.answers = [.read idleReq 16 [5, 6]] := by decide +kernel

end Ramwich
