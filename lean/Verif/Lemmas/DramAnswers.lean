import Verif.Lemmas.DramLine

/-! # Answers and times of a DRAM controller -/
namespace Ramwich

open Spec

theorem snoc_split {α : Type} {l l1 l2 : List α} {x y : α} (h : l ++ [x] = l1 ++ y :: l2) :
    (l2 = [] ∧ l1 = l ∧ y = x) ∨ ∃ l2', l2 = l2' ++ [x] ∧ l = l1 ++ y :: l2' := by
  rcases List.eq_nil_or_concat l2 with rfl | ⟨l2', z, rfl⟩
  · have h' : l ++ [x] = l1 ++ [y] := h
    obtain ⟨h1, h2⟩ := List.append_inj' h' rfl
    simp at h2
    exact Or.inl ⟨rfl, h1.symm, h2.symm⟩
  · rw [List.concat_eq_append] at h ⊢
    have h' : l ++ [x] = (l1 ++ y :: l2') ++ [z] := by rw [h]; simp
    obtain ⟨h1, h2⟩ := List.append_inj' h' rfl
    simp at h2
    subst h2
    exact Or.inr ⟨l2', rfl, h1⟩

/-- A read answered after the answers `before` on a DRAM that first held `m0`, `v0`. -/
structure GoodRead (m0 : Memory) (v0 : List Bool) (submitted : List Req) (before : List Answer)
    (r : Req) (data : List I32) : Prop where
  inside : inDram m0.size r
  pos : 0 < r.length
  value : data = (List.range r.length.toNat).map fun i : Nat =>
    wordAfter (m0.cells.getD (r.start.toNat + i) 0) (writesOf before) (r.start.toNat + i)
  valid : ∀ a, covers r a → wordValid (v0.getD a false) (writesOf before) a = true
  seen : ∀ w ∈ submitted, w.isWrite = true → w.id < r.id → w ∈ writesOf before

/-- The answers given so far. -/
structure CtrlAns (m0 : Memory) (v0 : List Bool) (c : Ctrl) : Prop where
  reads : ∀ l1 r t d l2, c.answers = l1 ++ .read r t d :: l2 → GoodRead m0 v0 c.submitted l1 r d
  writes : ∀ r t, .wrote r t ∈ c.answers → inDram m0.size r

theorem ctrlAns_step (lat : Int) (m0 : Memory) (v0 : List Bool) (c c' : Ctrl) (hm : CtrlMem m0 v0 c)
    (hl : CtrlLine c) (h : CtrlAns m0 v0 c) {act : CtrlAct} (st : CtrlStep lat c act c') : CtrlAns m0 v0 c' := by
  cases st with
  | crash e => exact ⟨h.1, h.2⟩
  | submit core start kind hr =>
    refine ⟨?_, h.2⟩
    intro l1 r t d l2 he
    have g := h.reads l1 r t d l2 he
    refine ⟨g.1, g.2, g.3, g.4, ?_⟩
    intro w hw hww hid
    rcases List.mem_append.1 hw with hw | hw
    · exact g.5 w hw hww hid
    · exfalso
      rw [List.mem_singleton.1 hw] at hid
      have hr : r ∈ c.submitted := hl.perm.subset (by
        have he' : c.answers = l1 ++ .read r t d :: l2 := he
        rw [he']; simp [Answer.req])
      have := (submitted_mem c hl r hr).1
      simp only [Ctrl.newReq] at hid
      omega
  | pick => exact ⟨h.1, h.2⟩
  | toBus => exact ⟨h.1, h.2⟩
  | toPending => exact ⟨h.1, h.2⟩
  | grant => exact ⟨h.1, h.2⟩
  | tick => exact ⟨h.1, h.2⟩
  | stopped => exact h
  | stop => exact ⟨h.1, h.2⟩
  | read r rest mem data h1 h2 h3 h4 =>
    obtain ⟨hs0, hs1, hs2, hd, e1, e2⟩ := mem_read_inv h4
    rw [hm.size] at hs1
    refine ⟨?_, ?_⟩
    · intro l1 r' t d l2 he
      rcases snoc_split he with ⟨rfl, rfl, hx⟩ | ⟨l2', rfl, he'⟩
      · injection hx with hr ht hd'
        subst hr ht hd'
        have hle : r'.start + r'.length ≤ c.mem.cells.length := by rw [hm.len]; exact hs1
        have hle' : r'.start + r'.length ≤ c.valid.length := by rw [hm.vlen]; exact hs1
        refine ⟨⟨hs0, hs1⟩, hs2, ?_, ?_, ?_⟩
        · rw [hd, pySlice_getD c.mem.cells r'.start r'.length 0 hs0 hle (by omega)]
          apply List.map_congr_left
          intro i hi
          rw [List.mem_range] at hi
          exact hm.cells _ (by omega)
        · intro a ha
          have hrdy := hl.busReady r' (by rw [h1]; simp) h3
          unfold ready at hrdy
          rw [pySlice_mem_valid _ _ _ hs0 hle' (by omega)] at hrdy
          rw [← hm.vals a (by have := ha.2; omega)]
          exact hrdy a ha.1 ha.2
        · intro w hw hww hid
          have hw' : w ∈ c.submitted.filter Req.isWrite := List.mem_filter.2 ⟨hw, hww⟩
          rw [hl.writes, List.mem_append] at hw'
          rcases hw' with hw' | hw'
          · exact hw'
          · exfalso
            have e1 : c.line = r' :: (rest ++ c.handed.toList ++ c.queue) := by simp [Ctrl.line, h1]
            have hord := hl.order
            rw [e1, List.pairwise_cons] at hord
            rw [e1] at hw'
            have hmem := (List.mem_filter.1 hw').1
            rcases List.mem_cons.1 hmem with rfl | hmem
            · rw [h3] at hww; exact absurd hww (by simp)
            · have := hord.1 w hmem h3 hww
              omega
      · exact h.reads l1 r' t d l2' he'
    · intro r' t hr'
      rcases List.mem_append.1 hr' with hr' | hr'
      · exact h.writes r' t hr'
      · simp at hr'
  | write r rest mem data rows h1 h2 h3 h4 =>
    obtain ⟨hs0, hs1, -, -⟩ := mem_write_inv h4
    rw [hm.size] at hs1
    refine ⟨?_, ?_⟩
    · intro l1 r' t d l2 he
      rcases snoc_split he with ⟨rfl, rfl, hx⟩ | ⟨l2', rfl, he'⟩
      · cases hx
      · exact h.reads l1 r' t d l2' he'
    · intro r' t hr'
      rcases List.mem_append.1 hr' with hr' | hr'
      · exact h.writes r' t hr'
      · simp only [List.mem_singleton, Answer.wrote.injEq] at hr'
        rw [hr'.1]
        exact ⟨hs0, by rw [(isWrite_of_kind h3).2]; exact hs1⟩

/-! ## Times and statistics -/

/-- Service time of a request. -/
def service (lat : Int) (r : Req) : Int := lat * r.numBatches

/-- Sum of a quantity over a list of requests. -/
def totalOf (f : Req → Int) (rs : List Req) : Int := (rs.map f).sum

/-- How long an answered request waited. -/
def waited (a : Answer) : Int := a.time - a.req.submitTime

structure CtrlTime (lat : Int) (t0 : Nat) (c : Ctrl) : Prop where
  start : c.startTime = t0
  begun : t0 ≤ c.now
  past : ∀ r ∈ c.submitted, t0 ≤ r.submitTime ∧ r.submitTime ≤ c.now
  answered : ∀ a ∈ c.answers, a.time ≤ c.now ∧ 0 ≤ service lat a.req ∧
    service lat a.req ≤ waited a
  gap : c.answers.Pairwise fun a b => (a.time : Int) + service lat b.req ≤ b.time
  serving : ∀ d, c.deadline = some d → ∃ r rest, c.bus = r :: rest ∧ c.now ≤ d ∧
    0 ≤ service lat r ∧ r.submitTime + service lat r ≤ d ∧
    (∀ a ∈ c.answers, (a.time : Int) + service lat r ≤ d) ∧
    t0 + c.stats.operatingTime + service lat r ≤ d
  util : t0 + c.stats.operatingTime ≤ c.now
  operating : c.stats.operatingTime = (c.answers.map fun a => service lat a.req).sum
  waits : c.stats.totalWaitTime = (c.answers.map waited).sum
  maxWait : (∀ a ∈ c.answers, waited a ≤ c.stats.maxWaitTime) ∧
    (c.stats.maxWaitTime = 0 ∨ ∃ a ∈ c.answers, waited a = c.stats.maxWaitTime) ∧
    0 ≤ c.stats.maxWaitTime
  readReqs : c.stats.readRequests = totalOf Req.numBatches (c.submitted.filter fun r => !r.isWrite)
  writeReqs : c.stats.writeRequests = totalOf Req.numBatches (c.submitted.filter Req.isWrite)
  totalReqs : c.stats.totalRequests = totalOf Req.numBatches c.submitted

theorem totalOf_snoc (f : Req → Int) (rs : List Req) (r : Req) : totalOf f (rs ++ [r]) = totalOf f rs + f r := by
  simp [totalOf]

theorem ctrlTime_answer (lat : Int) (t0 : Nat) (c c' : Ctrl) (h : CtrlTime lat t0 c) (a : Answer)
    (rest : List Req) (h1 : c.bus = a.req :: rest) (h2 : c.deadline = some c.now)
    (ha : a.time = c.now)
    (e1 : c'.startTime = c.startTime) (e2 : c'.now = c.now) (e3 : c'.submitted = c.submitted)
    (e4 : c'.answers = c.answers ++ [a]) (e5 : c'.deadline = none)
    (e6 : c'.stats = c.stats.complete (c.now - a.req.submitTime) (service lat a.req)) :
    CtrlTime lat t0 c' := by
  obtain ⟨r, rest', hb, hnow, hs, hsub, hgap, hut⟩ := h.serving _ h2
  rw [h1] at hb
  injection hb with hb1 hb2
  subst hb1
  have hwait : waited a = c.now - a.req.submitTime := by unfold waited; rw [ha]
  refine ⟨by rw [e1]; exact h.start, by rw [e2]; exact h.begun, by rw [e3, e2]; exact h.past,
    ?_, ?_, ?_, ?_, ?_, ?_, ?_, ?_, ?_, ?_⟩
  · rw [e4, e2]
    intro x hx
    rcases List.mem_append.1 hx with hx | hx
    · exact h.answered x hx
    · rw [List.mem_singleton.1 hx]
      exact ⟨by omega, hs, by rw [hwait]; omega⟩
  · rw [e4, List.pairwise_append]
    refine ⟨h.gap, List.pairwise_singleton _ _, ?_⟩
    intro x hx y hy
    rw [List.mem_singleton.1 hy, ha]
    exact hgap x hx
  · intro d hd; rw [e5] at hd; exact absurd hd (by simp)
  · rw [e6, e2]; show (t0 : Int) + (c.stats.operatingTime + service lat a.req) ≤ _; omega
  · rw [e6, e4]; show c.stats.operatingTime + service lat a.req = _
    rw [h.operating]; simp
  · rw [e6, e4]; show c.stats.totalWaitTime + _ = _
    rw [h.waits, ← hwait]; simp
  · have hmax : c'.stats.maxWaitTime = max c.stats.maxWaitTime (waited a) := by
      rw [e6, hwait]; rfl
    rw [hmax, e4]
    refine ⟨?_, ?_, ?_⟩
    · intro x hx
      rcases List.mem_append.1 hx with hx | hx
      · have := h.maxWait.1 x hx; omega
      · rw [List.mem_singleton.1 hx]; omega
    · by_cases hc : waited a ≤ c.stats.maxWaitTime
      · rw [max_eq_left hc]
        rcases h.maxWait.2.1 with h0 | ⟨x, hx, hx'⟩
        · exact Or.inl h0
        · exact Or.inr ⟨x, List.mem_append_left _ hx, hx'⟩
      · rw [max_eq_right (by omega)]
        exact Or.inr ⟨a, by simp, rfl⟩
    · have := h.maxWait.2.2; omega
  · rw [e6, e3]; exact h.readReqs
  · rw [e6, e3]; exact h.writeReqs
  · rw [e6, e3]; exact h.totalReqs

theorem ctrlTime_step (lat : Int) (t0 : Nat) (c c' : Ctrl) (hl : CtrlLine c) (h : CtrlTime lat t0 c)
    {act : CtrlAct} (st : CtrlStep lat c act c') : CtrlTime lat t0 c' := by
  cases st with
  | crash e => exact ⟨h.1, h.2, h.3, h.4, h.5, h.6, h.7, h.8, h.9, h.10, h.11, h.12, h.13⟩
  | pick => exact ⟨h.1, h.2, h.3, h.4, h.5, h.6, h.7, h.8, h.9, h.10, h.11, h.12, h.13⟩
  | toPending => exact ⟨h.1, h.2, h.3, h.4, h.5, h.6, h.7, h.8, h.9, h.10, h.11, h.12, h.13⟩
  | stopped => exact h
  | stop => exact ⟨h.1, h.2, h.3, h.4, h.5, h.6, h.7, h.8, h.9, h.10, h.11, h.12, h.13⟩
  | submit core start kind hr =>
    have hst : ∀ s : CtrlStats, ∀ r : Req, (s.submitted r).operatingTime = s.operatingTime ∧
        (s.submitted r).totalWaitTime = s.totalWaitTime ∧ (s.submitted r).maxWaitTime = s.maxWaitTime ∧
        (s.submitted r).readRequests = s.readRequests + (if r.isWrite then 0 else r.numBatches) ∧
        (s.submitted r).writeRequests = s.writeRequests + (if r.isWrite then r.numBatches else 0) ∧
        (s.submitted r).totalRequests = s.totalRequests + r.numBatches := by
      intro s r
      unfold CtrlStats.submitted Req.isWrite
      cases r.kind <;> simp
    obtain ⟨s1, s2, s3, s4, s5, s6⟩ := hst c.stats (c.newReq core start kind)
    refine ⟨h.1, h.2, ?_, h.4, h.5, ?_, ?_, ?_, ?_, ?_, ?_, ?_, ?_⟩
    · intro r hr
      rcases List.mem_append.1 hr with hr | hr
      · exact h.past r hr
      · rw [List.mem_singleton.1 hr]; exact ⟨h.begun, Nat.le_refl _⟩
    · dsimp only; rw [s1]; exact h.serving
    · dsimp only; rw [s1]; exact h.util
    · dsimp only; rw [s1]; exact h.operating
    · dsimp only; rw [s2]; exact h.waits
    · dsimp only; rw [s3]; exact h.maxWait
    · dsimp only
      rw [s4, h.readReqs, List.filter_append]
      generalize c.newReq core start kind = r
      cases hw : r.isWrite <;> simp [hw, totalOf]
    · dsimp only
      rw [s5, h.writeReqs, List.filter_append]
      generalize c.newReq core start kind = r
      cases hw : r.isWrite <;> simp [hw, totalOf]
    · dsimp only
      rw [s6, h.totalReqs, totalOf_snoc]
  | toBus r h1 h2 =>
    refine ⟨h.1, h.2, h.3, h.4, h.5, ?_, h.7, h.8, h.9, h.10, h.11, h.12, h.13⟩
    intro d hd
    obtain ⟨r', rest, hb, hx⟩ := h.serving d hd
    exact ⟨r', rest ++ [r], by dsimp only; rw [hb]; rfl, hx⟩
  | grant r rest h1 h2 h3 =>
    refine ⟨h.1, h.2, h.3, h.4, h.5, ?_, h.7, h.8, h.9, h.10, h.11, h.12, h.13⟩
    intro d hd
    dsimp only at hd
    injection hd with hd
    have hs : 0 ≤ service lat r := h3
    have hd' : (d : Int) = c.now + service lat r := by
      rw [← hd]; unfold service; push_cast; omega
    refine ⟨r, rest, h1, by dsimp only; omega, hs, ?_, ?_, ?_⟩
    · have := (h.past r (line_mem c hl r (by simp [Ctrl.line, h1]))).2
      omega
    · intro a ha
      have := (h.answered a ha).1
      omega
    · have := h.util; dsimp only; omega
  | tick hq =>
    refine ⟨h.1, ?_, ?_, ?_, h.5, ?_, ?_, h.8, h.9, h.10, h.11, h.12, h.13⟩
    · have := h.begun; dsimp only; omega
    · intro r hr; have := h.past r hr; dsimp only; omega
    · intro a ha; have := h.answered a ha; exact ⟨by dsimp only; omega, this.2⟩
    · intro d hd
      obtain ⟨r, rest, hb, hnow, hx⟩ := h.serving d hd
      refine ⟨r, rest, hb, ?_, hx⟩
      have hd' : c.deadline = some d := hd
      unfold Ctrl.quiescent at hq
      rw [hb, hd'] at hq
      simp only [Bool.and_eq_true, decide_eq_true_eq] at hq
      exact hq.2
    · have := h.util; dsimp only; push_cast; omega
  | read r rest mem data h1 h2 h3 h4 =>
    exact ctrlTime_answer lat t0 c _ h (.read r c.now data) rest h1 h2 rfl rfl rfl rfl rfl rfl rfl
  | write r rest mem data rows h1 h2 h3 h4 =>
    exact ctrlTime_answer lat t0 c _ h (.wrote r c.now) rest h1 h2 rfl rfl rfl rfl rfl rfl rfl

/-! ## Reachable states -/

/-- The DRAM contents and validity that a controller starts with. -/
structure GoodStart (m0 : Memory) (v0 : List Bool) : Prop where
  len : m0.cells.length = m0.size
  vlen : v0.length = m0.size

structure CtrlInv (lat : Int) (m0 : Memory) (v0 : List Bool) (t0 : Nat) (c : Ctrl) : Prop where
  mem : CtrlMem m0 v0 c
  line : CtrlLine c
  ans : CtrlAns m0 v0 c
  time : CtrlTime lat t0 c

theorem ctrlInv_started (lat : Int) (m0 : Memory) (v0 : List Bool) (t0 : Nat) (h : GoodStart m0 v0) :
    CtrlInv lat m0 v0 t0 (Ctrl.started m0 v0 t0) := by
  refine ⟨⟨rfl, h.len, h.vlen, fun a _ => rfl, fun a _ => rfl⟩, ?_, ?_, ?_⟩
  · refine ⟨?_, ?_, ?_, rfl, ?_, ?_, ?_, ?_⟩ <;> simp [Ctrl.started, Ctrl.line]
  · refine ⟨?_, ?_⟩ <;> simp [Ctrl.started]
  · refine ⟨rfl, Nat.le_refl _, ?_, ?_, ?_, ?_, ?_, rfl, rfl, ?_, rfl, rfl, rfl⟩ <;> simp [Ctrl.started]

theorem ctrlInv_step (lat : Int) (m0 : Memory) (v0 : List Bool) (t0 : Nat) (c c' : Ctrl)
    (h : CtrlInv lat m0 v0 t0 c) {act : CtrlAct} (st : CtrlStep lat c act c') : CtrlInv lat m0 v0 t0 c' :=
  ⟨ctrlMem_step lat m0 v0 c c' h.mem st, ctrlLine_step lat m0 v0 c c' h.mem h.line st,
    ctrlAns_step lat m0 v0 c c' h.mem h.line h.ans st, ctrlTime_step lat t0 c c' h.line h.time st⟩

theorem ctrlInv_run (lat : Int) (m0 : Memory) (v0 : List Bool) (t0 : Nat) (h0 : GoodStart m0 v0)
    (acts : List CtrlAct) (c : Ctrl) (h : (Ctrl.started m0 v0 t0).run lat acts = some c) :
    CtrlInv lat m0 v0 t0 c :=
  run_induction lat (CtrlInv lat m0 v0 t0) (fun c c' _ h st => ctrlInv_step lat m0 v0 t0 c c' h st) acts _ c
    (ctrlInv_started lat m0 v0 t0 h0) h

end Ramwich
