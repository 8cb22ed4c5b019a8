import Verif.Lemmas.DramProgress

/-! # Properties of the DRAM controller (C28 - C36)

Every theorem is about all runs: `acts` is any sequence of submissions, controller steps, clock ticks
and stops that is possible from a started controller, whatever the DRAM holds at the start. -/
namespace Ramwich

open Spec

/-- A DRAM of 8 words whose first two have been preloaded with 5 and 6. -/
def demoDram : Memory := { size := 8, cells := [5, 6, 0, 0, 0, 0, 0, 0] }
def demoValid : List Bool := [true, true, false, false, false, false, false, false]

/-- One request through the controller: picked, dispatched, served for `n` cycles. -/
def serve (n : Nat) : List CtrlAct :=
  [.pick, .dispatch, .grant] ++ List.replicate n .tick ++ [.complete]

/-- A read of words 1-4 waits for the write of words 2-4 submitted after it; a second write of word 3
is queued behind the released read. -/
def demoActs : List CtrlAct :=
  [.submit 0 1 (.read 2 2), .pick, .dispatch, .submit 1 2 (.write [7, 8, 9] 1)] ++ serve 3 ++
    [.submit 2 3 (.write [1] 1), .submit 0 0 (.read 4 1), .pick, .dispatch, .pick, .dispatch, .pick,
      .dispatch, .grant] ++ List.replicate 6 .tick ++ [.complete, .grant] ++ List.replicate 3 .tick ++
    [.complete, .grant] ++ List.replicate 3 .tick ++ [.complete]

def demoEnd : Ctrl := ((Ctrl.started demoDram demoValid 10).run 3 demoActs).getD (Ctrl.started demoDram [] 0)

theorem demo_run : (Ctrl.started demoDram demoValid 10).run 3 demoActs = some demoEnd := by
  decide +kernel

/-- The last request of the example. -/
def demoLast : Req := { id := 3, core := 0, start := 0, kind := .read 4 1, submitTime := 13 }

/-- The answers of the example: the released read sees the first write, the last one also the second. -/
example : demoEnd.answers.map (fun a => (a.req.id, a.time)) = [(1, 13), (0, 19), (2, 22), (3, 25)] ∧
    demoEnd.answers.getLast? =
      some (.read demoLast 25 [5, 6, 7, 1]) ∧
    demoEnd.idle := by
  decide +kernel

/-! ## C28 -/

/-- C28: a read is answered only inside the DRAM and when all its words have been written or preloaded;
it returns for every word the value of the last write answered before it, or the preloaded value. -/
theorem C28_read_latest (lat : Int) (m0 : Memory) (v0 : List Bool) (t0 : Nat)
    (hm : m0.cells.length = m0.size) (hv : v0.length = m0.size) (acts : List CtrlAct) (c : Ctrl)
    (hrun : (Ctrl.started m0 v0 t0).run lat acts = some c)
    (before after : List Answer) (r : Req) (t : Nat) (data : List I32)
    (h : c.answers = before ++ .read r t data :: after) :
    inDram m0.size r ∧ (data.length : Int) = r.length ∧ 0 < r.length ∧
      ∀ a : Nat, covers r a →
        wordValid (v0.getD a false) (writesOf before) a = true ∧
        data[a - r.start.toNat]? = some (wordAfter (m0.cells.getD a 0) (writesOf before) a) := by
  have hi := ctrlInv_run lat m0 v0 t0 ⟨hm, hv⟩ acts c hrun
  have g := hi.ans.reads before r t data after h
  have hlen : data.length = r.length.toNat := by rw [g.value]; simp
  have hpos := g.pos
  refine ⟨g.inside, by omega, hpos, fun a ha => ⟨g.valid a ha, ?_⟩⟩
  have h0 := g.inside.1
  have h1 := ha.1
  have h2 := ha.2
  rw [g.value, List.getElem?_map, List.getElem?_range (by omega)]
  simp only [Option.map_some]
  rw [show r.start.toNat + (a - r.start.toNat) = a by omega]

example := C28_read_latest 3 demoDram demoValid 10 rfl rfl demoActs demoEnd demo_run
  (demoEnd.answers.take 3) [] demoLast 25 [5, 6, 7, 1] (by decide +kernel)

/-- C28: at every moment the DRAM holds in each word the last answered write (or what it held), and a
word is valid exactly if it was valid at the start or an answered write covers it. -/
theorem C28_contents (lat : Int) (m0 : Memory) (v0 : List Bool) (t0 : Nat)
    (hm : m0.cells.length = m0.size) (hv : v0.length = m0.size) (acts : List CtrlAct) (c : Ctrl)
    (hrun : (Ctrl.started m0 v0 t0).run lat acts = some c) (a : Nat) (ha : a < m0.size) :
    c.mem.cells[a]? = some (wordAfter (m0.cells.getD a 0) (writesOf c.answers) a) ∧
    c.valid[a]? = some (wordValid (v0.getD a false) (writesOf c.answers) a) := by
  have hi := (ctrlInv_run lat m0 v0 t0 ⟨hm, hv⟩ acts c hrun).mem
  constructor
  · rw [← hi.cells a ha, List.getD_eq_getElem?_getD, List.getElem?_eq_getElem (by rw [hi.len]; exact ha)]
    rfl
  · rw [← hi.vals a ha, List.getD_eq_getElem?_getD, List.getElem?_eq_getElem (by rw [hi.vlen]; exact ha)]
    rfl

example := C28_contents 3 demoDram demoValid 10 rfl rfl demoActs demoEnd demo_run 3 (by decide)
example : demoEnd.mem.cells = [5, 6, 7, 1, 9, 0, 0, 0] := by decide +kernel

/-! ## C29, C30 -/

/-- C29: the answered writes are a prefix of the submitted writes. (With `C28_contents` the DRAM is
that prefix applied in order.) -/
theorem C29_writes_in_order (lat : Int) (m0 : Memory) (v0 : List Bool) (t0 : Nat)
    (hm : m0.cells.length = m0.size) (hv : v0.length = m0.size) (acts : List CtrlAct) (c : Ctrl)
    (hrun : (Ctrl.started m0 v0 t0).run lat acts = some c) :
    writesOf c.answers <+: c.submitted.filter Req.isWrite := by
  rw [(ctrlInv_run lat m0 v0 t0 ⟨hm, hv⟩ acts c hrun).line.writes]
  exact List.prefix_append _ _

example := C29_writes_in_order 3 demoDram demoValid 10 rfl rfl demoActs demoEnd demo_run

/-- C30: a read is answered after every write that was submitted before it. -/
theorem C30_sees_earlier_writes (lat : Int) (m0 : Memory) (v0 : List Bool) (t0 : Nat)
    (hm : m0.cells.length = m0.size) (hv : v0.length = m0.size) (acts : List CtrlAct) (c : Ctrl)
    (hrun : (Ctrl.started m0 v0 t0).run lat acts = some c)
    (before after : List Answer) (r : Req) (t : Nat) (data : List I32)
    (h : c.answers = before ++ .read r t data :: after) (early late : List Req)
    (hs : c.submitted = early ++ r :: late) (w : Req) (hw : w ∈ early) (hww : w.isWrite = true) :
    w ∈ writesOf before := by
  have hi := ctrlInv_run lat m0 v0 t0 ⟨hm, hv⟩ acts c hrun
  refine (hi.ans.reads before r t data after h).seen w (by rw [hs]; simp [hw]) hww ?_
  obtain ⟨i, hi1, hi2⟩ := List.mem_iff_getElem.1 hw
  have e1 := hi.line.ids i w (by rw [hs, List.getElem?_append_left hi1, List.getElem?_eq_getElem hi1, hi2])
  have e2 := hi.line.ids early.length r (by rw [hs]; simp)
  omega

example := C30_sees_earlier_writes 3 demoDram demoValid 10 rfl rfl demoActs demoEnd demo_run
  (demoEnd.answers.take 3) [] demoLast 25 [5, 6, 7, 1] (by decide +kernel) (demoEnd.submitted.take 3) [] (by decide +kernel)
  (demoEnd.submitted.getD 1 demoLast) (by decide +kernel)
  (by decide +kernel)

/-! ## C31 -/

/-- C31: every submitted request is in exactly one place - in the store, with the handler, waiting for
data, on the bus, or answered - and in that place once; requests are distinct. -/
theorem C31_exactly_once (lat : Int) (m0 : Memory) (v0 : List Bool) (t0 : Nat)
    (hm : m0.cells.length = m0.size) (hv : v0.length = m0.size) (acts : List CtrlAct) (c : Ctrl)
    (hrun : (Ctrl.started m0 v0 t0).run lat acts = some c) :
    (c.queue ++ c.handed.toList ++ c.pending ++ c.bus ++ c.answers.map Answer.req).Perm c.submitted ∧
    c.submitted.map Req.id = List.range c.submitted.length := by
  have hi := (ctrlInv_run lat m0 v0 t0 ⟨hm, hv⟩ acts c hrun).line
  constructor
  · refine List.Perm.trans ?_ hi.perm
    unfold Ctrl.line
    refine List.Perm.append_right _ ?_
    refine List.Perm.trans (List.perm_append_comm (l₂ := c.bus)) ?_
    simp only [List.append_assoc]
    refine List.Perm.append_left _ ?_
    simp only [← List.append_assoc]
    exact List.Perm.append_right _ List.perm_append_comm
  · apply List.ext_getElem? 
    intro i
    rw [List.getElem?_map]
    by_cases hlt : i < c.submitted.length
    · rw [List.getElem?_eq_getElem hlt, List.getElem?_range hlt, Option.map_some,
        hi.ids i _ (List.getElem?_eq_getElem hlt)]
    · rw [List.getElem?_eq_none (by omega), List.getElem?_eq_none (by simp; omega)]
      rfl

/-- C31: no request is answered twice. -/
theorem C31_answered_once (lat : Int) (m0 : Memory) (v0 : List Bool) (t0 : Nat)
    (hm : m0.cells.length = m0.size) (hv : v0.length = m0.size) (acts : List CtrlAct) (c : Ctrl)
    (hrun : (Ctrl.started m0 v0 t0).run lat acts = some c) :
    (c.answers.map fun a => a.req.id).Nodup := by
  obtain ⟨h1, h2⟩ := C31_exactly_once lat m0 v0 t0 hm hv acts c hrun
  have h3 : (c.submitted.map Req.id).Nodup := by rw [h2]; exact List.nodup_range
  have h4 := (h1.map Req.id).nodup_iff.2 h3
  rw [List.map_append, List.nodup_append] at h4
  have h5 := h4.2.1
  rw [List.map_map] at h5
  exact h5

example := C31_exactly_once 3 demoDram demoValid 10 rfl rfl demoActs demoEnd demo_run
example := C31_answered_once 3 demoDram demoValid 10 rfl rfl demoActs demoEnd demo_run

/-! ## C32: the waiting list -/

/-- C32: a pass over the waiting list splits it: both parts keep their order, nothing is lost or
duplicated, and every released read is ready. -/
theorem C32_released (valid : List Bool) (waiting : List Req) (hn : waiting.Nodup)
    (put left : List Req) (h : updateReady valid waiting = (put, left)) :
    put.Sublist waiting ∧ left.Sublist waiting ∧ (put ++ left).Perm waiting ∧
      ∀ r ∈ put, ready valid r = true := by
  rw [updateReady_release valid waiting hn] at h
  have h1 := release_sublist (ready valid) waiting
  have h2 := release_perm (ready valid) waiting
  have h3 := release_ready (ready valid) waiting
  rw [h] at h1 h2 h3
  exact ⟨h1.1, h1.2, h2, h3⟩

theorem release_first (ok : Req → Bool) (pre post : List Req) (r : Req)
    (hpre : ∀ x ∈ pre, ok x = false) (hr : ok r = true) :
    r ∈ (release ok (pre ++ r :: post)).1 := by
  induction pre with
  | nil => cases post <;> simp [release, hr]
  | cons x xs ih =>
    rw [List.cons_append, release_neg ok x _ (by rw [hpre x (by simp)]; simp)]
    exact ih (fun y hy => hpre y (by simp [hy]))

theorem release_left (ok : Req → Bool) (l : List Req) (r : Req) (h : r ∈ (release ok l).2)
    (hr : ok r = true) :
    ∃ pre x post, l = pre ++ x :: r :: post ∧ x ∈ (release ok l).1 := by
  induction l using release.induct (ok := ok) with
  | case1 => simp [release] at h
  | case2 y hy => simp [release, hy] at h
  | case3 y hy x rest ih =>
    simp only [release, hy, if_true] at h ⊢
    rcases List.mem_cons.1 h with rfl | h
    · exact ⟨[], y, rest, rfl, by simp⟩
    · obtain ⟨pre, z, post, he, hz⟩ := ih h
      exact ⟨y :: x :: pre, z, post, by rw [he]; simp, List.mem_cons_of_mem _ hz⟩
  | case4 y rest hy ih =>
    rw [release_neg ok y rest hy] at h ⊢
    rcases List.mem_cons.1 h with rfl | h
    · exact absurd hr hy
    · obtain ⟨pre, z, post, he, hz⟩ := ih h
      exact ⟨y :: pre, z, post, by rw [he]; simp, hz⟩

/-- C32: the first ready waiting read is released. -/
theorem C32_first (valid : List Bool) (pre post : List Req) (r : Req)
    (hn : (pre ++ r :: post).Nodup) (hpre : ∀ x ∈ pre, ready valid x = false)
    (hr : ready valid r = true) :
    r ∈ (updateReady valid (pre ++ r :: post)).1 := by
  rw [updateReady_release valid _ hn]
  exact release_first _ pre post r hpre hr

/-- C32: a ready read stays in the list only if the read before it was released in the same pass. -/
theorem C32_skipped (valid : List Bool) (waiting : List Req) (hn : waiting.Nodup) (r : Req)
    (hleft : r ∈ (updateReady valid waiting).2) (hr : ready valid r = true) :
    ∃ pre x post, waiting = pre ++ x :: r :: post ∧ x ∈ (updateReady valid waiting).1 := by
  rw [updateReady_release valid waiting hn] at hleft ⊢
  exact release_left _ waiting r hleft hr

/-- Two cores wait for word 2, one write provides it. -/
def skipActs : List CtrlAct :=
  [.submit 0 2 (.read 1 1), .submit 1 2 (.read 1 1), .pick, .dispatch, .pick, .dispatch,
    .submit 2 2 (.write [7] 1)] ++ serve 3 ++ serve 3

def skipEnd : Ctrl := ((Ctrl.started demoDram demoValid 0).run 3 skipActs).getD (Ctrl.started demoDram [] 0)

def skippedRead : Req := { id := 1, core := 1, start := 2, kind := .read 1 1, submitTime := 0 }

example := C32_released demoValid [skippedRead] (by decide +kernel) [] [skippedRead] (by decide +kernel)
example := C32_first [true, true, true] [] [skippedRead] { skippedRead with id := 0 } (by decide +kernel)
  (by decide) (by decide +kernel)
example := C32_skipped [true, true, true] [{ skippedRead with id := 0 }, skippedRead] (by decide +kernel)
  skippedRead (by decide +kernel) (by decide +kernel)

/-- C32: the claim "when the controller is idle no waiting read has all its data" is false: after the
write one read is answered, the other stays in the list although its word is valid. -/
theorem C32_skip_witness :
    (Ctrl.started demoDram demoValid 0).run 3 skipActs = some skipEnd ∧ skipEnd.idle ∧
      skipEnd.crashed = none ∧ skipEnd.running = true ∧
      skipEnd.pending = [skippedRead] ∧ ready skipEnd.valid skippedRead = true ∧
      skipEnd.answers.map (fun a => a.req.id) = [2, 0] := by
  decide +kernel

/-- C32: reads that wait while no write is under way wait for as long as no write is submitted,
whether their data is there or not. -/
theorem C32_waits_forever (lat : Int) (c c' : Ctrl) (hline : ∀ r ∈ c.bus ++ c.handed.toList ++ c.queue, r.isWrite = false)
    (acts : List CtrlAct) (hacts : ∀ a ∈ acts, ∀ core start data rows, a ≠ .submit core start (.write data rows))
    (hrun : c.run lat acts = some c') (r : Req) (hr : r ∈ c.pending) : r ∈ c'.pending := by
  refine pending_kept lat acts c c' hline ?_ hrun hr
  intro a ha
  have := hacts a ha
  cases a with
  | submit core start kind =>
    cases kind with
    | read => rfl
    | write data rows => exact absurd rfl (this core start data rows)
  | _ => rfl

/-- C32: in particular the skipped read is never answered without a further write. -/
theorem C32_skipped_forever (acts : List CtrlAct)
    (hacts : ∀ a ∈ acts, ∀ core start data rows, a ≠ .submit core start (.write data rows)) (c' : Ctrl)
    (hrun : skipEnd.run 3 acts = some c') : skippedRead ∈ c'.pending :=
  C32_waits_forever 3 skipEnd c' (by decide +kernel) acts hacts hrun skippedRead (by decide +kernel)

example := C32_skipped_forever ([.submit 0 2 (.read 1 1)] ++ serve 3) (by simp [serve]) _
  (Option.some_get (x := skipEnd.run 3 ([.submit 0 2 (.read 1 1)] ++ serve 3)) (by decide +kernel)).symm

/-! ## C33: progress -/

/-- C33: a running controller that is not idle can do something. -/
theorem C33_not_stuck (lat : Int) (m0 : Memory) (v0 : List Bool) (t0 : Nat)
    (hm : m0.cells.length = m0.size) (hv : v0.length = m0.size) (acts : List CtrlAct) (c : Ctrl)
    (hrun : (Ctrl.started m0 v0 t0).run lat acts = some c) (hr : c.running = true)
    (hc : c.crashed = none) (hn : ¬c.idle) :
    ∃ a c', a.internal = true ∧ c.act lat a = some c' := by
  have hi := ctrlInv_run lat m0 v0 t0 ⟨hm, hv⟩ acts c hrun
  refine work_exists lat c hc ?_ ?_ hn
  · rw [← alive_run lat m0 v0 t0 acts c hrun]; exact hr
  · intro d hd
    obtain ⟨r, rest, -, h, -⟩ := hi.time.serving d hd
    exact h

/-- C33: without new submissions a running controller is idle after a bounded number of steps,
whatever their order. -/
theorem C33_becomes_idle (lat : Int) (m0 : Memory) (v0 : List Bool) (t0 : Nat)
    (hm : m0.cells.length = m0.size) (hv : v0.length = m0.size) (acts : List CtrlAct) (c : Ctrl)
    (hrun : (Ctrl.started m0 v0 t0).run lat acts = some c) (hr : c.running = true) :
    ∃ bound, ∀ more, Works lat c more → more.length ≤ bound :=
  ⟨c.weight lat + 1, fun more hmore => works_bound lat m0 v0 t0 more c
    (ctrlInv_run lat m0 v0 t0 ⟨hm, hv⟩ acts c hrun)
    (by rw [← alive_run lat m0 v0 t0 acts c hrun]; exact hr) hmore⟩

/-- C33: if at most one read ever waits, every read is inside the DRAM and asks only for words that are
preloaded or that some submitted write provides, then an idle controller has answered everything. -/
theorem C33_all_answered (lat : Int) (m0 : Memory) (v0 : List Bool) (t0 : Nat)
    (hm : m0.cells.length = m0.size) (hv : v0.length = m0.size) (acts : List CtrlAct) (c : Ctrl)
    (hrun : (Ctrl.started m0 v0 t0).run lat acts = some c) (hidle : c.idle)
    (hone : ∀ pre s, pre <+: acts → (Ctrl.started m0 v0 t0).run lat pre = some s → s.pending.length ≤ 1)
    (hreads : ∀ r ∈ c.submitted, r.isWrite = false → inDram m0.size r ∧ 0 ≤ r.length ∧
      ∀ a, covers r a → v0.getD a false = true ∨ ∃ w ∈ c.submitted, w.isWrite = true ∧ covers w a) :
    (c.answers.map Answer.req).Perm c.submitted := by
  have hi := ctrlInv_run lat m0 v0 t0 ⟨hm, hv⟩ acts c hrun
  have hnr : NoReady c := noReady_run lat m0 v0 t0 acts _ c (ctrlInv_started lat m0 v0 t0 ⟨hm, hv⟩)
    (by intro r hr; simp [Ctrl.started] at hr) hone hrun
  have hline : c.line = [] := by simp [Ctrl.line, hidle.1, hidle.2.1, hidle.2.2]
  have hw : writesOf c.answers = c.submitted.filter Req.isWrite := by
    rw [hi.line.writes, hline]; simp
  have hp : c.pending = [] := by
    rw [List.eq_nil_iff_forall_not_mem]
    intro r hr
    have hrs := pending_mem c hi.line r hr
    obtain ⟨⟨h0, h1⟩, h2, h3⟩ := hreads r hrs (hi.line.reads r hr)
    have := hnr r hr
    rw [← Bool.not_eq_true] at this
    apply this
    unfold ready
    rw [pySlice_mem_valid _ _ _ h0 (by rw [hi.mem.vlen]; exact h1) h2]
    intro a ha1 ha2
    rw [hi.mem.vals a (by omega), hw]
    have key : ∀ (ws : List Req) (b : Bool), (b = true ∨ ∃ w ∈ ws, covers w a) → wordValid b ws a = true := by
      intro ws
      induction ws with
      | nil => intro b hb; rcases hb with hb | ⟨w, hw, -⟩
               · exact hb
               · exact absurd hw (by simp)
      | cons w ws ih =>
        intro b hb
        show wordValid (if covers w a then true else b) ws a = true
        apply ih
        rcases hb with hb | ⟨x, hx, hxa⟩
        · left; split <;> simp [hb]
        · rcases List.mem_cons.1 hx with rfl | hx
          · left; rw [if_pos hxa]
          · exact Or.inr ⟨x, hx, hxa⟩
    apply key
    rcases h3 a ⟨ha1, ha2⟩ with hb | ⟨w, hw1, hw2, hw3⟩
    · exact Or.inl hb
    · exact Or.inr ⟨w, List.mem_filter.2 ⟨hw1, hw2⟩, hw3⟩
  have := hi.line.perm
  rw [hline, hp] at this
  simpa using this

/-- The example run never has two waiting reads. -/
theorem demo_pending : ∀ pre s, pre <+: demoActs →
    (Ctrl.started demoDram demoValid 10).run 3 pre = some s → s.pending.length ≤ 1 := by
  intro pre s hpre hs
  have hall : ∀ p ∈ demoActs.inits, ∀ s ∈ (Ctrl.started demoDram demoValid 10).run 3 p,
      s.pending.length ≤ 1 := by decide +kernel
  exact hall pre ((List.mem_inits _ _).2 hpre) s hs

example := C33_not_stuck 3 demoDram demoValid 10 rfl rfl [.submit 0 1 (.read 2 2)] _ rfl rfl rfl
  (by decide +kernel)
example := C33_becomes_idle 3 demoDram demoValid 10 rfl rfl demoActs demoEnd demo_run (by decide +kernel)

/-- The demo requests ask only for words that are preloaded or written. -/
theorem demo_reads : ∀ r ∈ demoEnd.submitted, r.isWrite = false → inDram demoDram.size r ∧ 0 ≤ r.length ∧
    ∀ a, covers r a → demoValid.getD a false = true ∨
      ∃ w ∈ demoEnd.submitted, w.isWrite = true ∧ covers w a := by
  have h : ∀ r ∈ demoEnd.submitted, r.isWrite = false → inDram demoDram.size r ∧ 0 ≤ r.length ∧
      ∀ a ∈ List.range 8, covers r a → demoValid.getD a false = true ∨
        ∃ w ∈ demoEnd.submitted, w.isWrite = true ∧ covers w a := by decide +kernel
  intro r hr hw
  obtain ⟨h1, h2, h3⟩ := h r hr hw
  refine ⟨h1, h2, fun a ha => h3 a ?_ ha⟩
  rw [List.mem_range]
  have := h1.2
  have := ha.2
  have : (demoDram.size : Int) = 8 := rfl
  omega

example := C33_all_answered 3 demoDram demoValid 10 rfl rfl demoActs demoEnd demo_run (by decide +kernel)
  demo_pending demo_reads

/-! ## C34: requests outside the DRAM -/

/-- C34: a request that does not lie inside the DRAM is never answered. (The contents depend only on
answered writes, `C28_contents`.) -/
theorem C34_never_answered (lat : Int) (m0 : Memory) (v0 : List Bool) (t0 : Nat)
    (hm : m0.cells.length = m0.size) (hv : v0.length = m0.size) (acts : List CtrlAct) (c : Ctrl)
    (hrun : (Ctrl.started m0 v0 t0).run lat acts = some c) (a : Answer) (ha : a ∈ c.answers) :
    inDram m0.size a.req := by
  have hi := (ctrlInv_run lat m0 v0 t0 ⟨hm, hv⟩ acts c hrun).ans
  cases a with
  | wrote r t => exact hi.writes r t ha
  | read r t d =>
    obtain ⟨l1, l2, h⟩ := List.append_of_mem ha
    exact (hi.reads l1 r t d l2 h).inside

/-- C34: when such a request is served the simulation ends with an error and the DRAM, its validity
and the answers are as before. -/
theorem C34_aborts (lat : Int) (m0 : Memory) (v0 : List Bool) (t0 : Nat)
    (hm : m0.cells.length = m0.size) (hv : v0.length = m0.size) (acts : List CtrlAct) (c c' : Ctrl)
    (hrun : (Ctrl.started m0 v0 t0).run lat acts = some c) (r : Req) (rest : List Req)
    (hb : c.bus = r :: rest) (hr : ¬inDram m0.size r) (h : c.act lat .complete = some c') :
    c'.crashed = some .indexError ∧ c'.mem = c.mem ∧ c'.valid = c.valid ∧ c'.answers = c.answers := by
  have hi := (ctrlInv_run lat m0 v0 t0 ⟨hm, hv⟩ acts c hrun).mem
  unfold Ctrl.act at h
  split at h
  · exact absurd h (by simp)
  simp only [Ctrl.complete, hb] at h
  have hout : r.start < 0 ∨ r.start + r.length > c.mem.size := by
    rw [hi.size]
    by_contra hcon
    push Not at hcon
    exact hr ⟨hcon.1, hcon.2⟩
  cases hd : c.deadline with
  | none => rw [hd] at h; exact absurd h (by simp)
  | some d =>
    rw [hd] at h
    dsimp only at h
    split at h
    · exact absurd h (by simp)
    cases hk : r.kind with
    | read b n =>
      have hrd : c.mem.read r.start r.length r.numBatches = (.error .indexError, c.mem) := by
        unfold Memory.read; exact if_pos hout
      rw [hk, hrd] at h
      injection h with h; subst h
      exact ⟨rfl, rfl, rfl, rfl⟩
    | write data rows =>
      have hwr : c.mem.write r.start data r.numBatches = (.error .indexError, c.mem) := by
        unfold Memory.write
        rw [(isWrite_of_kind hk).2] at hout
        exact if_pos hout
      rw [hk] at h
      dsimp only at h
      rw [hwr] at h
      injection h with h; subst h
      exact ⟨rfl, rfl, rfl, rfl⟩

/-- A write across the end of the DRAM, up to the moment it is served. -/
def outActs : List CtrlAct := [.submit 0 6 (.write [1, 2, 3] 1)] ++ (serve 3).dropLast

def outEnd : Ctrl := ((Ctrl.started demoDram demoValid 0).run 3 outActs).getD (Ctrl.started demoDram [] 0)

example := C34_never_answered 3 demoDram demoValid 10 rfl rfl demoActs demoEnd demo_run
example := C34_aborts 3 demoDram demoValid 0 rfl rfl outActs outEnd (outEnd.crash .indexError)
  (by decide +kernel) { id := 0, core := 0, start := 6, kind := .write [1, 2, 3] 1, submitTime := 0 } []
  (by decide +kernel) (by decide +kernel) (by decide +kernel)

/-! ## C35: validity -/

/-- C35: one action makes a word valid only if it answers a write that covers the word, it makes all
words of that write valid, and a valid word stays valid. -/
theorem C35_validity_step (lat : Int) (m0 : Memory) (v0 : List Bool) (t0 : Nat)
    (hm : m0.cells.length = m0.size) (hv : v0.length = m0.size) (acts : List CtrlAct) (c c' : Ctrl)
    (hrun : (Ctrl.started m0 v0 t0).run lat acts = some c) (act : CtrlAct)
    (h : c.act lat act = some c') (a : Nat) (ha : a < m0.size) :
    c'.valid.getD a false = true ↔
      c.valid.getD a false = true ∨ ∃ r t, c'.answers = c.answers ++ [.wrote r t] ∧ covers r a := by
  have hi := ctrlInv_run lat m0 v0 t0 ⟨hm, hv⟩ acts c hrun
  have st := act_step lat c c' act h
  have hi' := ctrlInv_step lat m0 v0 t0 c c' hi st
  have hans : c'.answers = c.answers ∨ (∃ r t d, c'.answers = c.answers ++ [.read r t d]) ∨
      ∃ r t, c'.answers = c.answers ++ [.wrote r t] := by
    cases st with
    | read r rest mem data h1 h2 h3 h4 => exact Or.inr (Or.inl ⟨_, _, _, rfl⟩)
    | write r rest mem data rows h1 h2 h3 h4 => exact Or.inr (Or.inr ⟨_, _, rfl⟩)
    | _ => exact Or.inl rfl
  rw [hi'.mem.vals a ha, hi.mem.vals a ha]
  rcases hans with e | ⟨r, t, d, e⟩ | ⟨r, t, e⟩
  · rw [e]
    constructor
    · exact Or.inl
    · rintro (h | ⟨r, t, he, -⟩)
      · exact h
      · exact absurd (congrArg List.length he) (by simp)
  · rw [e, writesOf_append, writesOf_read, List.append_nil]
    constructor
    · exact Or.inl
    · rintro (h | ⟨r', t', he, -⟩)
      · exact h
      · have := List.append_cancel_left he
        simp at this
  · rw [e, writesOf_append, writesOf_wrote, wordValid_snoc]
    constructor
    · intro hx
      by_cases hc : covers r a
      · exact Or.inr ⟨r, t, rfl, hc⟩
      · rw [if_neg hc] at hx; exact Or.inl hx
    · rintro (hx | ⟨r', t', he, hc⟩)
      · split
        · rfl
        · exact hx
      · have := List.append_cancel_left he
        simp only [List.cons.injEq, Answer.wrote.injEq, and_true] at this
        rw [if_pos (by rw [this.1]; exact hc)]

/-- C35: along a run valid words stay valid. -/
theorem C35_monotone (lat : Int) (m0 : Memory) (v0 : List Bool) (t0 : Nat)
    (hm : m0.cells.length = m0.size) (hv : v0.length = m0.size) (acts more : List CtrlAct) (c c' : Ctrl)
    (hrun : (Ctrl.started m0 v0 t0).run lat acts = some c) (hmore : c.run lat more = some c')
    (a : Nat) (ha : a < m0.size) (h : c.valid.getD a false = true) : c'.valid.getD a false = true := by
  have hi := ctrlInv_run lat m0 v0 t0 ⟨hm, hv⟩ acts c hrun
  have key := run_induction lat (fun s => CtrlInv lat m0 v0 t0 s ∧ s.valid.getD a false = true) (by
    intro s s' act hs st
    have hs' := ctrlInv_step lat m0 v0 t0 s s' hs.1 st
    refine ⟨hs', ?_⟩
    have h1 := hs.2
    rw [hs.1.mem.vals a ha] at h1
    rw [hs'.mem.vals a ha]
    cases st with
    | read r rest mem data h1' h2 h3 h4 =>
      dsimp only
      rw [writesOf_append, writesOf_read, List.append_nil]; exact h1
    | write r rest mem data rows h1' h2 h3 h4 =>
      dsimp only
      rw [writesOf_append, writesOf_wrote, wordValid_snoc]
      split
      · rfl
      · exact h1
    | _ => exact h1) more c c' ⟨hi, h⟩ hmore
  exact key.2

/-- C35: `reset` clears every validity bit. -/
theorem C35_reset (c : Ctrl) (a : Nat) : c.reset.valid.getD a false = false := by
  simp only [Ctrl.reset]
  rw [List.getD_eq_getElem?_getD, List.getElem?_replicate]
  split <;> rfl

example := C35_validity_step 3 demoDram demoValid 10 rfl rfl [] _ _ rfl .tick rfl 3 (by decide)
example := C35_monotone 3 demoDram demoValid 10 rfl rfl [] demoActs _ demoEnd rfl demo_run 1 (by decide)
  (by decide)

/-! ## C36: statistics -/

/-- C36: the request counters are the summed batch counts of the submitted requests. -/
theorem C36_request_counts (lat : Int) (m0 : Memory) (v0 : List Bool) (t0 : Nat)
    (hm : m0.cells.length = m0.size) (hv : v0.length = m0.size) (acts : List CtrlAct) (c : Ctrl)
    (hrun : (Ctrl.started m0 v0 t0).run lat acts = some c) :
    c.stats.readRequests = ((c.submitted.filter fun r => !r.isWrite).map Req.numBatches).sum ∧
    c.stats.writeRequests = ((c.submitted.filter Req.isWrite).map Req.numBatches).sum ∧
    c.stats.totalRequests = c.stats.readRequests + c.stats.writeRequests := by
  have hi := (ctrlInv_run lat m0 v0 t0 ⟨hm, hv⟩ acts c hrun).time
  refine ⟨hi.readReqs, hi.writeReqs, ?_⟩
  rw [hi.readReqs, hi.writeReqs, hi.totalReqs]
  generalize c.submitted = l
  induction l with
  | nil => rfl
  | cons x xs ih =>
    unfold totalOf at ih ⊢
    cases hx : x.isWrite <;> simp [hx, ih] <;> ring1

/-- C36: times. Each answered request waited at least its own service time `edram_lat * num_batches`;
the counters are the sums and the maximum over the answered requests. -/
theorem C36_times (lat : Int) (m0 : Memory) (v0 : List Bool) (t0 : Nat)
    (hm : m0.cells.length = m0.size) (hv : v0.length = m0.size) (acts : List CtrlAct) (c : Ctrl)
    (hrun : (Ctrl.started m0 v0 t0).run lat acts = some c) :
    (∀ a ∈ c.answers, a.req.submitTime + lat * a.req.numBatches ≤ a.time ∧ a.time ≤ c.now) ∧
    c.stats.operatingTime = (c.answers.map fun a => lat * a.req.numBatches).sum ∧
    c.stats.totalWaitTime = (c.answers.map fun a => (a.time - a.req.submitTime : Int)).sum ∧
    (∀ a ∈ c.answers, (a.time - a.req.submitTime : Int) ≤ c.stats.maxWaitTime) ∧
    (c.answers ≠ [] → ∃ a ∈ c.answers, (a.time - a.req.submitTime : Int) = c.stats.maxWaitTime) ∧
    c.stats.maxWaitTime ≤ c.stats.totalWaitTime := by
  have hi := (ctrlInv_run lat m0 v0 t0 ⟨hm, hv⟩ acts c hrun).time
  have hnn : ∀ a ∈ c.answers, 0 ≤ waited a := by
    intro a ha
    have := hi.answered a ha
    omega
  refine ⟨?_, hi.operating, hi.waits, hi.maxWait.1, ?_, ?_⟩
  · intro a ha
    obtain ⟨h1, h2, h3⟩ := hi.answered a ha
    unfold waited service at h3
    exact ⟨by omega, h1⟩
  · intro hne
    rcases hi.maxWait.2.1 with h0 | h1
    · obtain ⟨a, ha⟩ := List.exists_mem_of_ne_nil _ hne
      refine ⟨a, ha, ?_⟩
      have h1 := hi.maxWait.1 a ha
      have h2 := hnn a ha
      show waited a = _
      omega
    · exact h1
  · rw [hi.waits]
    rcases hi.maxWait.2.1 with h0 | ⟨a, ha, h1⟩
    · rw [h0]
      apply List.sum_nonneg
      intro x hx
      obtain ⟨a, ha, rfl⟩ := List.mem_map.1 hx
      exact hnn a ha
    · rw [← h1]
      apply List.single_le_sum
      · intro x hx
        obtain ⟨a, ha, rfl⟩ := List.mem_map.1 hx
        exact hnn a ha
      · exact List.mem_map_of_mem ha

/-- C36: the bus serves one request at a time: between an answer and any later one lies at least the
whole service time of the later request, and the bus is never busy longer than the controller runs. -/
theorem C36_one_at_a_time (lat : Int) (m0 : Memory) (v0 : List Bool) (t0 : Nat)
    (hm : m0.cells.length = m0.size) (hv : v0.length = m0.size) (acts : List CtrlAct) (c : Ctrl)
    (hrun : (Ctrl.started m0 v0 t0).run lat acts = some c) :
    c.answers.Pairwise (fun a b => a.time + lat * b.req.numBatches ≤ b.time) ∧
    c.stats.operatingTime ≤ c.now - t0 := by
  have hi := (ctrlInv_run lat m0 v0 t0 ⟨hm, hv⟩ acts c hrun).time
  exact ⟨hi.gap, by have := hi.util; omega⟩

example := C36_request_counts 3 demoDram demoValid 10 rfl rfl demoActs demoEnd demo_run
example := C36_times 3 demoDram demoValid 10 rfl rfl demoActs demoEnd demo_run
example := C36_one_at_a_time 3 demoDram demoValid 10 rfl rfl demoActs demoEnd demo_run
/-- The example's counters are not trivial. -/
example : demoEnd.stats =
    { readRequests := 3, writeRequests := 2, totalRequests := 5, totalWaitTime := 33,
      maxWaitTime := 12, activeCycles := 0, operatingTime := 15 } := by decide +kernel

end Ramwich
