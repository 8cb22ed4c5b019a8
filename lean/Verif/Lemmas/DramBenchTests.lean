import Verif.Lemmas.DramBenchEnd

/-! # What the processes of `tests/test_dram_controller.py` get -/
namespace Ramwich

open Spec

/-- A check for `Orderly`. -/
def orderlyFrom : Nat → List ClientOp → Bool
  | _, [] => true
  | n, .submit .. :: rest => orderlyFrom (n + 1) rest
  | n, .await i :: rest => decide (i < n) && orderlyFrom n rest
  | n, .sleep _ :: rest => orderlyFrom n rest

theorem orderlyFrom_spec (s : List ClientOp) : ∀ (n : Nat), orderlyFrom n s = true →
    ∀ pre i post, s = pre ++ .await i :: post → i < n + (requests pre).length := by
  induction s with
  | nil => intro n _ pre i post h; simp at h
  | cons x xs ih =>
    intro n h pre i post he
    cases pre with
    | nil =>
      simp only [List.nil_append, List.cons.injEq] at he
      obtain ⟨rfl, rfl⟩ := he
      simp only [orderlyFrom, Bool.and_eq_true, decide_eq_true_eq] at h
      have := h.1
      omega
    | cons y ys =>
      simp only [List.cons_append, List.cons.injEq] at he
      obtain ⟨rfl, rfl⟩ := he
      cases x with
      | sleep k => exact ih n h ys i post rfl
      | await k =>
        simp only [orderlyFrom, Bool.and_eq_true] at h
        exact ih n h.2 ys i post rfl
      | submit core start kind =>
        have := ih (n + 1) h ys i post rfl
        have e : (requests (ClientOp.submit core start kind :: ys)).length = (requests ys).length + 1 := by
          simp [requests, ClientOp.req]
        omega

theorem orderly_of (s : List ClientOp) (h : orderlyFrom 0 s = true) : Orderly s := by
  intro pre i post he
  have := orderlyFrom_spec s 0 h pre i post he
  omega

section
variable {lat : Int} {m0 : Memory} {v0 : List Bool} {t0 : Nat} {scripts : List (List ClientOp)} {b : Bench}

/-- What a process got comes from the answer to its request. -/
theorem BenchInv.answer (h : BenchInv lat m0 v0 t0 scripts b) (cl : Client) (hcl : cl ∈ b.clients)
    (g : Nat × Nat × Option (List I32)) (hg : g ∈ cl.got) (q : Req) (hq : (requests cl.done)[g.1]? = some q) :
    ∃ a ∈ b.ctrl.answers, a.req.bare = q ∧ a.req ∈ b.ctrl.submitted ∧ g.2.2 = a.value ∧ a.time ≤ g.2.1 ∧
      cl.sent[g.1]? = some a.req.id := by
  have hci := h.clients cl hcl
  obtain ⟨id, a, h1, h2, h3, h4, h5⟩ := hci.vals g hg
  obtain ⟨hq1, hq2⟩ := List.getElem?_eq_some_iff.1 hq
  obtain ⟨hs1, hs2⟩ := List.getElem?_eq_some_iff.1 h1
  obtain ⟨r', hr1, hr2⟩ := (List.forall₂_iff_get.1 hci.sent).2 g.1 hs1 hq1
  simp only [List.get_eq_getElem] at hr1 hr2
  rw [hs2] at hr1
  rw [hq2] at hr2
  have hmem : a.req ∈ b.ctrl.submitted :=
    h.inv.line.perm.subset (List.mem_append_right _ (List.mem_map_of_mem h2))
  have hid := (submitted_mem _ h.inv.line a.req hmem).2
  rw [answer_id] at h3
  rw [h3, hr1] at hid
  injection hid with hid
  refine ⟨a, h2, by rw [← hid]; exact hr2, hmem, h4, h5, by rw [h1, h3]⟩

/-- What a process got for a read. -/
theorem BenchInv.readAnswer (h : BenchInv lat m0 v0 t0 scripts b) (cl : Client) (hcl : cl ∈ b.clients)
    (g : Nat × Nat × Option (List I32)) (hg : g ∈ cl.got) (q : Req) (hq : (requests cl.done)[g.1]? = some q)
    (hread : q.isWrite = false) :
    ∃ l1 r t d l2, b.ctrl.answers = l1 ++ .read r t d :: l2 ∧ r.bare = q ∧ r ∈ b.ctrl.submitted ∧
      g.2.2 = some d ∧ t ≤ g.2.1 ∧ r.submitTime + serviceTime lat r ≤ t ∧
      cl.sent[g.1]? = some r.id ∧ GoodRead m0 v0 b.ctrl.submitted l1 r d := by
  obtain ⟨a, h1, h2, h3, h4, h5, h6⟩ := h.answer cl hcl g hg q hq
  have hk := h.inv.line.kinds a h1
  have ht := h.inv.time.answered a h1
  cases a with
  | wrote r t =>
    exfalso
    simp only [Answer.req] at hk h2
    rw [← h2, bare_isWrite, hk] at hread
    cases hread
  | read r t d =>
    obtain ⟨l1, l2, hl⟩ := List.append_of_mem h1
    refine ⟨l1, r, t, d, l2, hl, h2, h3, h4, h5, ?_, h6, h.inv.ans.reads l1 r t d l2 hl⟩
    obtain ⟨-, h7, h8⟩ := ht
    simp only [Answer.req, service] at h7 h8
    simp only [waited, Answer.time, Answer.req] at h8
    unfold serviceTime
    omega

/-- What a process got for a write. -/
theorem BenchInv.writeAnswer (h : BenchInv lat m0 v0 t0 scripts b) (cl : Client) (hcl : cl ∈ b.clients)
    (g : Nat × Nat × Option (List I32)) (hg : g ∈ cl.got) (q : Req) (hq : (requests cl.done)[g.1]? = some q)
    (hwrite : q.isWrite = true) :
    ∃ r t, .wrote r t ∈ b.ctrl.answers ∧ r.bare = q ∧ g.2.2 = none ∧ t ≤ g.2.1 ∧
      r.submitTime + serviceTime lat r ≤ t ∧ cl.sent[g.1]? = some r.id := by
  obtain ⟨a, h1, h2, h3, h4, h5, h6⟩ := h.answer cl hcl g hg q hq
  have hk := h.inv.line.kinds a h1
  have ht := h.inv.time.answered a h1
  cases a with
  | read r t d =>
    exfalso
    simp only [Answer.req] at hk h2
    rw [← h2, bare_isWrite, hk] at hwrite
    cases hwrite
  | wrote r t =>
    refine ⟨r, t, h1, h2, h4, h5, ?_, h6⟩
    obtain ⟨-, h7, h8⟩ := ht
    simp only [Answer.req, service] at h7 h8
    simp only [waited, Answer.time, Answer.req] at h8
    unfold serviceTime
    omega

/-- After the budget everything is done. -/
theorem BenchInv.over (h : BenchInv lat m0 v0 t0 scripts b) (hT : t0 + budget lat scripts < b.ctrl.now) :
    b.settled ∧ b.clients.map (fun cl => cl.done) = scripts ∧
      (b.ctrl.answers.map Answer.req).Perm b.ctrl.submitted ∧
      writesOf b.ctrl.answers = b.ctrl.submitted.filter Req.isWrite := by
  have hs : b.settled := h.time.resolve_left (by omega)
  obtain ⟨s1, s2, s3⟩ := hs
  have hline : b.ctrl.line = [] := by simp [Ctrl.line, s2.1, s2.2.1, s2.2.2]
  refine ⟨⟨s1, s2, s3⟩, ?_, ?_, ?_⟩
  · rw [← h.texts]
    apply List.map_congr_left
    intro cl hcl
    rw [s1 cl hcl, List.append_nil]
  · have := h.inv.line.perm
    rw [hline, s3] at this
    simpa using this
  · rw [h.inv.line.writes, hline]; simp

/-- The value of a read when the answered writes before it are known. -/
theorem GoodRead.words {submitted : List Req} {l1 : List Answer} {r : Req} {d : List I32}
    (h : GoodRead m0 v0 submitted l1 r d) (data : List I32) (hlen : r.length = data.length)
    (hw : ∀ i, i < data.length →
      wordAfter (m0.cells.getD (r.start.toNat + i) 0) (writesOf l1) (r.start.toNat + i) = data.getD i 0) :
    d = data := by
  rw [h.value, hlen]
  apply List.ext_getElem?
  intro i
  rw [List.getElem?_map, Int.toNat_natCast]
  by_cases hi : i < data.length
  · rw [List.getElem?_range hi, Option.map_some, hw i hi, List.getD_eq_getElem?_getD, List.getElem?_eq_getElem hi]
    rfl
  · rw [List.getElem?_eq_none (by simp; omega), List.getElem?_eq_none (by omega)]
    rfl

end

theorem bare_kind {r : Req} {id core start t kind} (h : r.bare = { id := id, core := core, start := start, kind := kind, submitTime := t }) :
    r.start = start ∧ r.kind = kind := by
  have h1 := congrArg Req.start h
  have h2 := congrArg Req.kind h
  exact ⟨h1, h2⟩

end Ramwich
