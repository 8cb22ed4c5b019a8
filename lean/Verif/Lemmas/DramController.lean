import Verif.Spec.DramController
import Verif.Lemmas.Memory

/-! # Invariants of the DRAM controller -/
namespace Ramwich

open Spec

/-! ## The pass over the waiting list -/

theorem release_neg (ok : Req → Bool) (r : Req) (rest : List Req) (h : ¬ok r = true) :
    release ok (r :: rest) = ((release ok rest).1, r :: (release ok rest).2) := by
  cases rest <;> simp [release, h]

theorem updateLoop_eq (valid : List Bool) (l : List Req) :
    ∀ (n : Nat) (pre put : List Req), l.length ≤ n → (pre ++ l).Nodup →
    updateLoop valid n pre.length (pre ++ l) put
      = (put ++ (release (ready valid) l).1, pre ++ (release (ready valid) l).2) := by
  induction l using release.induct (ok := ready valid) with
  | case1 =>
    intro n pre put hln hn
    cases n <;> simp [release, updateLoop]
  | case2 r hr =>
    intro n pre put hln hn
    obtain ⟨n, rfl⟩ : ∃ m, n = m + 1 := ⟨n - 1, by simp at hln; omega⟩
    have hget : (pre ++ [r])[pre.length]? = some r := by simp
    have her : (pre ++ [r]).erase r = pre := by
      rw [List.erase_append_right _ (by
        intro h; exact (List.nodup_append.1 hn).2.2 r h r (by simp) rfl)]
      simp
    simp only [updateLoop, hget, hr, if_true, her]
    cases n <;> simp [release, hr, updateLoop]
  | case3 r hr x rest ih =>
    intro n pre put hln hn
    obtain ⟨n, rfl⟩ : ∃ m, n = m + 1 := ⟨n - 1, by simp at hln; omega⟩
    have hnr : r ∉ pre := by
      intro h; exact (List.nodup_append.1 hn).2.2 r h r (by simp) rfl
    have hget : (pre ++ r :: x :: rest)[pre.length]? = some r := by simp
    have her : (pre ++ r :: x :: rest).erase r = pre ++ x :: rest := by
      rw [List.erase_append_right _ hnr]; simp
    simp only [updateLoop, hget, hr, if_true, her]
    have hn' : ((pre ++ [x]) ++ rest).Nodup := by
      rw [List.append_assoc]
      refine hn.sublist ?_
      apply List.Sublist.append_left
      exact List.sublist_cons_self _ _
    have := ih n (pre ++ [x]) (put ++ [r]) (by simp at hln; omega) hn'
    simp only [List.length_append, List.length_singleton, List.append_assoc, List.singleton_append] at this
    rw [this]
    simp [release, hr]
  | case4 r rest hr ih =>
    intro n pre put hln hn
    obtain ⟨n, rfl⟩ : ∃ m, n = m + 1 := ⟨n - 1, by simp at hln; omega⟩
    have hget : (pre ++ r :: rest)[pre.length]? = some r := by simp
    simp only [updateLoop, hget, hr]
    have hn' : ((pre ++ [r]) ++ rest).Nodup := by
      rw [List.append_assoc]; exact hn
    have := ih n (pre ++ [r]) put (by simp at hln; omega) hn'
    simp only [List.length_append, List.length_singleton, List.append_assoc, List.singleton_append] at this
    simp only [Bool.false_eq_true, if_false]
    rw [this]
    simp [release_neg _ r rest hr]

theorem updateReady_release (valid : List Bool) (l : List Req) (hn : l.Nodup) :
    updateReady valid l = release (ready valid) l := by
  have := updateLoop_eq valid l l.length [] [] (Nat.le_refl _) hn
  unfold updateReady
  simpa using this

theorem release_perm (ok : Req → Bool) (l : List Req) :
    ((release ok l).1 ++ (release ok l).2).Perm l := by
  induction l using release.induct (ok := ok) with
  | case1 => simp [release]
  | case2 r hr => simp [release, hr]
  | case3 r hr x rest ih =>
    simp only [release, hr, if_true, List.cons_append]
    refine List.Perm.cons r ?_
    exact List.perm_middle.trans (List.Perm.cons x ih)
  | case4 r rest hr ih =>
    rw [release_neg ok r rest hr]
    exact List.perm_middle.trans (List.Perm.cons r ih)

theorem release_ready (ok : Req → Bool) (l : List Req) : ∀ r ∈ (release ok l).1, ok r = true := by
  induction l using release.induct (ok := ok) with
  | case1 => simp [release]
  | case2 r hr => simp [release, hr]
  | case3 r hr x rest ih =>
    simp only [release, hr, if_true]
    intro y hy
    rcases List.mem_cons.1 hy with rfl | hy
    · exact hr
    · exact ih y hy
  | case4 r rest hr ih =>
    rw [release_neg ok r rest hr]
    exact ih

theorem release_sublist (ok : Req → Bool) (l : List Req) : (release ok l).1.Sublist l ∧
    (release ok l).2.Sublist l := by
  induction l using release.induct (ok := ok) with
  | case1 => simp [release]
  | case2 r hr => simp [release, hr]
  | case3 r hr x rest ih =>
    simp only [release, hr, if_true]
    exact ⟨List.Sublist.cons_cons r (List.Sublist.cons x ih.1), List.Sublist.cons r (List.Sublist.cons_cons x ih.2)⟩
  | case4 r rest hr ih =>
    rw [release_neg ok r rest hr]
    exact ⟨List.Sublist.cons r ih.1, List.Sublist.cons_cons r ih.2⟩

/-! ## Contents -/

theorem writesOf_append (a b : List Answer) : writesOf (a ++ b) = writesOf a ++ writesOf b := by
  unfold writesOf; rw [List.filterMap_append]

theorem writesOf_wrote (r : Req) (t : Nat) : writesOf [.wrote r t] = [r] := rfl
theorem writesOf_read (r : Req) (t : Nat) (d : List I32) : writesOf [.read r t d] = [] := rfl

theorem wordAfter_snoc (old : I32) (ws : List Req) (w : Req) (a : Nat) :
    wordAfter old (ws ++ [w]) a = if covers w a then Req.value w a else wordAfter old ws a := by
  unfold wordAfter; rw [List.foldl_append]; rfl

theorem wordValid_snoc (old : Bool) (ws : List Req) (w : Req) (a : Nat) :
    wordValid old (ws ++ [w]) a = if covers w a then true else wordValid old ws a := by
  unfold wordValid; rw [List.foldl_append]; rfl

/-- The line of requests that have not been served: bus, handler, store. -/
def Ctrl.line (c : Ctrl) : List Req := c.bus ++ c.handed.toList ++ c.queue

/-- Contents and validity of the DRAM. -/
structure CtrlMem (m0 : Memory) (v0 : List Bool) (c : Ctrl) : Prop where
  size : c.mem.size = m0.size
  len : c.mem.cells.length = m0.size
  vlen : c.valid.length = m0.size
  cells : ∀ a, a < m0.size → c.mem.cells.getD a 0 = wordAfter (m0.cells.getD a 0) (writesOf c.answers) a
  vals : ∀ a, a < m0.size → c.valid.getD a false = wordValid (v0.getD a false) (writesOf c.answers) a

/-- Where the requests are. -/
structure CtrlLine (c : Ctrl) : Prop where
  ids : ∀ (i : Nat) (r : Req), c.submitted[i]? = some r → r.id = i
  perm : (c.line ++ c.pending ++ c.answers.map Answer.req).Perm c.submitted
  reads : ∀ r ∈ c.pending, r.isWrite = false
  writes : c.submitted.filter Req.isWrite = writesOf c.answers ++ c.line.filter Req.isWrite
  order : c.line.Pairwise fun x y => x.isWrite = false → y.isWrite = true → x.id < y.id
  wait : ∀ p ∈ c.pending, ∀ w ∈ c.handed.toList ++ c.queue, w.isWrite = true → p.id < w.id
  kinds : ∀ a ∈ c.answers, match a with
    | .wrote r _ => r.isWrite = true
    | .read r _ _ => r.isWrite = false
  busReady : ∀ r ∈ c.bus, r.isWrite = false → ready c.valid r = true

theorem submitted_mem (c : Ctrl) (h : CtrlLine c) (r : Req) (hr : r ∈ c.submitted) :
    r.id < c.submitted.length ∧ c.submitted[r.id]? = some r := by
  obtain ⟨i, hi⟩ := List.mem_iff_getElem?.1 hr
  have := h.ids i r hi
  rw [this]
  exact ⟨(List.getElem?_eq_some_iff.1 hi).1, hi⟩

theorem submitted_nodup (c : Ctrl) (h : CtrlLine c) : c.submitted.Nodup := by
  rw [List.nodup_iff_getElem?_ne_getElem?]
  intro i j hij hj heq
  have hi := List.getElem?_eq_getElem (show i < c.submitted.length by omega)
  have hj' := List.getElem?_eq_getElem hj
  have e1 := h.ids i _ hi
  have e2 := h.ids j _ hj'
  rw [hi, hj'] at heq
  injection heq with heq
  rw [heq] at e1
  omega

theorem line_mem (c : Ctrl) (h : CtrlLine c) (r : Req) (hr : r ∈ c.line) : r ∈ c.submitted :=
  h.perm.subset (by simp [hr])

theorem pending_mem (c : Ctrl) (h : CtrlLine c) (r : Req) (hr : r ∈ c.pending) : r ∈ c.submitted :=
  h.perm.subset (by simp [hr])

theorem pending_nodup (c : Ctrl) (h : CtrlLine c) : c.pending.Nodup := by
  have h1 := h.perm.nodup_iff.2 (submitted_nodup c h)
  have h2 := (List.nodup_append.1 h1).1
  exact (List.nodup_append.1 h2).2.1

/-! ### Readiness -/

theorem pySlice_mem_valid (valid : List Bool) (start len : Int) (h0 : 0 ≤ start)
    (h1 : start + len ≤ valid.length) (h2 : 0 ≤ len) :
    (pySlice valid start (start + len)).all id = true ↔
      ∀ a : Nat, start ≤ a → (a : Int) < start + len → valid.getD a false = true := by
  rw [pySlice_getD valid start len false h0 h1 h2]
  simp only [List.all_eq_true, List.mem_map, List.mem_range, id]
  constructor
  · intro h a ha1 ha2
    exact h _ ⟨a - start.toNat, by omega, by congr 1; omega⟩
  · rintro h b ⟨i, hi, rfl⟩
    exact h _ (by omega) (by omega)

/-- Valid words stay valid under an in-range write. -/
theorem valid_mono (valid : List Bool) (n : Nat) (k : Nat) (h : n + k ≤ valid.length) (a : Nat)
    (ha : valid.getD a false = true) :
    (pySliceSet valid n (List.replicate k true)).getD a false = true := by
  rw [pySliceSet_getD _ _ _ _ _ (by simpa using h)]
  split
  · rw [List.getD_eq_getElem?_getD, List.getElem?_replicate, if_pos (by simp_all; omega)]; rfl
  · exact ha

/-- Readiness is kept when words become valid. -/
theorem ready_mono (v v' : List Bool) (r : Req) (hl : v'.length = v.length)
    (h : ∀ a, v.getD a false = true → v'.getD a false = true) (hr : ready v r = true) :
    ready v' r = true := by
  unfold ready pySlice at hr ⊢
  rw [hl]
  rw [List.all_eq_true] at hr ⊢
  intro x hx
  obtain ⟨i, hi, hx⟩ := List.mem_iff_getElem.1 hx
  simp only [List.length_take, List.length_drop] at hi
  rw [List.getElem_take, List.getElem_drop] at hx
  have h1 : pySliceBound v.length r.start + i < v.length := by omega
  have h2 := hr (v[pySliceBound v.length r.start + i]) (by
    rw [List.mem_iff_getElem]
    exact ⟨i, by simp; omega, by rw [List.getElem_take, List.getElem_drop]⟩)
  have h3 := h (pySliceBound v.length r.start + i) (by
    rw [List.getD_eq_getElem?_getD, List.getElem?_eq_getElem h1]; exact h2)
  rw [List.getD_eq_getElem?_getD, List.getElem?_eq_getElem (by omega)] at h3
  rw [← hx]
  exact h3

/-! ## Steps -/

/-- The request that a submission creates. -/
def Ctrl.newReq (c : Ctrl) (core start : Int) (kind : ReqKind) : Req :=
  { id := c.submitted.length, core := core, start := start, kind := kind, submitTime := c.now }

/-- The counters after a submission. -/
def CtrlStats.submitted (s : CtrlStats) (r : Req) : CtrlStats :=
  match r.kind with
  | .read .. => { s with
      readRequests := s.readRequests + r.numBatches
      totalRequests := s.totalRequests + r.numBatches }
  | .write .. => { s with
      writeRequests := s.writeRequests + r.numBatches
      totalRequests := s.totalRequests + r.numBatches }

/-- The effective steps of a controller. -/
inductive CtrlStep (lat : Int) : Ctrl → CtrlAct → Ctrl → Prop
  | crash (c : Ctrl) (act : CtrlAct) (e : PyErr) : CtrlStep lat c act (c.crash e)
  | submit (c : Ctrl) (core start : Int) (kind : ReqKind) (hr : c.running = true) :
      CtrlStep lat c (.submit core start kind) { c with
        queue := c.queue ++ [c.newReq core start kind]
        submitted := c.submitted ++ [c.newReq core start kind]
        stats := c.stats.submitted (c.newReq core start kind) }
  | pick (c : Ctrl) (r : Req) (rest : List Req) (h1 : c.handed = none) (h2 : c.queue = r :: rest)
      (h0 : c.handlerAlive = true) :
      CtrlStep lat c .pick { c with handed := some r, queue := rest }
  | toBus (c : Ctrl) (r : Req) (h1 : c.handed = some r) (h2 : r.isWrite = true ∨ ready c.valid r = true)
      (h0 : c.handlerAlive = true) :
      CtrlStep lat c .dispatch { c with handed := none, bus := c.bus ++ [r] }
  | toPending (c : Ctrl) (r : Req) (h1 : c.handed = some r) (h2 : r.isWrite = false)
      (h3 : ready c.valid r = false) (h0 : c.handlerAlive = true) :
      CtrlStep lat c .dispatch { c with handed := none, pending := c.pending ++ [r] }
  | grant (c : Ctrl) (r : Req) (rest : List Req) (h1 : c.bus = r :: rest) (h2 : c.deadline = none)
      (h3 : 0 ≤ lat * r.numBatches) :
      CtrlStep lat c .grant { c with deadline := some (c.now + (lat * r.numBatches).toNat) }
  | read (c : Ctrl) (r : Req) (rest : List Req) (mem : Memory) (data : List I32)
      (h1 : c.bus = r :: rest) (h2 : c.deadline = some c.now) (h3 : r.isWrite = false)
      (h4 : c.mem.read r.start r.length r.numBatches = (.ok data, mem)) :
      CtrlStep lat c .complete { c with
        mem := mem, bus := rest, deadline := none
        stats := c.stats.complete (c.now - r.submitTime) (lat * r.numBatches)
        answers := c.answers ++ [.read r c.now data] }
  | write (c : Ctrl) (r : Req) (rest : List Req) (mem : Memory) (data : List I32) (rows : Nat)
      (h1 : c.bus = r :: rest) (h2 : c.deadline = some c.now) (h3 : r.kind = .write data rows)
      (h4 : c.mem.write r.start data r.numBatches = (.ok (), mem)) :
      CtrlStep lat c .complete { c with
        mem := mem
        valid := pySliceSet c.valid r.start.toNat (List.replicate data.length true)
        bus := rest, deadline := none
        stats := c.stats.complete (c.now - r.submitTime) (lat * r.numBatches)
        queue := c.queue ++ (updateReady
          (pySliceSet c.valid r.start.toNat (List.replicate data.length true)) c.pending).1
        pending := (updateReady
          (pySliceSet c.valid r.start.toNat (List.replicate data.length true)) c.pending).2
        answers := c.answers ++ [.wrote r c.now] }
  | tick (c : Ctrl) (h : c.quiescent = true) : CtrlStep lat c .tick { c with now := c.now + 1 }
  | stopped (c : Ctrl) (h : c.running = false) : CtrlStep lat c .stop c
  | stop (c : Ctrl) (cr : Option PyErr) : CtrlStep lat c .stop { c with
      running := false, handlerAlive := false, crashed := cr
      stats := { c.stats with activeCycles := c.stats.activeCycles + (c.now - c.startTime : Int) } }

theorem act_step (lat : Int) (c c' : Ctrl) (a : CtrlAct) (h : c.act lat a = some c') :
    CtrlStep lat c a c' := by
  unfold Ctrl.act at h
  by_cases hc : c.crashed.isSome
  · rw [if_pos hc] at h; exact absurd h (by simp)
  rw [if_neg hc] at h
  have hcr : c.crashed = none := by simpa using hc
  cases a with
  | submit core start kind =>
    simp only [Option.some.injEq] at h
    subst h
    unfold Ctrl.submit
    by_cases hr : c.running = false
    · rw [if_pos hr]; exact .crash c _ _
    · rw [if_neg hr]
      have := CtrlStep.submit (lat := lat) c core start kind (by simpa using hr)
      cases kind <;> exact this
  | pick =>
    simp only [Ctrl.pick] at h
    split at h
    · rename_i h1 h2 h3
      injection h with h; subst h
      exact .pick c _ _ h2 h3 h1
    · exact absurd h (by simp)
  | dispatch =>
    simp only [Ctrl.dispatch] at h
    split at h
    · rename_i r h1 h2
      by_cases hb : r.isWrite = true ∨ ready c.valid r = true
      · rw [if_pos hb] at h
        injection h with h; subst h
        exact .toBus c r h2 hb h1
      · rw [if_neg hb] at h
        injection h with h; subst h
        push Not at hb
        exact .toPending c r h2 (by simpa using hb.1) (by simpa using hb.2) h1
    · exact absurd h (by simp)
  | grant =>
    simp only [Ctrl.grant] at h
    split at h
    · rename_i r rest h1 h2
      by_cases hb : lat * r.numBatches < 0
      · rw [if_pos hb] at h
        injection h with h; subst h
        exact .crash c _ _
      · rw [if_neg hb] at h
        injection h with h; subst h
        exact .grant c r rest h1 h2 (by omega)
    · exact absurd h (by simp)
  | complete =>
    simp only [Ctrl.complete] at h
    split at h
    · rename_i r rest d h1 h2
      by_cases hd : d ≠ c.now
      · rw [if_pos hd] at h; exact absurd h (by simp)
      · rw [if_neg hd] at h
        push Not at hd
        subst hd
        split at h
        · rename_i b n hk
          split at h
          · injection h with h; subst h; exact .crash c _ _
          · rename_i data mem hm
            injection h with h; subst h
            exact .read c r rest mem data h1 h2 (by simp [Req.isWrite, hk]) hm
        · rename_i data rows hk
          split at h
          · injection h with h; subst h; exact .crash c _ _
          · rename_i mem hm
            injection h with h; subst h
            exact .write c r rest mem data rows h1 h2 hk hm
    · exact absurd h (by simp)
  | tick =>
    simp only [Ctrl.tick] at h
    split at h
    · rename_i hq
      injection h with h; subst h
      exact .tick c hq
    · exact absurd h (by simp)
  | stop =>
    simp only [Ctrl.stop] at h
    split at h
    · injection h with h; subst h; exact .stopped c (by assumption)
    · split at h
      · injection h with h; subst h; rw [show c.crashed = none from hcr]; exact .stop c none
      · injection h with h; subst h; exact .stop c (some .runtimeError)

/-- Any property kept by the steps holds along every run. -/
theorem run_induction (lat : Int) (P : Ctrl → Prop)
    (hstep : ∀ c c' act, P c → CtrlStep lat c act c' → P c') :
    ∀ (acts : List CtrlAct) (c c' : Ctrl), P c → c.run lat acts = some c' → P c' := by
  intro acts
  induction acts with
  | nil => intro c c' hp h; simp only [Ctrl.run, Option.some.injEq] at h; subst h; exact hp
  | cons a as ih =>
    intro c c' hp h
    simp only [Ctrl.run] at h
    cases ha : c.act lat a with
    | none => rw [ha] at h; exact absurd h (by simp)
    | some c1 =>
      rw [ha] at h
      exact ih c1 c' (hstep c c1 a hp (act_step lat c c1 a ha)) h

/-! ## Memory -/

theorem mem_read_inv {m m' : Memory} {start length batch : Int} {data : List I32}
    (h : m.read start length batch = (.ok data, m')) :
    0 ≤ start ∧ start + length ≤ m.size ∧ 0 < length ∧ data = pySlice m.cells start (start + length) ∧
      m'.cells = m.cells ∧ m'.size = m.size := by
  unfold Memory.read at h
  dsimp only at h
  split at h
  · simp at h
  · split at h
    · simp at h
    · simp only [Prod.mk.injEq, Except.ok.injEq] at h
      obtain ⟨rfl, rfl⟩ := h
      exact ⟨by omega, by omega, by omega, rfl, rfl, rfl⟩

theorem mem_write_inv {m m' : Memory} {start batch : Int} {data : List I32}
    (h : m.write start data batch = (.ok (), m')) :
    0 ≤ start ∧ start + data.length ≤ m.size ∧
      m'.cells = pySliceSet m.cells start.toNat data ∧ m'.size = m.size := by
  unfold Memory.write at h
  dsimp only at h
  split at h
  · simp at h
  · simp only [Prod.mk.injEq, true_and] at h
    subst h
    exact ⟨by omega, by omega, rfl, rfl⟩

theorem isWrite_of_kind {r : Req} {data : List I32} {rows : Nat} (h : r.kind = .write data rows) :
    r.isWrite = true ∧ r.length = data.length := by
  simp [Req.isWrite, Req.length, h]

theorem ctrlMem_step (lat : Int) (m0 : Memory) (v0 : List Bool) (c c' : Ctrl) (h : CtrlMem m0 v0 c)
    {act : CtrlAct} (st : CtrlStep lat c act c') : CtrlMem m0 v0 c' := by
  cases st with
  | crash e => exact ⟨h.1, h.2, h.3, h.4, h.5⟩
  | submit => exact ⟨h.1, h.2, h.3, h.4, h.5⟩
  | pick => exact ⟨h.1, h.2, h.3, h.4, h.5⟩
  | toBus => exact ⟨h.1, h.2, h.3, h.4, h.5⟩
  | toPending => exact ⟨h.1, h.2, h.3, h.4, h.5⟩
  | grant => exact ⟨h.1, h.2, h.3, h.4, h.5⟩
  | tick => exact ⟨h.1, h.2, h.3, h.4, h.5⟩
  | stopped => exact h
  | stop => exact ⟨h.1, h.2, h.3, h.4, h.5⟩
  | read r rest mem data h1 h2 h3 h4 =>
    obtain ⟨-, -, -, -, e1, e2⟩ := mem_read_inv h4
    refine ⟨e2.trans h.1, by rw [← h.2, ← e1], h.3, ?_, ?_⟩
    · intro a ha
      simp only [writesOf_append, writesOf_read, List.append_nil, e1]
      exact h.4 a ha
    · intro a ha
      simp only [writesOf_append, writesOf_read, List.append_nil]
      exact h.5 a ha
  | write r rest mem data rows h1 h2 h3 h4 =>
    obtain ⟨hs0, hs1, e1, e2⟩ := mem_write_inv h4
    have hsz := h.size
    have hl := h.len
    have hv := h.vlen
    have hb : r.start.toNat + data.length ≤ c.mem.cells.length := by omega
    have hb' : r.start.toNat + (List.replicate data.length true).length ≤ c.valid.length := by
      rw [List.length_replicate]; omega
    have hcov : ∀ a : Nat, covers r a ↔ r.start.toNat ≤ a ∧ a < r.start.toNat + data.length := by
      intro a
      unfold covers
      rw [(isWrite_of_kind h3).2]
      omega
    refine ⟨e2.trans h.1, ?_, ?_, ?_, ?_⟩
    · show mem.cells.length = _
      rw [e1, pySliceSet_length _ _ _ hb]; exact h.2
    · show (pySliceSet _ _ _).length = _
      rw [pySliceSet_length _ _ _ hb']; exact h.3
    · intro a ha
      show mem.cells.getD a 0 = _
      rw [e1, pySliceSet_getD _ _ _ _ _ hb, writesOf_append, writesOf_wrote, wordAfter_snoc,
        h.4 a ha]
      by_cases hc : covers r a
      · rw [if_pos hc, if_pos ((hcov a).1 hc)]
        simp only [Req.value, h3]
        congr 1
        have := (hcov a).1 hc
        omega
      · rw [if_neg hc, if_neg (fun hx => hc ((hcov a).2 hx))]
    · intro a ha
      show (pySliceSet _ _ _).getD a false = _
      rw [pySliceSet_getD _ _ _ _ _ hb', writesOf_append, writesOf_wrote, wordValid_snoc,
        h.5 a ha, List.length_replicate]
      by_cases hc : covers r a
      · rw [if_pos hc, if_pos ((hcov a).1 hc)]
        have := (hcov a).1 hc
        rw [List.getD_eq_getElem?_getD, List.getElem?_replicate, if_pos (by omega)]; rfl
      · rw [if_neg hc, if_neg (fun hx => hc ((hcov a).2 hx))]

end Ramwich
