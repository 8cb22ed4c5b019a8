import Verif.Spec.Hang
import Verif.Lemmas.DryCtrl
import Verif.Lemmas.DramController

/-! # A controller with reads that wait -/
namespace Ramwich

open Spec

/-- A read of words of the DRAM. -/
def ReadOk (size : Nat) (r : Req) : Prop :=
  ∃ (a n : Nat) (width vec : Int), r.kind = .read width vec ∧ (n : Int) = width * vec ∧ 0 < n ∧ r.start = a ∧ a + n ≤ size

/-- The requests `Q` are in the queue, `P` wait, and nothing else is to be done. -/
structure CtrlW (size mask : Nat) (up : Bool) (Q P : List Req) (c : Ctrl) : Prop where
  crashed : c.crashed = none
  queue : c.queue = Q
  handed : c.handed = none
  pending : c.pending = P
  bus : c.bus = []
  deadline : c.deadline = none
  running : c.running = up
  alive : c.handlerAlive = up
  msize : c.mem.size = size
  clen : c.mem.cells.length = size
  vlen : c.valid.length = size
  bits : ∀ a < size, c.valid.getD a false = mask.testBit a
  bound : ∀ a, mask.testBit a = true → a < size
  ids : ∀ x ∈ c.answers, x.req.id < c.submitted.length
  ok : ∀ r ∈ Q ++ P, ReadOk size r
  fresh : ∀ r ∈ Q ++ P, r.id < c.submitted.length ∧ readAnswer r.id c.answers = none
  nodup : ((Q ++ P).map Req.id).Nodup

theorem ready_iff {size mask : Nat} {valid : List Bool} (hl : valid.length = size)
    (hb : ∀ a < size, valid.getD a false = mask.testBit a) {r : Req} {a n : Nat} (hs : r.start = a) (hn : r.length = n)
    (hsz : a + n ≤ size) : ready valid r = true ↔ ∀ i, a ≤ i → i < a + n → mask.testBit i = true := by
  unfold ready
  rw [hs, hn, pySlice_mem_valid _ _ _ (by omega) (by omega) (by omega)]
  constructor
  · intro h i h1 h2
    rw [← hb i (by omega)]
    exact h i (by omega) (by omega)
  · intro h i h1 h2
    rw [hb i (by omega)]
    exact h i (by omega) (by omega)

theorem has_iff (x : DryTile) (a n : Nat) : x.has a n ↔ ∀ i, a ≤ i → i < a + n → x.valid.testBit i = true := by
  refine ⟨fun h => has_bit h, fun h => ?_⟩
  unfold DryTile.has
  refine Nat.eq_of_testBit_eq fun i => ?_
  rw [Nat.testBit_and, span_bit]
  by_cases hi : a ≤ i ∧ i < a + n
  · rw [h i hi.1 hi.2]; rfl
  · rw [decide_eq_false hi, Bool.and_false]

theorem readAnswer_append {id : Nat} {as bs : List Answer} {d : List I32} (h : readAnswer id as = some d) :
    readAnswer id (as ++ bs) = some d := by
  induction as with
  | nil => cases h
  | cons a as ih =>
    cases a with
    | read r' tm' d' =>
      simp only [List.cons_append, readAnswer] at h ⊢
      split at h
      · rename_i hh; rw [if_pos hh]; exact h
      · rename_i hh; rw [if_neg hh]; exact ih h
    | wrote r' tm' => exact ih h

theorem readAnswer_none_append {id : Nat} {as bs : List Answer} (h : readAnswer id as = none) :
    readAnswer id (as ++ bs) = readAnswer id bs := by
  induction as with
  | nil => rfl
  | cons a as ih =>
    cases a with
    | read r' tm' d' =>
      simp only [List.cons_append, readAnswer] at h ⊢
      split at h
      · cases h
      · rename_i hh; rw [if_neg hh]; exact ih h
    | wrote r' tm' => exact ih h

theorem readAnswer_fresh {id : Nat} {as : List Answer} (h : ∀ x ∈ as, x.req.id < id) : readAnswer id as = none := by
  induction as with
  | nil => rfl
  | cons a as ih =>
    have h1 := h a (List.mem_cons_self ..)
    have h2 := ih fun x hx => h x (List.mem_cons_of_mem _ hx)
    cases a with
    | read r' tm' d' =>
      simp only [readAnswer]
      rw [if_neg (by simp only [Answer.req] at h1; omega)]
      exact h2
    | wrote r' tm' => exact h2

theorem wroteAnswer_append {id : Nat} {as bs : List Answer} (h : wroteAnswer id as = true) :
    wroteAnswer id (as ++ bs) = true := by
  induction as with
  | nil => cases h
  | cons a as ih =>
    cases a with
    | read r' tm' d' => exact ih h
    | wrote r' tm' =>
      simp only [List.cons_append, wroteAnswer, Bool.or_eq_true] at h ⊢
      rcases h with h | h
      · exact .inl h
      · exact .inr (ih h)

/-- A read is submitted. -/
theorem submit_read {size mask : Nat} {P : List Req} {c : Ctrl} (h : CtrlW size mask true [] P c) (core : Int) {addr n : Nat}
    {width vec : Int} (hn : (n : Int) = width * vec) (hpos : 0 < n) (hsz : addr + n ≤ size) :
    ∃ r : Req, r.id = c.submitted.length ∧ r.start = addr ∧ r.length = n ∧
      CtrlW size mask true [r] P (c.submit core addr (.read width vec)) ∧
      (c.submit core addr (.read width vec)).answers = c.answers := by
  unfold Ctrl.submit
  rw [if_neg (by rw [h.running]; simp)]
  dsimp only
  refine ⟨{ id := c.submitted.length, core := core, start := (addr : Int), kind := .read width vec, submitTime := c.now },
    rfl, rfl, hn.symm, ⟨h.crashed, ?_, h.handed, h.pending, h.bus, h.deadline, h.running, h.alive, h.msize, h.clen, h.vlen, h.bits,
    h.bound, ?_, ?_, ?_, ?_⟩, rfl⟩
  · dsimp only; rw [h.queue]; rfl
  · intro x hx
    dsimp only
    rw [List.length_append]
    exact Nat.lt_add_right _ (h.ids x hx)
  · intro r hr
    rcases List.mem_cons.1 hr with rfl | hr
    · exact ⟨addr, n, width, vec, rfl, hn, hpos, rfl, hsz⟩
    · exact h.ok r hr
  · intro r hr
    dsimp only
    rw [List.length_append]
    rcases List.mem_cons.1 hr with rfl | hr
    · exact ⟨Nat.lt_succ_self _, readAnswer_fresh h.ids⟩
    · exact ⟨Nat.lt_add_right _ (h.fresh r hr).1, (h.fresh r hr).2⟩
  · rw [List.singleton_append, List.map_cons, List.nodup_cons]
    refine ⟨fun hm => ?_, h.nodup⟩
    obtain ⟨r, hr, he⟩ := List.mem_map.1 hm
    have := (h.fresh r hr).1
    rw [he] at this
    exact lt_irrefl _ this

/-- The next read of the queue is served. -/
theorem serve_next {size mask : Nat} {r : Req} {Q P : List Req} {c : Ctrl} (h : CtrlW size mask true (r :: Q) P c)
    (hr : ready c.valid r = true) :
    ∃ c' data, c.run 0 serveActs = some c' ∧ CtrlW size mask true Q P c' ∧
      readAnswer r.id c'.answers = some data ∧ (data.length : Int) = r.length ∧ (∃ bs, c'.answers = c.answers ++ bs) ∧
      c'.valid = c.valid := by
  obtain ⟨addr, n, width, vec, hkind, hn, hpos, hstart, hsz⟩ := h.ok r (List.mem_cons_self ..)
  obtain ⟨f1, f2⟩ := h.fresh r (List.mem_cons_self ..)
  have hlen : r.length = n := by unfold Req.length; rw [hkind]; exact hn.symm
  have hw : r.isWrite = false := by unfold Req.isWrite; rw [hkind]
  have hread : c.mem.read r.start r.length r.numBatches = (.ok (pySlice c.mem.cells addr (addr + n)),
      { c.mem with stats := c.mem.stats.addRead r.numBatches n }) := by
    unfold Memory.read
    rw [hstart, hlen]
    dsimp only
    rw [if_neg (by rw [h.msize]; omega), if_neg (by omega)]
  have hans : readAnswer r.id (c.answers ++ [.read r c.now (pySlice c.mem.cells addr (addr + n))]) =
      some (pySlice c.mem.cells addr (addr + n)) := by
    rw [readAnswer_none_append f2]
    simp [readAnswer]
  refine ⟨_, pySlice c.mem.cells addr (addr + n), by
    simp only [serveActs, Ctrl.run, Ctrl.act, h.crashed, Option.isSome_none, Bool.false_eq_true, if_false, Ctrl.pick,
      h.alive, h.handed, h.queue, List.nil_append, Option.bind_some, Ctrl.dispatch, hr, or_true, if_true, h.bus,
      Ctrl.grant, h.deadline, zero_mul, lt_irrefl, Int.toNat_zero, Nat.add_zero, Ctrl.complete, ne_eq, not_true, hkind,
      hread]
    rfl, ?_, ?_, ?_, ?_, ?_⟩
  · refine ⟨rfl, rfl, rfl, h.pending, rfl, rfl, h.running, rfl, h.msize, h.clen, h.vlen, h.bits, h.bound, ?_, ?_, ?_, ?_⟩
    · intro x hx
      rcases List.mem_append.1 hx with hx | hx
      · exact h.ids x hx
      · rw [List.mem_singleton.1 hx]
        exact f1
    · exact fun r' hr' => h.ok r' (List.mem_cons_of_mem _ hr')
    · intro r' hr'
      obtain ⟨g1, g2⟩ := h.fresh r' (List.mem_cons_of_mem _ hr')
      refine ⟨g1, ?_⟩
      dsimp only
      rw [readAnswer_none_append g2]
      have hne : r.id ≠ r'.id := by
        have := h.nodup
        rw [List.cons_append, List.map_cons, List.nodup_cons] at this
        intro he
        exact this.1 (he ▸ List.mem_map_of_mem hr')
      simp [readAnswer, hne]
    · have := h.nodup
      rw [List.cons_append, List.map_cons, List.nodup_cons] at this
      exact this.2
  · exact hans
  · rw [pySlice_getD _ _ _ 0 (by omega) (by rw [h.clen]; omega) (by omega), hlen]
    simp
  · exact ⟨_, rfl⟩
  · rfl

/-- Actions of the controller itself. -/
def Quiet (as : List CtrlAct) : Prop := ∀ a ∈ as, match a with | .submit .. | .stop => False | _ => True

theorem ctrl_run_append (lat : Int) (as bs : List CtrlAct) : ∀ (c : Ctrl), c.run lat (as ++ bs) = (c.run lat as).bind fun c => c.run lat bs := by
  induction as with
  | nil => intro c; rfl
  | cons a as ih =>
    intro c
    simp only [List.cons_append, Ctrl.run]
    cases c.act lat a with
    | none => rfl
    | some c1 => exact ih c1

theorem quiet_append {as bs : List CtrlAct} (h1 : Quiet as) (h2 : Quiet bs) : Quiet (as ++ bs) := by
  intro a ha
  rcases List.mem_append.1 ha with ha | ha
  · exact h1 a ha
  · exact h2 a ha

theorem quiet_serve : Quiet serveActs := by
  intro a ha
  simp only [serveActs, List.mem_cons, List.not_mem_nil, or_false] at ha
  rcases ha with rfl | rfl | rfl | rfl <;> trivial

/-- All reads of the queue are served. -/
theorem serve_all {size mask : Nat} {P : List Req} (Q : List Req) : ∀ {c : Ctrl}, CtrlW size mask true Q P c →
    (∀ r ∈ Q, ready c.valid r = true) →
    ∃ acts c', Quiet acts ∧ c.run 0 acts = some c' ∧ CtrlW size mask true [] P c' ∧
      (∀ r ∈ Q, ∃ data, readAnswer r.id c'.answers = some data ∧ (data.length : Int) = r.length) ∧
      (∃ bs, c'.answers = c.answers ++ bs) ∧ c'.valid = c.valid := by
  induction Q with
  | nil =>
    intro c h _
    exact ⟨[], c, fun a ha => (by cases ha), rfl, h, fun r hr => (by cases hr), ⟨[], (List.append_nil _).symm⟩, rfl⟩
  | cons r Q ih =>
    intro c h hr
    obtain ⟨c1, data, a1, a2, a3, a4, ⟨bs, a5⟩, a6⟩ := serve_next h (hr r (List.mem_cons_self ..))
    obtain ⟨acts, c2, b0, b1, b2, b3, ⟨bs', b4⟩, b5⟩ := ih a2 (fun r' hr' => by
      rw [a6]; exact hr r' (List.mem_cons_of_mem _ hr'))
    refine ⟨serveActs ++ acts, c2, quiet_append quiet_serve b0, ?_, b2, ?_, ⟨bs ++ bs', ?_⟩, b5.trans a6⟩
    · rw [ctrl_run_append, a1]; exact b1
    · intro r' hr'
      rcases List.mem_cons.1 hr' with rfl | hr'
      · exact ⟨data, by rw [b4]; exact readAnswer_append a3, a4⟩
      · exact b3 r' hr'
    · rw [b4, a5, List.append_assoc]

/-- A read whose words are not there has to wait. -/
theorem serve_wait {size mask : Nat} {r : Req} {P : List Req} {c : Ctrl} (h : CtrlW size mask true [r] P c)
    (hr : ready c.valid r = false) :
    ∃ c', c.run 0 [.pick, .dispatch] = some c' ∧ CtrlW size mask true [] (P ++ [r]) c' ∧ c'.answers = c.answers := by
  obtain ⟨addr, n, width, vec, hkind, hn, hpos, hstart, hsz⟩ := h.ok r (List.mem_cons_self ..)
  have hw : r.isWrite = false := by unfold Req.isWrite; rw [hkind]
  have hmem : ∀ x, x ∈ [] ++ (P ++ [r]) → x ∈ [r] ++ P := by
    intro x hx
    simp only [List.nil_append, List.mem_append, List.mem_singleton] at hx ⊢
    exact hx.symm
  refine ⟨_, by
    simp only [Ctrl.run, Ctrl.act, h.crashed, Option.isSome_none, Bool.false_eq_true, if_false, Ctrl.pick,
      h.alive, h.handed, h.queue, Option.bind_some, Ctrl.dispatch, hr, hw, or_self]
    rfl, ?_, ?_⟩
  · refine ⟨rfl, rfl, rfl, ?_, h.bus, h.deadline, h.running, rfl, h.msize, h.clen, h.vlen, h.bits, h.bound, h.ids,
      fun x hx => h.ok x (hmem x hx), fun x hx => h.fresh x (hmem x hx), ?_⟩
    · dsimp only; rw [h.pending]
    have := h.nodup
    rw [List.nil_append, List.map_append, List.nodup_append_comm, ← List.map_append]
    exact this
  · rfl

theorem ids_nodup {l : List Req} (h : (l.map Req.id).Nodup) : l.Nodup := h.of_map _

/-- A write of words that are not there. -/
theorem serve_store {size mask : Nat} {P : List Req} {c : Ctrl} (h : CtrlW size mask true [] P c) (core : Int)
    {addr : Nat} {data : List I32} {rows : Nat} (hsz : addr + data.length ≤ size) :
    (c.submit core addr (.write data rows)).crashed = none ∧
    ∃ acts c' valid', Quiet acts ∧ (c.submit core addr (.write data rows)).run 0 acts = some c' ∧ valid'.length = size ∧
      (∀ a < size, valid'.getD a false = (mask ||| span addr data.length).testBit a) ∧
      CtrlW size (mask ||| span addr data.length) true [] (release (ready valid') P).2 c' ∧
      wroteAnswer c.submitted.length c'.answers = true ∧
      (∀ r ∈ (release (ready valid') P).1, ∃ d, readAnswer r.id c'.answers = some d ∧ (d.length : Int) = r.length) ∧
      ∃ bs, c'.answers = c.answers ++ bs := by
  unfold Ctrl.submit
  rw [if_neg (by rw [h.running]; simp)]
  refine ⟨h.crashed, ?_⟩
  dsimp only
  generalize hr : ({ id := c.submitted.length, core := core, start := (addr : Int), kind := .write data rows,
                     submitTime := c.now } : Req) = r
  have hid : r.id = c.submitted.length := by rw [← hr]
  have hstart : r.start = addr := by rw [← hr]
  have hkind : r.kind = .write data rows := by rw [← hr]
  have hw : r.isWrite = true := by rw [← hr]; rfl
  have hwrite : c.mem.write r.start data r.numBatches = (.ok (),
      { c.mem with
        cells := pySliceSet c.mem.cells addr data
        stats := c.mem.stats.addWrite r.numBatches data.length }) := by
    unfold Memory.write
    rw [hstart]
    dsimp only
    rw [if_neg (by rw [h.msize]; omega), Int.toNat_natCast]
  have hnd : P.Nodup := ids_nodup (by simpa using h.nodup)
  let valid' := pySliceSet c.valid r.start.toNat (List.replicate data.length true)
  have hvl : valid'.length = size := by
    show (pySliceSet c.valid r.start.toNat (List.replicate data.length true)).length = size
    rw [hstart, Int.toNat_natCast, pySliceSet_length _ _ _ (by rw [h.vlen, List.length_replicate]; exact hsz), h.vlen]
  have hvb : ∀ a < size, valid'.getD a false = (mask ||| span addr data.length).testBit a := by
    intro a ha
    show (pySliceSet c.valid r.start.toNat (List.replicate data.length true)).getD a false = _
    rw [hstart, Int.toNat_natCast, pySliceSet_getD _ _ _ _ _ (by rw [h.vlen, List.length_replicate]; exact hsz),
      List.length_replicate, Nat.testBit_or, span_bit]
    by_cases hin : addr ≤ a ∧ a < addr + data.length
    · rw [if_pos hin, decide_eq_true hin, Bool.or_true, List.getD_eq_getElem?_getD, List.getElem?_replicate,
        if_pos (by omega)]
      rfl
    · rw [if_neg hin, decide_eq_false hin, Bool.or_false, h.bits a ha]
  have hperm := release_perm (ready valid') P
  have hans : ∀ id, readAnswer id c.answers = none → readAnswer id (c.answers ++ [.wrote r c.now]) = none := by
    intro id hn
    rw [readAnswer_none_append hn]
    rfl
  obtain ⟨c1, e1, e2, e3, e4⟩ : ∃ c1, ({ c with
      queue := c.queue ++ [r], submitted := c.submitted ++ [r]
      stats := { c.stats with
        writeRequests := c.stats.writeRequests + r.numBatches
        totalRequests := c.stats.totalRequests + r.numBatches } } : Ctrl).run 0 serveActs = some c1 ∧
      CtrlW size (mask ||| span addr data.length) true (release (ready valid') P).1 (release (ready valid') P).2 c1 ∧
      c1.valid = valid' ∧ c1.answers = c.answers ++ [.wrote r c.now] := by
    refine ⟨_, by
      simp only [serveActs, Ctrl.run, Ctrl.act, h.crashed, Option.isSome_none, Bool.false_eq_true, if_false, Ctrl.pick,
        h.alive, h.handed, h.queue, List.nil_append, Option.bind_some, Ctrl.dispatch, hw, true_or, if_true, h.bus,
        Ctrl.grant, h.deadline, zero_mul, lt_irrefl, Int.toNat_zero, Nat.add_zero, Ctrl.complete, ne_eq, not_true, hkind,
        hwrite, h.pending, updateReady_release _ _ hnd]
      rfl, ?_, rfl, rfl⟩
    refine ⟨rfl, rfl, rfl, rfl, rfl, rfl, h.running, rfl, h.msize, ?_, hvl, hvb, ?_, ?_, ?_, ?_, ?_⟩
    · show (pySliceSet c.mem.cells addr data).length = size
      rw [pySliceSet_length _ _ _ (by rw [h.clen]; exact hsz), h.clen]
    · intro a ha
      rw [Nat.testBit_or, span_bit, Bool.or_eq_true, decide_eq_true_eq] at ha
      rcases ha with ha | ha
      · exact h.bound a ha
      · omega
    · intro x hx
      rcases List.mem_append.1 hx with hx | hx
      · have := h.ids x hx
        show _ < (c.submitted ++ [r]).length
        rw [List.length_append]
        exact Nat.lt_add_right _ this
      · rw [List.mem_singleton.1 hx]
        show r.id < (c.submitted ++ [r]).length
        rw [List.length_append, hid]
        exact Nat.lt_succ_self _
    · exact fun x hx => h.ok x (hperm.mem_iff.1 hx)
    · intro x hx
      obtain ⟨g1, g2⟩ := h.fresh x (hperm.mem_iff.1 hx)
      refine ⟨?_, hans _ g2⟩
      show _ < (c.submitted ++ [r]).length
      rw [List.length_append]
      exact Nat.lt_add_right _ g1
    · exact (hperm.map Req.id).nodup_iff.2 (by simpa using h.nodup)
  obtain ⟨acts, c', k0, k1, k2, k3, ⟨bs, k4⟩, k5⟩ := serve_all _ e2 (fun x hx => by
    rw [e3]; exact release_ready _ _ x hx)
  refine ⟨serveActs ++ acts, c', valid', quiet_append quiet_serve k0, ?_, hvl, hvb, k2, ?_, k3, ⟨[.wrote r c.now] ++ bs, ?_⟩⟩
  · rw [ctrl_run_append, e1]; exact k1
  · rw [k4, e4]
    exact wroteAnswer_append (wroteAnswer_new hid)
  · rw [k4, e4, List.append_assoc]

end Ramwich
