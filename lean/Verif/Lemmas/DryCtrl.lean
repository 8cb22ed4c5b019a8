import Verif.Spec.StaticCheck
import Verif.Lemmas.SysErrors

/-! # A controller that serves one request at a time -/
namespace Ramwich

open Spec

theorem span_bit (a n i : Nat) : (span a n).testBit i = decide (a ≤ i ∧ i < a + n) := by
  unfold span
  rw [Nat.testBit_shiftLeft, Nat.testBit_two_pow_sub_one, Bool.eq_iff_iff]
  simp only [Bool.and_eq_true, decide_eq_true_eq]
  omega

theorem has_bit {x : DryTile} {a n : Nat} (h : x.has a n) (i : Nat) (h1 : a ≤ i) (h2 : i < a + n) :
    x.valid.testBit i = true := by
  unfold DryTile.has at h
  have := congrArg (fun m => Nat.testBit m i) h
  simp only [Nat.testBit_and, span_bit] at this
  rw [decide_eq_true ⟨h1, h2⟩] at this
  simpa using this

theorem free_bit {size : Nat} {x : DryTile} {a n : Nat} (h : x.free size a n) (i : Nat) (h1 : a ≤ i) (h2 : i < a + n) :
    x.valid.testBit i = false := by
  have := congrArg (fun m => Nat.testBit m i) h.2
  simp only [Nat.testBit_and, span_bit, Nat.zero_testBit] at this
  rw [decide_eq_true ⟨h1, h2⟩] at this
  simpa using this

/-- The controller has nothing to do; its valid words are those of `mask`, and no word was written that was valid
at first (`mask0`) or twice. -/
structure CtrlQuiet (size mask0 mask : Nat) (up : Bool) (c : Ctrl) : Prop where
  crashed : c.crashed = none
  queue : c.queue = []
  handed : c.handed = none
  pending : c.pending = []
  bus : c.bus = []
  deadline : c.deadline = none
  running : c.running = up
  alive : c.handlerAlive = up
  msize : c.mem.size = size
  clen : c.mem.cells.length = size
  vlen : c.valid.length = size
  bits : ∀ a < size, c.valid.getD a false = mask.testBit a
  bound : ∀ a, mask.testBit a = true → a < size
  first : ∀ a, mask0.testBit a = true → mask.testBit a = true
  ids : ∀ x ∈ c.answers, x.req.id < c.submitted.length
  writes : ∀ w ∈ writesOf c.answers, ∀ a, covers w a → mask.testBit a = true ∧ mask0.testBit a = false ∧
    ∀ w' ∈ writesOf c.answers, covers w' a → w' = w

theorem readAnswer_new {id : Nat} {as : List Answer} {r : Req} {tm : Nat} {d : List I32} (h : ∀ x ∈ as, x.req.id < id)
    (hr : r.id = id) : readAnswer id (as ++ [.read r tm d]) = some d := by
  induction as with
  | nil => simp [readAnswer, hr]
  | cons a as ih =>
    have h1 := h a (List.mem_cons_self ..)
    have h2 := ih (fun x hx => h x (List.mem_cons_of_mem _ hx))
    cases a with
    | read r' tm' d' =>
      simp only [List.cons_append, readAnswer]
      rw [if_neg (by simp only [Answer.req] at h1; omega)]
      exact h2
    | wrote r' tm' => exact h2

theorem wroteAnswer_new {id : Nat} {as : List Answer} {r : Req} {tm : Nat}
    (hr : r.id = id) : wroteAnswer id (as ++ [.wrote r tm]) = true := by
  induction as with
  | nil => simp [wroteAnswer, hr]
  | cons a as ih =>
    cases a with
    | read r' tm' d' => exact ih
    | wrote r' tm' => simp only [List.cons_append, wroteAnswer, ih, Bool.or_true]

/-- The work of a controller on one request. -/
def serveActs : List CtrlAct := [.pick, .dispatch, .grant, .complete]

theorem serve_read {size mask0 mask : Nat} {c : Ctrl} (h : CtrlQuiet size mask0 mask true c) (core : Int)
    {addr n : Nat} {width vec : Int} (hn : (n : Int) = width * vec) (hpos : 0 < n)
    (hb : ∀ i, addr ≤ i → i < addr + n → mask.testBit i = true) :
    (c.submit core addr (.read width vec)).crashed = none ∧
    ∃ c' data, (c.submit core addr (.read width vec)).run 0 serveActs = some c' ∧ CtrlQuiet size mask0 mask true c' ∧
      readAnswer c.submitted.length c'.answers = some data ∧ data.length = n := by
  have hsz : addr + n ≤ size := by
    have := h.bound (addr + n - 1) (hb _ (by omega) (by omega))
    omega
  unfold Ctrl.submit
  rw [if_neg (by rw [h.running]; simp)]
  refine ⟨h.crashed, ?_⟩
  dsimp only
  generalize hr : ({ id := c.submitted.length, core := core, start := (addr : Int), kind := .read width vec,
                     submitTime := c.now } : Req) = r
  have hid : r.id = c.submitted.length := by rw [← hr]
  have hstart : r.start = addr := by rw [← hr]
  have hkind : r.kind = .read width vec := by rw [← hr]
  have hlen : r.length = n := by rw [← hr]; exact hn.symm
  have hw : r.isWrite = false := by rw [← hr]; rfl
  have hready : ready c.valid r = true := by
    unfold ready
    rw [hstart, hlen, pySlice_mem_valid _ _ _ (by omega) (by rw [h.vlen]; omega) (by omega)]
    intro a h1 h2
    rw [h.bits a (by omega)]
    exact hb a (by omega) (by omega)
  have hread : c.mem.read r.start r.length r.numBatches = (.ok (pySlice c.mem.cells addr (addr + n)),
      { c.mem with stats := c.mem.stats.addRead r.numBatches n }) := by
    unfold Memory.read
    rw [hstart, hlen]
    dsimp only
    rw [if_neg (by rw [h.msize]; omega), if_neg (by omega)]
  refine ⟨_, pySlice c.mem.cells addr (addr + n), by
    simp only [serveActs, Ctrl.run, Ctrl.act, h.crashed, Option.isSome_none, Bool.false_eq_true, if_false, Ctrl.pick,
      h.alive, h.handed, h.queue, List.nil_append, Option.bind_some, Ctrl.dispatch, hready, or_true, if_true, h.bus,
      Ctrl.grant, h.deadline, zero_mul, lt_irrefl, Int.toNat_zero, Nat.add_zero, Ctrl.complete, ne_eq, not_true, hkind,
      hread]
    rfl, ?_, ?_, ?_⟩
  · refine ⟨rfl, rfl, rfl, h.pending, rfl, rfl, h.running, rfl, h.msize, h.clen, h.vlen, h.bits, h.bound,
      h.first, ?_, ?_⟩
    · intro x hx
      rcases List.mem_append.1 hx with hx | hx
      · have := h.ids x hx
        show _ < (c.submitted ++ [r]).length
        rw [List.length_append]
        exact Nat.lt_add_right _ this
      · rw [List.mem_singleton.1 hx]
        show r.id < (c.submitted ++ [r]).length
        rw [List.length_append, hid]
        exact Nat.lt_succ_self _
    · have hwr : writesOf (c.answers ++ [.read r c.now (pySlice c.mem.cells addr (addr + n))]) = writesOf c.answers := by
        simp [writesOf, List.filterMap_append]
      show ∀ w ∈ writesOf (c.answers ++ [.read r c.now (pySlice c.mem.cells addr (addr + n))]), _
      rw [hwr]
      exact h.writes
  · exact readAnswer_new h.ids hid
  · rw [pySlice_getD _ _ _ 0 (by omega) (by rw [h.clen]; omega) (by omega)]
    simp

theorem serve_write {size mask0 mask : Nat} {c : Ctrl} (h : CtrlQuiet size mask0 mask true c) (core : Int)
    {addr : Nat} {data : List I32} {rows : Nat} (hsz : addr + data.length ≤ size)
    (hb : ∀ i, addr ≤ i → i < addr + data.length → mask.testBit i = false) :
    (c.submit core addr (.write data rows)).crashed = none ∧
    ∃ c', (c.submit core addr (.write data rows)).run 0 serveActs = some c' ∧
      CtrlQuiet size mask0 (mask ||| span addr data.length) true c' ∧ wroteAnswer c.submitted.length c'.answers = true := by
  unfold Ctrl.submit
  rw [if_neg (by rw [h.running]; simp)]
  refine ⟨h.crashed, ?_⟩
  dsimp only
  generalize hr : ({ id := c.submitted.length, core := core, start := (addr : Int), kind := .write data rows,
                     submitTime := c.now } : Req) = r
  have hid : r.id = c.submitted.length := by rw [← hr]
  have hstart : r.start = addr := by rw [← hr]
  have hkind : r.kind = .write data rows := by rw [← hr]
  have hlen : r.length = data.length := by rw [← hr]; rfl
  have hw : r.isWrite = true := by rw [← hr]; rfl
  have hwrite : c.mem.write r.start data r.numBatches = (.ok (),
      { c.mem with
        cells := pySliceSet c.mem.cells addr data
        stats := c.mem.stats.addWrite r.numBatches data.length }) := by
    unfold Memory.write
    rw [hstart]
    dsimp only
    rw [if_neg (by rw [h.msize]; omega), Int.toNat_natCast]
  refine ⟨_, by
    simp only [serveActs, Ctrl.run, Ctrl.act, h.crashed, Option.isSome_none, Bool.false_eq_true, if_false, Ctrl.pick,
      h.alive, h.handed, h.queue, List.nil_append, Option.bind_some, Ctrl.dispatch, hw, true_or, if_true, h.bus,
      Ctrl.grant, h.deadline, zero_mul, lt_irrefl, Int.toNat_zero, Nat.add_zero, Ctrl.complete, ne_eq, not_true, hkind,
      hwrite, h.pending]
    rfl, ?_, ?_⟩
  · have hcov : ∀ a, covers r a → addr ≤ a ∧ a < addr + data.length := by
      intro a ha
      unfold covers at ha
      rw [hstart, hlen] at ha
      omega
    refine ⟨rfl, rfl, rfl, rfl, rfl, rfl, h.running, rfl, h.msize, ?_, ?_, ?_, ?_, ?_, ?_, ?_⟩
    · show (pySliceSet c.mem.cells addr data).length = size
      rw [pySliceSet_length _ _ _ (by rw [h.clen]; exact hsz), h.clen]
    · show (pySliceSet c.valid r.start.toNat (List.replicate data.length true)).length = size
      rw [hstart, Int.toNat_natCast, pySliceSet_length _ _ _ (by rw [h.vlen, List.length_replicate]; exact hsz), h.vlen]
    · intro a ha
      show (pySliceSet c.valid r.start.toNat (List.replicate data.length true)).getD a false = _
      rw [hstart, Int.toNat_natCast, pySliceSet_getD _ _ _ _ _ (by rw [h.vlen, List.length_replicate]; exact hsz),
        List.length_replicate, Nat.testBit_or, span_bit]
      by_cases hin : addr ≤ a ∧ a < addr + data.length
      · rw [if_pos hin, decide_eq_true hin, Bool.or_true, List.getD_eq_getElem?_getD, List.getElem?_replicate,
          if_pos (by omega)]
        rfl
      · rw [if_neg hin, decide_eq_false hin, Bool.or_false, h.bits a ha]
    · intro a ha
      rw [Nat.testBit_or, span_bit, Bool.or_eq_true, decide_eq_true_eq] at ha
      rcases ha with ha | ha
      · exact h.bound a ha
      · omega
    · intro a ha
      rw [Nat.testBit_or, h.first a ha, Bool.true_or]
    · intro x hx
      rcases List.mem_append.1 hx with hx | hx
      · have := h.ids x hx
        show _ < (c.submitted ++ [r]).length
        rw [List.length_append]
        exact Nat.lt_add_right _ this
      · rw [List.mem_singleton.1 hx]
        show r.id < (c.submitted ++ [r]).length
        rw [List.length_append, hid]
        exact Nat.lt_succ_self _
    · have hwr : writesOf (c.answers ++ [.wrote r c.now]) = writesOf c.answers ++ [r] := by
        simp [writesOf, List.filterMap_append]
      show ∀ w ∈ writesOf (c.answers ++ [.wrote r c.now]), ∀ a, covers w a → _ ∧ _ ∧
        ∀ w' ∈ writesOf (c.answers ++ [.wrote r c.now]), _
      rw [hwr]
      intro w hw a ha
      rcases List.mem_append.1 hw with hw | hw
      · obtain ⟨k1, k2, k3⟩ := h.writes w hw a ha
        refine ⟨by rw [Nat.testBit_or, k1, Bool.true_or], k2, fun w' hw' ha' => ?_⟩
        rcases List.mem_append.1 hw' with hw' | hw'
        · exact k3 w' hw' ha'
        · rw [List.mem_singleton.1 hw'] at ha'
          have := hcov a ha'
          rw [hb a this.1 this.2] at k1
          cases k1
      · have hw := List.mem_singleton.1 hw
        subst hw
        have hin := hcov a ha
        have hf := hb a hin.1 hin.2
        refine ⟨by rw [Nat.testBit_or, span_bit, decide_eq_true hin, Bool.or_true], ?_, fun w' hw' ha' => ?_⟩
        · cases hm : mask0.testBit a with
          | false => rfl
          | true => rw [h.first a hm] at hf; cases hf
        · rcases List.mem_append.1 hw' with hw' | hw'
          · rw [(h.writes w' hw' a ha').1] at hf; cases hf
          · exact List.mem_singleton.1 hw'
  · exact wroteAnswer_new hid

end Ramwich
