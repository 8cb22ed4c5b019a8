import Verif.Spec.ClockCheck
import Verif.Lemmas.WaitCtrl

/-! # The controllers of the check with the clock -/
namespace Ramwich

open Spec

/-- A request without data. -/
def ofReq (r : Req) : DReq := ⟨r.id, r.isWrite, r.start.toNat, r.length.toNat, r.numBatches.toNat⟩

/-- The request is about words of the DRAM. -/
structure ReqOk (size : Nat) (r : Req) : Prop where
  start : 0 ≤ r.start
  pos : 0 < r.length
  fits : r.start + r.length ≤ size
  rows : 0 ≤ r.numBatches

/-- The requests that are not answered. -/
def liveReqs (c : Ctrl) : List Req := c.handed.toList ++ (c.queue ++ (c.pending ++ c.bus))

structure ClockCtrl (size now : Nat) (d : DCtrl) (c : Ctrl) : Prop where
  crashed : c.crashed = none
  now : c.now = now
  running : c.running = d.up
  alive : c.handlerAlive = d.up
  queue : d.queue = c.queue.map ofReq
  handed : d.handed = c.handed.map ofReq
  pending : d.pending = c.pending.map ofReq
  bus : d.bus = c.bus.map ofReq
  deadline : d.deadline = c.deadline
  next : d.next = c.submitted.length
  ok : ∀ r ∈ liveReqs c, ReqOk size r
  nodup : ((liveReqs c).map Req.id).Nodup
  ids : ∀ x ∈ c.answers, x.req.id < c.submitted.length
  fresh : ∀ r ∈ liveReqs c, r.id < c.submitted.length
  msize : c.mem.size = size
  clen : c.mem.cells.length = size
  vlen : c.valid.length = size
  bits : ∀ a < size, c.valid.getD a false = d.valid.testBit a
  reads : ∀ id, d.reads.testBit id = (readAnswer id c.answers).isSome
  writes : ∀ id, d.writes.testBit id = wroteAnswer id c.answers

/-- The request with number `id` is for `n` words. -/
structure Ticket (c : Ctrl) (id n : Nat) : Prop where
  lt : id < c.submitted.length
  live : ∀ r ∈ liveReqs c, r.id = id → r.length = n
  answer : ∀ data, readAnswer id c.answers = some data → data.length = n

theorem readAnswer_snoc (id : Nat) (as : List Answer) (r : Req) (tm : Nat) (data : List I32) :
    readAnswer id (as ++ [.read r tm data]) =
      (readAnswer id as).or (if r.id = id then some data else none) := by
  cases h : readAnswer id as with
  | none => rw [readAnswer_none_append h]; rfl
  | some x => rw [readAnswer_append h]; rfl

theorem readAnswer_snoc_wrote (id : Nat) (as : List Answer) (r : Req) (tm : Nat) :
    readAnswer id (as ++ [.wrote r tm]) = readAnswer id as := by
  cases h : readAnswer id as with
  | none => rw [readAnswer_none_append h]; rfl
  | some x => rw [readAnswer_append h]

theorem wroteAnswer_snoc (id : Nat) (as : List Answer) (b : Answer) :
    wroteAnswer id (as ++ [b]) = (wroteAnswer id as || wroteAnswer id [b]) := by
  induction as with
  | nil => simp [wroteAnswer]
  | cons a as ih =>
    cases a with
    | read r tm d => exact ih
    | wrote r tm =>
      simp only [List.cons_append, wroteAnswer] at ih ⊢
      rw [ih, Bool.or_assoc]

theorem onePass_map (ok : DReq → Bool) (ok' : Req → Bool) (l : List Req) (h : ∀ r ∈ l, ok (ofReq r) = ok' r) :
    onePass ok (l.map ofReq) = ((release ok' l).1.map ofReq, (release ok' l).2.map ofReq) := by
  induction l using release.induct (ok := ok') with
  | case1 => rfl
  | case2 r hr =>
    have := h r (by simp)
    simp [onePass, release, hr, this]
  | case3 r hr x rest ih =>
    have h1 := h r (by simp)
    have h2 := ih fun a ha => h a (by simp [ha])
    simp [onePass, release, hr, h1, h2]
  | case4 r rest hr ih =>
    have h1 := h r (by simp)
    have h2 := ih fun a ha => h a (by simp [ha])
    rw [release_neg _ _ _ hr]
    have hr' : ok (ofReq r) = false := by rw [h1]; simpa using hr
    cases rest with
    | nil => simp [onePass, release, hr']
    | cons b rest =>
      simp only [List.map_cons] at h2 ⊢
      rw [onePass]
      simp [hr', h2]

theorem dreq_ready {size mask : Nat} {valid : List Bool} (hl : valid.length = size)
    (hb : ∀ a < size, valid.getD a false = mask.testBit a) {r : Req} (h : ReqOk size r) :
    (ofReq r).ready mask = ready valid r := by
  have h1 := h.start
  have h2 := h.pos
  have h3 := h.fits
  rw [Bool.eq_iff_iff, ready_iff (a := r.start.toNat) (n := r.length.toNat) hl hb (by omega) (by omega) (by omega)]
  unfold DReq.ready
  rw [decide_eq_true_eq]
  have := has_iff ⟨mask, [], [], [], true⟩ r.start.toNat r.length.toNat
  unfold DryTile.has at this
  exact this

variable {size now : Nat} {d d' : DCtrl} {c : Ctrl} {q : ClockPar}

theorem bit_or (m i id : Nat) : (m ||| 2 ^ i).testBit id = (m.testBit id || decide (i = id)) := by
  rw [Nat.testBit_or, Nat.testBit_two_pow]

/-- A request is submitted. -/
theorem clock_submit (h : ClockCtrl size now d c) (hq : q.size = size) {w : Bool} {a n v : Nat} (hd : d.submit q w a n v = some d')
    (lat : Int) (core : Int) {start : Int} (hs : start = a) {kind : ReqKind} (hw : (⟨0, 0, 0, kind, 0⟩ : Req).isWrite = w)
    (hn : (⟨0, 0, 0, kind, 0⟩ : Req).length = n) (hv : (⟨0, 0, 0, kind, 0⟩ : Req).numBatches = v) :
    ∃ c', c.act lat (.submit core start kind) = some c' ∧ c'.crashed = none ∧ ClockCtrl size now d' c' ∧
      Ticket c' c.submitted.length n ∧ ∀ id m, Ticket c id m → Ticket c' id m := by
  unfold DCtrl.submit at hd
  rw [Option.ite_none_right_eq_some] at hd
  obtain ⟨⟨hup, hpos, hfit⟩, hd⟩ := hd
  injection hd with hd
  rw [hq] at hfit
  subst hs
  generalize hr : (⟨c.submitted.length, core, (a : Int), kind, c.now⟩ : Req) = r
  have hid : r.id = c.submitted.length := by rw [← hr]
  have hlen : r.length = n := by rw [← hr]; exact hn
  have hrow : r.numBatches = v := by rw [← hr]; exact hv
  have hwr : r.isWrite = w := by rw [← hr]; exact hw
  have hst : r.start = a := by rw [← hr]
  have hrun : c.running = true := h.running.trans hup
  have hact : ∃ st, c.act lat (.submit core a kind) =
      some { c with queue := c.queue ++ [r], submitted := c.submitted ++ [r], stats := st } := by
    unfold Ctrl.act
    rw [show c.crashed.isSome = false by rw [h.crashed]; rfl]
    simp only [Bool.false_eq_true, if_false]
    unfold Ctrl.submit
    rw [if_neg (by rw [hrun]; simp)]
    dsimp only
    rw [hr]
    exact ⟨_, rfl⟩
  obtain ⟨st, hact⟩ := hact
  have hlive : (liveReqs { c with queue := c.queue ++ [r], submitted := c.submitted ++ [r], stats := st }).Perm (r :: liveReqs c) := by
    unfold liveReqs
    dsimp only
    refine (List.Perm.append_left _ ?_).trans List.perm_middle
    rw [List.append_assoc]
    exact List.perm_middle
  have hmem : ∀ x, x ∈ liveReqs { c with queue := c.queue ++ [r], submitted := c.submitted ++ [r], stats := st } →
      x = r ∨ x ∈ liveReqs c := fun x hx => List.mem_cons.1 (hlive.mem_iff.1 hx)
  refine ⟨_, hact, h.crashed, ?_, ?_, ?_⟩
  · subst hd
    refine ⟨h.crashed, h.now, h.running, h.alive, ?_, h.handed, h.pending, h.bus, h.deadline, ?_, ?_, ?_, ?_, ?_, h.msize, h.clen,
      h.vlen, h.bits, h.reads, h.writes⟩
    · dsimp only
      rw [List.map_append, h.queue, h.next, ← hid]
      congr 1
      simp only [List.map_cons, List.map_nil, ofReq, hlen, hrow, hwr, hst, Int.toNat_natCast]
    · dsimp only
      rw [List.length_append, h.next]
      rfl
    · intro x hx
      rcases hmem x hx with rfl | hx
      · exact ⟨by omega, by omega, by omega, by omega⟩
      · exact h.ok x hx
    · rw [(hlive.map Req.id).nodup_iff, List.map_cons, List.nodup_cons]
      refine ⟨fun hm => ?_, h.nodup⟩
      obtain ⟨x, hx, he⟩ := List.mem_map.1 hm
      have := h.fresh x hx
      omega
    · intro x hx
      dsimp only
      rw [List.length_append]
      exact Nat.lt_add_right _ (h.ids x hx)
    · intro x hx
      dsimp only
      rw [List.length_append]
      rcases hmem x hx with rfl | hx
      · rw [hid]; exact Nat.lt_succ_self _
      · exact Nat.lt_add_right _ (h.fresh x hx)
  · refine ⟨by dsimp only; rw [List.length_append]; exact Nat.lt_succ_self _, ?_, ?_⟩
    · intro x hx he
      rcases hmem x hx with rfl | hx
      · exact hlen
      · have := h.fresh x hx
        omega
    · intro data hdata
      have := readAnswer_fresh h.ids
      dsimp only at hdata
      rw [this] at hdata
      cases hdata
  · intro id m ht
    refine ⟨by dsimp only; rw [List.length_append]; exact Nat.lt_add_right _ ht.lt, ?_, ht.answer⟩
    intro x hx he
    rcases hmem x hx with rfl | hx
    · have := ht.lt
      omega
    · exact ht.live x hx he

theorem Ticket.sub {c c' : Ctrl} {id n : Nat} (h : Ticket c id n) (h1 : c'.submitted.length = c.submitted.length)
    (h2 : ∀ r ∈ liveReqs c', r ∈ liveReqs c)
    (h3 : ∀ data, readAnswer id c'.answers = some data → readAnswer id c.answers = some data ∨
      ∃ r ∈ liveReqs c, r.id = id ∧ (data.length : Int) = r.length) : Ticket c' id n := by
  refine ⟨by rw [h1]; exact h.lt, fun r hr => h.live r (h2 r hr), fun data hd => ?_⟩
  rcases h3 data hd with h3 | ⟨r, k1, k2, k3⟩
  · exact h.answer data h3
  · have := h.live r k1 k2
    omega

/-- An action that only moves requests. -/
theorem ClockCtrl.moved (h : ClockCtrl size now d c) {c' : Ctrl} (hp : (liveReqs c').Perm (liveReqs c))
    (h1 : c'.submitted = c.submitted) (h2 : c'.answers = c.answers) :
    (∀ r ∈ liveReqs c', ReqOk size r) ∧ ((liveReqs c').map Req.id).Nodup ∧ (∀ x ∈ c'.answers, x.req.id < c'.submitted.length) ∧
      (∀ r ∈ liveReqs c', r.id < c'.submitted.length) ∧ ∀ id n, Ticket c id n → Ticket c' id n := by
  refine ⟨fun r hr => h.ok r (hp.mem_iff.1 hr), (hp.map Req.id).nodup_iff.2 h.nodup, ?_, ?_, ?_⟩
  · rw [h1, h2]; exact h.ids
  · rw [h1]; exact fun r hr => h.fresh r (hp.mem_iff.1 hr)
  · intro id n ht
    exact ht.sub (by rw [h1]) (fun r hr => hp.mem_iff.1 hr) (by rw [h2]; exact fun data hd => .inl hd)

theorem clock_pick (h : ClockCtrl size now d c) (hd : d.act q now .pick = some d') (lat : Int) :
    ∃ c', c.act lat .pick = some c' ∧ ClockCtrl size now d' c' ∧ ∀ id n, Ticket c id n → Ticket c' id n := by
  simp only [DCtrl.act] at hd
  split at hd
  · rename_i r rest e1 e2 e3
    injection hd with hd
    subst hd
    have k2 : c.handed = none := by
      have := h.handed
      rw [e2] at this
      cases hc : c.handed with
      | none => rfl
      | some x => rw [hc] at this; cases this
    have k3 : ∃ r' rest', c.queue = r' :: rest' ∧ ofReq r' = r ∧ rest'.map ofReq = rest := by
      have := h.queue
      rw [e3] at this
      cases hc : c.queue with
      | nil => rw [hc] at this; cases this
      | cons x y =>
        rw [hc] at this
        simp only [List.map_cons, List.cons.injEq] at this
        exact ⟨x, y, rfl, this.1.symm, this.2.symm⟩
    obtain ⟨r', rest', k3, k4, k5⟩ := k3
    have hact : c.act lat .pick = some { c with handed := some r', queue := rest' } := by
      unfold Ctrl.act
      rw [show c.crashed.isSome = false by rw [h.crashed]; rfl]
      simp only [Bool.false_eq_true, if_false]
      unfold Ctrl.pick
      rw [h.alive, e1, k2, k3]
    have hp : (liveReqs { c with handed := some r', queue := rest' }).Perm (liveReqs c) := by
      unfold liveReqs
      dsimp only
      rw [k2, k3]
      exact .refl _
    obtain ⟨m1, m2, m3, m4, m5⟩ := h.moved hp rfl rfl
    refine ⟨_, hact, ⟨h.crashed, h.now, h.running, h.alive, k5.symm, ?_, h.pending, h.bus, h.deadline, h.next, m1, m2, m3, m4,
      h.msize, h.clen, h.vlen, h.bits, h.reads, h.writes⟩, m5⟩
    dsimp only
    rw [← k4]
    rfl
  · cases hd

theorem clock_dispatch (h : ClockCtrl size now d c) (hd : d.act q now .dispatch = some d') (lat : Int) :
    ∃ c', c.act lat .dispatch = some c' ∧ ClockCtrl size now d' c' ∧ ∀ id n, Ticket c id n → Ticket c' id n := by
  simp only [DCtrl.act] at hd
  split at hd
  · rename_i r e1 e2
    have k2 : ∃ r', c.handed = some r' ∧ ofReq r' = r := by
      have := h.handed
      rw [e2] at this
      cases hc : c.handed with
      | none => rw [hc] at this; cases this
      | some x => rw [hc] at this; injection this with this; exact ⟨x, rfl, this.symm⟩
    obtain ⟨r', k2, rfl⟩ := k2
    have hok : ReqOk size r' := h.ok r' (by unfold liveReqs; rw [k2]; simp)
    have hpre : c.act lat .dispatch = c.dispatch := by
      unfold Ctrl.act
      rw [show c.crashed.isSome = false by rw [h.crashed]; rfl]
      simp only [Bool.false_eq_true, if_false]
    have halive : c.handlerAlive = true := h.alive.trans e1
    have hdisp : c.dispatch = if r'.isWrite = true ∨ ready c.valid r' = true then
        some { c with handed := none, bus := c.bus ++ [r'] } else
        some { c with handed := none, pending := c.pending ++ [r'] } := by
      unfold Ctrl.dispatch
      simp only [halive, k2]
    rw [hpre, hdisp]
    have hcond : ((ofReq r').write || (ofReq r').ready d.valid) = (r'.isWrite || ready c.valid r') := by
      rw [dreq_ready h.vlen h.bits hok]; rfl
    rw [hcond] at hd
    split at hd
    · rename_i hc
      injection hd with hd
      subst hd
      rw [if_pos (by simpa using hc)]
      have hp : (liveReqs { c with handed := none, bus := c.bus ++ [r'] }).Perm (liveReqs c) := by
        unfold liveReqs
        dsimp only
        rw [k2]
        simp only [Option.toList_none, List.nil_append, Option.toList_some, List.singleton_append]
        rw [← List.append_assoc, ← List.append_assoc, ← List.append_assoc]
        exact List.perm_append_singleton _ _
      obtain ⟨m1, m2, m3, m4, m5⟩ := h.moved hp rfl rfl
      refine ⟨_, rfl, ⟨h.crashed, h.now, h.running, h.alive, h.queue, rfl, h.pending, ?_, h.deadline, h.next, m1, m2, m3, m4,
        h.msize, h.clen, h.vlen, h.bits, h.reads, h.writes⟩, m5⟩
      dsimp only
      rw [List.map_append, h.bus]
      rfl
    · rename_i hc
      injection hd with hd
      subst hd
      rw [if_neg (by simpa using hc)]
      have hp : (liveReqs { c with handed := none, pending := c.pending ++ [r'] }).Perm (liveReqs c) := by
        unfold liveReqs
        dsimp only
        rw [k2]
        simp only [Option.toList_none, List.nil_append, Option.toList_some, List.singleton_append, List.append_assoc]
        rw [← List.append_assoc]
        refine List.perm_middle.trans (.cons _ ?_)
        rw [List.append_assoc]
      obtain ⟨m1, m2, m3, m4, m5⟩ := h.moved hp rfl rfl
      refine ⟨_, rfl, ⟨h.crashed, h.now, h.running, h.alive, h.queue, rfl, ?_, h.bus, h.deadline, h.next, m1, m2, m3, m4,
        h.msize, h.clen, h.vlen, h.bits, h.reads, h.writes⟩, m5⟩
      dsimp only
      rw [List.map_append, h.pending]
      rfl
  · cases hd

theorem bus_head (h : ClockCtrl size now d c) {r : DReq} {rest : List DReq} (e : d.bus = r :: rest) :
    ∃ r' rest', c.bus = r' :: rest' ∧ ofReq r' = r ∧ rest'.map ofReq = rest ∧ ReqOk size r' := by
  have := h.bus
  rw [e] at this
  cases hc : c.bus with
  | nil => rw [hc] at this; cases this
  | cons x y =>
    rw [hc] at this
    simp only [List.map_cons, List.cons.injEq] at this
    exact ⟨x, y, rfl, this.1.symm, this.2.symm, h.ok x (by unfold liveReqs; rw [hc]; simp)⟩

theorem clock_grant (h : ClockCtrl size now d c) (hd : d.act q now .grant = some d') :
    ∃ c', c.act q.edram .grant = some c' ∧ ClockCtrl size now d' c' ∧ ∀ id n, Ticket c id n → Ticket c' id n := by
  simp only [DCtrl.act] at hd
  split at hd
  · rename_i r rest e1 e2
    injection hd with hd
    subst hd
    obtain ⟨r', rest', k1, rfl, k3, k4⟩ := bus_head h e1
    have k5 := k4.rows
    have hrow : (0 : Int) ≤ q.edram * r'.numBatches := Int.mul_nonneg (by omega) k5
    have hact : c.act q.edram .grant = some { c with deadline := some (now + q.edram * r'.numBatches.toNat) } := by
      unfold Ctrl.act
      rw [show c.crashed.isSome = false by rw [h.crashed]; rfl]
      simp only [Bool.false_eq_true, if_false]
      unfold Ctrl.grant
      rw [k1, ← h.deadline, e2]
      dsimp only
      rw [if_neg (by omega), h.now]
      congr 4
      rw [Int.toNat_mul (by omega) k5, Int.toNat_natCast]
    obtain ⟨m1, m2, m3, m4, m5⟩ := h.moved (c' := { c with deadline := some (now + q.edram * r'.numBatches.toNat) }) (.refl _) rfl rfl
    exact ⟨_, hact, ⟨h.crashed, h.now, h.running, h.alive, h.queue, h.handed, h.pending, by exact h.bus, rfl, h.next, m1, m2, m3, m4,
      h.msize, h.clen, h.vlen, h.bits, h.reads, h.writes⟩, m5⟩
  · cases hd

theorem clock_complete (h : ClockCtrl size now d c) (hd : d.act q now .complete = some d') (lat : Int) :
    ∃ c', c.act lat .complete = some c' ∧ ClockCtrl size now d' c' ∧ ∀ id n, Ticket c id n → Ticket c' id n := by
  simp only [DCtrl.act] at hd
  split at hd
  · rename_i r rest dl e1 e2
    rw [Option.ite_none_right_eq_some] at hd
    obtain ⟨e3, hd⟩ := hd
    obtain ⟨r', rest', k1, rfl, k3, hok⟩ := bus_head h e1
    have hs := hok.start
    have hpos := hok.pos
    have hfit := hok.fits
    have hin : r' ∈ liveReqs c := by unfold liveReqs; rw [k1]; simp
    have hsplit : (liveReqs c).Perm (r' :: (c.handed.toList ++ (c.queue ++ (c.pending ++ rest')))) := by
      unfold liveReqs
      rw [k1, ← List.append_assoc, ← List.append_assoc]
      refine List.perm_middle.trans (.cons _ ?_)
      simp
    have hact : c.act lat .complete = c.complete lat := by
      unfold Ctrl.act
      rw [show c.crashed.isSome = false by rw [h.crashed]; rfl]
      simp only [Bool.false_eq_true, if_false]
    have hdl : c.deadline = some c.now := by rw [← h.deadline, e2, e3, h.now]
    have hnd := (hsplit.map Req.id).nodup_iff.1 h.nodup
    rw [List.map_cons, List.nodup_cons] at hnd
    rw [hact]
    unfold Ctrl.complete
    simp only [k1, hdl, ne_eq, not_true, if_false]
    cases hk : r'.kind with
    | read width vec =>
      have hw : (ofReq r').write = false := by unfold ofReq Req.isWrite; rw [hk]
      rw [if_neg (by rw [hw]; simp)] at hd
      injection hd with hd
      subst hd
      have hread : c.mem.read r'.start r'.length r'.numBatches =
          (.ok (pySlice c.mem.cells r'.start (r'.start + r'.length)),
            { c.mem with stats := c.mem.stats.addRead r'.numBatches r'.length }) := by
        unfold Memory.read
        dsimp only
        rw [if_neg (by rw [h.msize]; omega), if_neg (by omega)]
      have hdata : ((pySlice c.mem.cells r'.start (r'.start + r'.length)).length : Int) = r'.length := by
        rw [pySlice_getD _ _ _ 0 (by omega) (by rw [h.clen]; omega) (by omega)]
        simp
        omega
      simp only [hread]
      have hmem : ∀ r ∈ c.handed.toList ++ (c.queue ++ (c.pending ++ rest')), r ∈ liveReqs c :=
        fun r hr => hsplit.mem_iff.2 (List.mem_cons_of_mem _ hr)
      refine ⟨_, rfl, ⟨h.crashed, h.now, h.running, h.alive, h.queue, h.handed, h.pending, k3.symm, rfl, h.next, fun r hr => h.ok r (hmem r hr),
        hnd.2, ?_, fun r hr => h.fresh r (hmem r hr), h.msize, h.clen, h.vlen, h.bits, ?_, ?_⟩, ?_⟩
      · intro x hx
        rcases List.mem_append.1 hx with hx | hx
        · exact h.ids x hx
        · rw [List.mem_singleton.1 hx]; exact h.fresh r' hin
      · intro id
        dsimp only
        rw [bit_or, h.reads, readAnswer_snoc]
        show _ = _
        by_cases he : r'.id = id
        · simp [ofReq, he]
        · simp [ofReq, he]
      · intro id
        dsimp only
        rw [wroteAnswer_snoc, h.writes]
        simp [wroteAnswer]
      · intro id n ht
        refine ht.sub rfl hmem fun x hx => ?_
        dsimp only at hx
        rw [readAnswer_snoc] at hx
        cases ha : readAnswer id c.answers with
        | some y => rw [ha] at hx; exact .inl hx
        | none =>
          rw [ha, Option.none_or, Option.ite_none_right_eq_some] at hx
          obtain ⟨g1, g2⟩ := hx
          injection g2 with g2
          exact .inr ⟨r', hin, g1, by rw [← g2]; exact hdata⟩
    | write data rows =>
      have hw : (ofReq r').write = true := by unfold ofReq Req.isWrite; rw [hk]
      have hlen : r'.length = data.length := by unfold Req.length; rw [hk]
      rw [if_pos hw] at hd
      have hwrite : c.mem.write r'.start data r'.numBatches = (.ok (),
          { c.mem with
            cells := pySliceSet c.mem.cells r'.start.toNat data
            stats := c.mem.stats.addWrite r'.numBatches data.length }) := by
        unfold Memory.write
        dsimp only
        rw [if_neg (by rw [h.msize]; omega)]
      simp only [hwrite]
      generalize hvd : pySliceSet c.valid r'.start.toNat (List.replicate data.length true) = valid
      have hvl : valid.length = size := by
        rw [← hvd, pySliceSet_length _ _ _ (by rw [h.vlen, List.length_replicate]; omega), h.vlen]
      have hvb : ∀ a < size, valid.getD a false = (d.valid ||| span (ofReq r').a (ofReq r').n).testBit a := by
        intro a ha
        have e1 : (ofReq r').a = r'.start.toNat := rfl
        have e2 : (ofReq r').n = data.length := by unfold ofReq; rw [hlen]; rfl
        rw [← hvd, pySliceSet_getD _ _ _ _ _ (by rw [h.vlen, List.length_replicate]; omega),
          List.length_replicate, Nat.testBit_or, span_bit, e1, e2]
        by_cases hin : r'.start.toNat ≤ a ∧ a < r'.start.toNat + data.length
        · rw [if_pos hin, decide_eq_true hin, Bool.or_true, List.getD_eq_getElem?_getD, List.getElem?_replicate,
            if_pos (by omega)]
          rfl
        · rw [if_neg hin, decide_eq_false hin, Bool.or_false, h.bits a ha]
      have hpn : c.pending.Nodup := by
        have := h.nodup
        unfold liveReqs at this
        rw [List.map_append, List.map_append, List.map_append] at this
        have := (List.nodup_append.1 (List.nodup_append.1 (List.nodup_append.1 this).2.1).2.1).1
        exact this.of_map
      rw [updateReady_release valid c.pending hpn]
      have hrel := onePass_map (fun r => r.ready (d.valid ||| span (ofReq r').a (ofReq r').n)) (ready valid) c.pending
        (fun r hr => dreq_ready hvl hvb (h.ok r (by unfold liveReqs; simp [hr])))
      rw [← h.pending] at hrel
      rw [hrel] at hd
      injection hd with hd
      subst hd
      have hperm := release_perm (ready valid) c.pending
      generalize hu : release (ready valid) c.pending = u at hperm
      have hp2 : (c.handed.toList ++ ((c.queue ++ u.1) ++ (u.2 ++ rest'))).Perm (c.handed.toList ++ (c.queue ++ (c.pending ++ rest'))) := by
        refine List.Perm.append_left _ ?_
        rw [List.append_assoc]
        refine List.Perm.append_left _ ?_
        rw [← List.append_assoc]
        exact hperm.append_right _
      have hmem : ∀ r ∈ c.handed.toList ++ ((c.queue ++ u.1) ++ (u.2 ++ rest')), r ∈ liveReqs c :=
        fun r hr => hsplit.mem_iff.2 (List.mem_cons_of_mem _ (hp2.mem_iff.1 hr))
      refine ⟨_, rfl, ⟨h.crashed, h.now, h.running, h.alive, ?_, h.handed, rfl, k3.symm, rfl, h.next, fun r hr => h.ok r (hmem r hr),
        (hp2.map Req.id).nodup_iff.2 hnd.2, ?_, fun r hr => h.fresh r (hmem r hr), h.msize, ?_, hvl, hvb, ?_, ?_⟩, ?_⟩
      · dsimp only
        rw [h.queue, List.map_append]
      · intro x hx
        rcases List.mem_append.1 hx with hx | hx
        · exact h.ids x hx
        · rw [List.mem_singleton.1 hx]; exact h.fresh r' hin
      · show (pySliceSet c.mem.cells r'.start.toNat data).length = size
        rw [pySliceSet_length _ _ _ (by rw [h.clen]; omega), h.clen]
      · intro id
        dsimp only
        rw [readAnswer_snoc_wrote, h.reads]
      · intro id
        dsimp only
        rw [bit_or, wroteAnswer_snoc, h.writes]
        simp only [wroteAnswer, ofReq, Bool.or_false]
        congr 1
      · intro id n ht
        refine ht.sub rfl hmem fun x hx => ?_
        dsimp only at hx
        rw [readAnswer_snoc_wrote] at hx
        exact .inl hx
  · cases hd

theorem clock_ctrl (h : ClockCtrl size now d c) {a : CtrlAct} (hd : d.act q now a = some d') :
    ∃ c', c.act q.edram a = some c' ∧ ClockCtrl size now d' c' ∧ ∀ id n, Ticket c id n → Ticket c' id n := by
  cases a with
  | pick => exact clock_pick h hd _
  | dispatch => exact clock_dispatch h hd _
  | grant => exact clock_grant h hd
  | complete => exact clock_complete h hd _
  | submit => cases hd
  | tick => cases hd
  | stop => cases hd

theorem clock_stop (h : ClockCtrl size now d c) (hup : d.up = true) (hp : d.pending.isEmpty = true) (lat : Int) :
    ∃ c', c.act lat .stop = some c' ∧ ClockCtrl size now { d with up := false } c' ∧ ∀ id n, Ticket c id n → Ticket c' id n := by
  have hpend : c.pending = [] := by
    have := h.pending
    rw [List.isEmpty_iff.1 hp] at this
    exact (List.map_eq_nil_iff.1 this.symm)
  have hrun := h.running.trans hup
  have hact : c.act lat .stop = c.stop := by
    unfold Ctrl.act
    rw [show c.crashed.isSome = false by rw [h.crashed]; rfl]
    simp only [Bool.false_eq_true, if_false]
  rw [hact]
  unfold Ctrl.stop
  rw [if_neg (by rw [hrun]; simp)]
  dsimp only
  rw [if_pos hpend]
  obtain ⟨m1, m2, m3, m4, m5⟩ := h.moved (c' := { c with
      running := false, handlerAlive := false
      stats := { c.stats with activeCycles := c.stats.activeCycles + (c.now - c.startTime : Int) } }) (.refl _) rfl rfl
  exact ⟨_, rfl, ⟨h.crashed, h.now, rfl, rfl, h.queue, h.handed, h.pending, h.bus, h.deadline, h.next, m1, m2, m3, m4, h.msize,
    h.clen, h.vlen, h.bits, h.reads, h.writes⟩, m5⟩

theorem clock_quiescent (h : ClockCtrl size now d c) (hu : now < d.until) : c.quiescent = true := by
  unfold DCtrl.until at hu
  have hbus : now < (match d.bus, d.deadline with
      | [], _ => farOff
      | _ :: _, none => 0
      | _ :: _, some d => d) → (match c.bus, c.deadline with
      | [], _ => true
      | _ :: _, none => false
      | _ :: _, some d => decide (c.now < d)) = true := by
    intro hb
    rw [h.bus, h.deadline] at hb
    cases hc : c.bus with
    | nil => rfl
    | cons r rest =>
      rw [hc] at hb
      cases hdl : c.deadline with
      | none => rw [hdl] at hb; simp at hb
      | some dl =>
        rw [hdl] at hb
        simp only [List.map_cons] at hb
        simp [h.now, hb]
  unfold Ctrl.quiescent
  rw [Bool.and_eq_true]
  split at hu
  · rename_i e1 e2 e3
    refine ⟨?_, hbus hu⟩
    have k2 : c.handed = none := by
      have := h.handed
      rw [e2] at this
      exact (Option.map_eq_none_iff.1 this.symm)
    have k3 : c.queue = [] := by
      have := h.queue
      rw [e3] at this
      exact (List.map_eq_nil_iff.1 this.symm)
    simp [k2, k3]
  · rename_i e1
    refine ⟨?_, hbus hu⟩
    rw [h.alive, e1]
    rfl
  · omega

theorem clock_tick (h : ClockCtrl size now d c) : ClockCtrl size (now + 1) d { c with now := c.now + 1 } :=
  ⟨h.crashed, by show c.now + 1 = _; rw [h.now], h.running, h.alive, h.queue, h.handed, h.pending, h.bus, h.deadline, h.next, h.ok, h.nodup,
    h.ids, h.fresh, h.msize, h.clen, h.vlen, h.bits, h.reads, h.writes⟩

theorem ticket_tick {id n : Nat} (h : Ticket c id n) : Ticket { c with now := c.now + 1 } id n := ⟨h.lt, h.live, h.answer⟩

end Ramwich
