import Verif.Lemmas.NetHistory
import Mathlib.Algebra.BigOperators.Group.Finset.Piecewise

/-! # Properties of the network (C37–C41)

All statements are about every sequence of actions `as` that can happen from the initial state: any
number of tiles, any interleaving, any data, targets and sources. -/
namespace Ramwich

open Spec

/-! ## C37: delivery -/

/-- For every pair of tiles: what the receiver's `read_packet` calls have returned, what it has just
taken, what its buffer holds, what the sender has in flight and what it has queued for that receiver
is, in this order, exactly what was sent. -/
theorem C37_delivery (c : NetConfig) (as : List NetAct) (s : Net) (h : Net.run c {} as = some s)
    (i d : Nat) :
    sends as i d = reads c {} as d i ++ takenFrom i (s.reader d) ++ s.buf d i
      ++ dataTo d (s.sender i).held.toList ++ dataTo d (s.queue i) := by
  obtain ⟨h1, h2⟩ := run_histories c as {} s h i d
  have h3 := (netInv_run c as s h).stream i d
  rw [h1, h2] at h3
  simpa [dataTo] using h3

/-- What was read is always a prefix of what was sent. -/
theorem C37_prefix (c : NetConfig) (as : List NetAct) (s : Net) (h : Net.run c {} as = some s)
    (i d : Nat) : reads c {} as d i <+: sends as i d := by
  rw [C37_delivery c as s h i d]
  simp only [List.append_assoc]
  exact List.prefix_append _ _

/-- When nothing is on its way, everything sent was read. -/
theorem C37_complete (c : NetConfig) (as : List NetAct) (s : Net) (h : Net.run c {} as = some s)
    (i d : Nat) (hq : s.queue i = []) (hk : s.sender i = .idle) (hb : s.buf d i = [])
    (hr : s.reader d = .idle) : reads c {} as d i = sends as i d := by
  rw [C37_delivery c as s h i d, hq, hk, hb, hr]
  simp [takenFrom, dataTo, Sender.held]

/-! ## C38: buffers -/

/-- A receive buffer never holds more than one packet, and there is never one from the tile itself. -/
theorem C38_capacity (c : NetConfig) (as : List NetAct) (s : Net) (h : Net.run c {} as = some s)
    (d i : Nat) : (s.buf d i).length ≤ 1 ∧ s.buf d d = [] :=
  ⟨(netInv_run c as s h).cap d i, (netInv_run c as s h).self d⟩

/-- What a buffer holds was sent by its source to its owner, and has not been read. -/
theorem C38_source (c : NetConfig) (as : List NetAct) (s : Net) (h : Net.run c {} as = some s)
    (d i : Nat) (x : List I32) (hx : x ∈ s.buf d i) :
    x ∈ (sends as i d).drop (reads c {} as d i).length := by
  rw [C37_delivery c as s h i d]
  simp only [List.append_assoc, List.drop_left]
  simp [hx]

/-! ## C39: counters -/

/-- `packets_created`: the number of `add_send_packet` calls, those still in their `timeout` apart. -/
theorem C39_created (c : NetConfig) (as : List NetAct) (s : Net) (h : Net.run c {} as = some s)
    (i : Nat) : (s.stats i).created + s.adding i = sendCalls as i := by
  rw [(netInv_run c as s h).created i, sendCalls_run c as {} s h i]
  simp

/-- `packets_sent`: all packets but those queued, in flight or just being completed; it is the sum of
the two kinds. -/
theorem C39_sent (c : NetConfig) (as : List NetAct) (s : Net) (h : Net.run c {} as = some s) (i : Nat) :
    (s.stats i).sent = (s.stats i).sentInter + (s.stats i).sentIntra ∧
    (s.stats i).sent + (if s.sender i = .idle then 0 else 1)
      + (s.queue i).length = sendCalls as i := by
  refine ⟨((netInv_run c as s h).split i).1, ?_⟩
  have h1 := (netInv_run c as s h).sentCount i
  rw [sendCalls_run c as {} s h i] at h1
  rw [List.length_nil] at h1
  cases hk : s.sender i <;> rw [hk] at h1 <;> simp [Sender.busy, Sender.finishing, Sender.held] at h1 ⊢ <;> omega

/-- So no more is counted as sent than was created, once the `add_send_packet` calls have returned. -/
theorem C39_sent_le (c : NetConfig) (as : List NetAct) (s : Net) (h : Net.run c {} as = some s) (i : Nat) :
    (s.stats i).sent ≤ (s.stats i).created + s.adding i := by
  have h1 := (C39_sent c as s h i).2
  have h2 := C39_created c as s h i
  omega

/-- Every packet counted as received, or just put into a buffer, was read, has just been taken or is
in a buffer. -/
theorem C39_received (c : NetConfig) (as : List NetAct) (s : Net) (h : Net.run c {} as = some s) (d : Nat) :
    (s.stats d).received
      + ((Finset.range c.tiles).filter fun i => justPut d (s.sender i) = true).card
    = (s.stats d).read + justTaken (s.reader d)
      + ∑ i ∈ Finset.range c.tiles, (s.buf d i).length := by
  have h1 := (netInv_run c as s h).received d
  have e1 : ((Finset.range c.tiles).filter fun i => justPut d (s.sender i) = true).card = ∑ i ∈ Finset.range c.tiles, (s.sender i).uncounted d := by
    rw [Finset.card_filter]
    apply Finset.sum_congr rfl
    intro i _
    cases hk : s.sender i <;> simp [Sender.uncounted, justPut]
  have e2 : justTaken (s.reader d) = (s.reader d).uncounted := by
    cases s.reader d <;> rfl
  rw [e1, e2]
  exact h1

/-- In a node at rest `packets_received = packets_read + ` what sits in buffers. -/
theorem C39_received_rest (c : NetConfig) (as : List NetAct) (s : Net) (h : Net.run c {} as = some s)
    (hs : ∀ i, s.sender i = .idle) (hr : ∀ i, s.reader i = .idle) (d : Nat) :
    (s.stats d).received = (s.stats d).read + ∑ i ∈ Finset.range c.tiles, (s.buf d i).length := by
  have h1 := C39_received c as s h d
  simpa [hs, hr, justPut, justTaken] using h1

/-! ## C40: one node only -/

/-- `_get_latency` between tiles of the node. -/
theorem C40_latency (c : NetConfig) (i : Nat) (t : Int) (hi : i < c.tiles) (h0 : 0 ≤ t) (h1 : t < c.tiles) :
    c.latency i t = (c.intraLat, false) := latency_intra c i t hi h0 h1

/-- `_get_latency` between any two tiles: the latency in a node if one node contains both, and also, unlike the
comment in router.py:138 says, whenever the source is tile 0 or the target is tile 1; otherwise the sum of both
latencies, if both are known. -/
theorem C40_latency_any (c : NetConfig) (hc : 0 < c.tiles) (i t : Nat) :
    ((∃ n, n * c.tiles ≤ i ∧ i < (n + 1) * c.tiles ∧ n * c.tiles ≤ t ∧ t < (n + 1) * c.tiles) →
      c.latency i t = (c.intraLat, false)) ∧
    (i = 0 ∨ t = 1 → c.latency i t = (c.intraLat, false)) ∧
    (i ≠ 0 → t ≠ 1 → (∀ n, n * c.tiles ≤ i → i < (n + 1) * c.tiles → ¬(n * c.tiles ≤ t ∧ t < (n + 1) * c.tiles)) →
      (c.latency i t).2 = true ∧
      ∀ a b, c.intraLat = some a → c.interLat = some b → (c.latency i t).1 = some (a + b)) := by
  have hd : ∀ x n : Nat, n * c.tiles ≤ x → x < (n + 1) * c.tiles → x / c.tiles = n := fun x n h1 h2 =>
    Nat.div_eq_of_lt_le h1 h2
  refine ⟨?_, ?_, ?_⟩
  · rintro ⟨n, h1, h2, h3, h4⟩
    unfold NetConfig.latency
    rw [if_pos]
    refine .inr (.inr ?_)
    have := (hd i n h1 h2).trans (hd t n h3 h4).symm
    exact_mod_cast congrArg (fun x : Nat => (x : Int)) this
  · intro h
    unfold NetConfig.latency
    rw [if_pos]
    rcases h with h | h
    · exact .inl h
    · exact .inr (.inl (by exact_mod_cast h))
  · intro h0 h1 hn
    have hne : ¬(i = 0 ∨ (t : Int) = 1 ∨ (i : Int) / c.tiles = (t : Int) / c.tiles) := by
      rintro (h | h | h)
      · exact h0 h
      · exact h1 (by exact_mod_cast h)
      · have h' : i / c.tiles = t / c.tiles := by exact_mod_cast h
        refine hn (i / c.tiles) (Nat.div_mul_le_self _ _) ?_ ⟨?_, ?_⟩
        · rw [Nat.mul_comm]; exact Nat.lt_mul_div_succ _ hc
        · rw [h']; exact Nat.div_mul_le_self _ _
        · rw [h', Nat.mul_comm]; exact Nat.lt_mul_div_succ _ hc
    unfold NetConfig.latency
    rw [if_neg hne]
    refine ⟨rfl, fun a b ha hb => ?_⟩
    rw [ha, hb]
    rfl

example := C40_latency_any ⟨2, 4, some 3, some 10⟩ (by decide) 2 5
example : (⟨2, 4, some 3, some 10⟩ : NetConfig).latency 2 5 = (some 13, true) := by decide

/-- No packet is ever counted as sent to another node. -/
theorem C40_no_internode (c : NetConfig) (as : List NetAct) (s : Net) (h : Net.run c {} as = some s)
    (i : Nat) : (s.stats i).sentInter = 0 := ((netInv_run c as s h).split i).2

/-- A packet for a tile of another node (or for no tile at all) stops the simulation: it is never
delivered. -/
theorem C40_other_node (c : NetConfig) (s s' : Net) (i : Nat) (p : Packet) (hk : s.sender i = .handed p)
    (ht : ¬(0 ≤ p.target ∧ p.target < c.tiles)) (h : s.act c (.thread i) = some s') :
    s'.crashed = some .keyError ∧ s'.buf = s.buf := by
  obtain ⟨-, -, h⟩ := net_act_cases h
  dsimp only at h
  unfold Net.thread at h
  split at h
  · cases h
  rw [hk] at h
  dsimp only at h
  rw [if_pos ht] at h
  injection h with h
  subst h
  exact ⟨rfl, rfl⟩

/-! ## C41: head-of-line blocking -/

/-- A run in which tile `d` takes nothing from the buffer of source `i`. -/
def NoTake (c : NetConfig) (d i : Nat) : Net → List NetAct → Prop
  | _, [] => True
  | s, a :: as => ¬(a = .take d ∧ s.reader d = .waiting i) ∧
      match s.act c a with
      | some s' => NoTake c d i s' as
      | none => True

/-- A packet in front of a full buffer blocks everything queued behind it, for whatever target, until
the receiver reads from that buffer. -/
theorem C41_blocked (c : NetConfig) (as bs : List NetAct) (s s' : Net) (h : Net.run c {} as = some s)
    (h' : s.run c bs = some s') (i : Nat) (p : Packet) (inter : Bool)
    (hk : s.sender i = .putting p inter) (hb : s.buf p.target.toNat i ≠ [])
    (hn : NoTake c p.target.toNat i s bs) :
    s'.sender i = .putting p inter ∧ ∃ more, s'.queue i = s.queue i ++ more := by
  have hinv := netInv_run c as s h
  have hstop := netStop_run c as s h
  clear h
  induction bs generalizing s with
  | nil =>
    simp only [Net.run, Option.some.injEq] at h'
    subst h'
    exact ⟨hk, [], by simp⟩
  | cons a bs ih =>
    simp only [Net.run, Option.bind_eq_some_iff] at h'
    obtain ⟨s1, h1, h2⟩ := h'
    unfold NoTake at hn
    rw [h1] at hn
    obtain ⟨e1, e2, ⟨m, e3⟩⟩ := blocked_act c s s1 a i p inter hinv hstop hk hb hn.1 h1
    obtain ⟨f1, ⟨m', f2⟩⟩ := ih s1 h2 e1 (by rw [e2]; exact hb) hn.2
      (netInv_act c s s1 a hinv h1) (netStop_act c s s1 a hstop h1)
    exact ⟨f1, m ++ m', by rw [f2, e3, List.append_assoc]⟩

/-- The packet at the head makes progress: from any reachable state of a router that is not stopped,
with the head packet `p` for another tile of the node whose buffer for this source is empty, the send
thread alone brings the packet into that buffer. -/
theorem C41_head_progress (c : NetConfig) (as : List NetAct) (s : Net) (h : Net.run c {} as = some s)
    (hc : s.crashed = none) (hns : c.nodes ≠ 0) (i : Nat) (hi : i < c.tiles) (hst : s.stopper i ≠ .stopped)
    (p : Packet) (rest : List Packet) (hk : s.sender i = .idle) (hq : s.queue i = p :: rest)
    (h0 : 0 ≤ p.target) (h1 : p.target < c.tiles) (hne : p.target ≠ (i : Int))
    (lat : Int) (hlat : c.intraLat = some lat) (hlat0 : 0 ≤ lat)
    (hb : s.buf p.target.toNat i = []) :
    ∃ s', s.run c [.thread i, .thread i, .thread i, .thread i] = some s' ∧
      s'.crashed = none ∧ s'.buf p.target.toNat i = [p.data] ∧ s'.queue i = rest := by
  have hinv := netInv_run c as s h
  have hps : p.src = i := (hinv.src i).1 p (by rw [hq]; simp)
  have hl : c.latency p.src p.target = (some lat, false) := by
    rw [← hlat]; exact latency_intra c _ _ (by rw [hps]; exact hi) h0 h1
  have hbuf : c.hasBuffer p.target.toNat p.src = true := by
    unfold NetConfig.hasBuffer
    have hle : c.tiles ≤ c.nodes * c.tiles := Nat.le_mul_of_pos_left _ (Nat.pos_of_ne_zero hns)
    have hle' : (c.tiles : Int) ≤ (c.nodes : Int) * c.tiles := by exact_mod_cast hle
    simp only [Bool.and_eq_true, decide_eq_true_eq]
    refine ⟨⟨by omega, by omega⟩, by omega⟩
  have step : ∀ t : Net, t.crashed = none → t.act c (.thread i) = t.thread c i := by
    intro t ht
    unfold Net.act
    rw [if_neg]
    rw [ht]
    simp [NetAct.tile, hi]
  let s1 : Net := { s with queue := Pipeline.upd s.queue i rest, sender := Pipeline.upd s.sender i (.handed p) }
  let s2 : Net := { s1 with sender := Pipeline.upd s1.sender i (.flying p false) }
  let s3 : Net := { s2 with sender := Pipeline.upd s2.sender i (.putting p false) }
  let s4 : Net := { s3 with
    buf := Pipeline.upd s3.buf p.target.toNat (Pipeline.upd (s3.buf p.target.toNat) p.src (s3.buf p.target.toNat p.src ++ [p.data]))
    sender := Pipeline.upd s3.sender i (.deposited p false) }
  have e1 : s.thread c i = some s1 := by
    unfold Net.thread
    rw [if_neg hst, hk, hq]
  have e2 : s1.thread c i = some s2 := by
    unfold Net.thread
    rw [if_neg (show ¬s1.stopper i = .stopped from hst), show s1.sender i = .handed p from upd_same _ _ _]
    dsimp only
    rw [if_neg (by simpa using ⟨h0, h1⟩), hl]
    exact if_neg (by omega)
  have e3 : s2.thread c i = some s3 := by
    unfold Net.thread
    rw [if_neg (show ¬s2.stopper i = .stopped from hst), show s2.sender i = .flying p false from upd_same _ _ _]
    exact if_pos hbuf
  have e4 : s3.thread c i = some s4 := by
    unfold Net.thread
    rw [if_neg (show ¬s3.stopper i = .stopped from hst), show s3.sender i = .putting p false from upd_same _ _ _]
    refine if_pos ?_
    rw [show s3.buf p.target.toNat p.src = [] by rw [hps]; exact hb]
    decide
  refine ⟨s4, ?_, hc, ?_, upd_same _ _ _⟩
  · simp only [Net.run]
    rw [step s hc, e1, Option.bind_some, step s1 hc, e2, Option.bind_some, step s2 hc, e3,
      Option.bind_some, step s3 hc, e4, Option.bind_some]
  · show Pipeline.upd s3.buf p.target.toNat _ p.target.toNat i = _
    rw [upd_same, ← hps, upd_same, show s3.buf p.target.toNat p.src = [] by rw [hps]; exact hb]
    rfl

/-! ## Stopping a router (used for C45) -/

/-- A router that is stopped has no packet in flight; and no packet is lost: what was queued when
`stop_after_all_packets_sent` was called has been delivered. -/
theorem C45_router_stop (c : NetConfig) (as : List NetAct) (s s' : Net) (h : Net.run c {} as = some s)
    (i : Nat) (hs : s.act c (.stopStep i) = some s') (hst : s'.stopper i = .stopped) :
    s'.queue i = [] ∧ s'.sender i = .idle ∧ (s'.stats i).sent = sendCalls as i := by
  have hok := netStop_run c as s h
  have hok' := netStop_act c s s' _ hok hs
  have hi := hok i
  have hi' := hok' i
  rw [hst] at hi'
  have hrun : Net.run c {} as = some s := h
  have hcnt := (C39_sent c as s h i).2
  obtain ⟨-, -, hs⟩ := net_act_cases hs
  dsimp only at hs
  have key : s'.queue = s.queue ∧ s'.sender = s.sender ∧ s'.stats = s.stats ∧ s.queue i = [] := by
    unfold Net.stopStep at hs
    cases hk : s.stopper i with
    | running => rw [hk] at hs; cases hs
    | stopped => rw [hk] at hs; cases hs
    | checking =>
      rw [hk] at hs
      dsimp only at hs
      split at hs
      · injection hs with hs
        subst hs
        dsimp only at hst
        rw [upd_same] at hst
        cases hst
      · cases hs
    | emptied =>
      rw [hk] at hs hi
      dsimp only at hs
      split at hs
      · cases hs
      split at hs
      · injection hs with hs
        subst hs
        dsimp only at hst
        rw [upd_same] at hst
        cases hst
      · injection hs with hs
        subst hs
        exact ⟨rfl, rfl, rfl, hi⟩
    | waiting k =>
      rw [hk] at hs hi
      dsimp only at hs
      split at hs
      · injection hs with hs
        subst hs
        exact ⟨rfl, rfl, rfl, hi.1⟩
      · cases hs
  obtain ⟨k1, k2, k3, k4⟩ := key
  have hidle : s'.sender i = .idle := hi'
  rw [k1, k3]
  refine ⟨k4, hidle, ?_⟩
  rw [← k2, hidle, k4] at hcnt
  simpa using hcnt

/-! ## Concrete cases -/

/-- One node of three tiles with the default latencies. -/
def demoNet : NetConfig := ⟨1, 3, some 31, some 36⟩

/-- Tile 0 sends two packets to tile 1 and one to tile 2; tile 1 has not read yet. -/
def demoNetActs : List NetAct :=
  [.send 0 1 [1, 2], .added 0, .thread 0, .send 0 1 [3, 4], .added 0, .thread 0, .thread 0, .thread 0,
   .send 0 2 [5], .added 0, .startRead 2 0, .thread 0, .thread 0, .thread 0, .thread 0, .thread 0]

/-- The state after a run that is possible. -/
def netAfter (c : NetConfig) (as : List NetAct) : Net := (Net.run c {} as).getD {}

theorem netAfter_eq {c : NetConfig} {as : List NetAct} (h : (Net.run c {} as).isSome) :
    Net.run c {} as = some (netAfter c as) := by
  obtain ⟨s, hs⟩ := Option.isSome_iff_exists.1 h
  rw [netAfter, hs]
  rfl

theorem demoNet_runs : Net.run demoNet {} demoNetActs = some (netAfter demoNet demoNetActs) :=
  netAfter_eq (by decide +kernel)

/-- The second packet waits in front of the full buffer, the third behind it. -/
example : (netAfter demoNet demoNetActs).sender 0 = .putting ⟨0, 1, [3, 4]⟩ false ∧
    (netAfter demoNet demoNetActs).buf 1 0 = [[1, 2]] ∧
    (netAfter demoNet demoNetActs).queue 0 = [⟨0, 2, [5]⟩] := by decide +kernel

example := C37_delivery demoNet demoNetActs _ demoNet_runs 0 1
example : sends demoNetActs 0 1 = [[1, 2], [3, 4]] := by decide +kernel
example := C38_source demoNet demoNetActs _ demoNet_runs 1 0 [1, 2] (by decide +kernel)
example := C39_sent demoNet demoNetActs _ demoNet_runs 0
example := C39_received demoNet demoNetActs _ demoNet_runs 1

/-- Tile 1 reads both packets, tile 2 its own, and tile 0 stops its router. -/
def demoNetMore : List NetAct :=
  [.halt 0, .startRead 1 0, .take 1, .readDone 1, .thread 0, .thread 0, .thread 0, .startRead 1 0,
   .take 1, .thread 0, .readDone 1, .stopStep 0, .thread 0, .stopStep 0, .thread 0, .thread 0, .take 2,
   .thread 0, .readDone 2, .thread 0]

theorem demoNetMore_runs : Net.run demoNet {} (demoNetActs ++ demoNetMore)
    = some (netAfter demoNet (demoNetActs ++ demoNetMore)) := netAfter_eq (by decide +kernel)

example : reads demoNet {} (demoNetActs ++ demoNetMore) 1 0 = [[1, 2], [3, 4]] := by decide +kernel
example := C37_complete demoNet (demoNetActs ++ demoNetMore) _ demoNetMore_runs 0 1
  (by decide +kernel) (by decide +kernel) (by decide +kernel) (by decide +kernel)
example : (((netAfter demoNet (demoNetActs ++ demoNetMore)).act demoNet (.stopStep 0)).map
    fun s => s.stopper 0) = some .stopped := by decide +kernel

/-- Reading from another source does not unblock tile 0. -/
example := C41_blocked demoNet demoNetActs [.startRead 1 2, .thread 2] (netAfter demoNet demoNetActs)
example : (Net.run demoNet (netAfter demoNet demoNetActs) [.startRead 1 2, .send 2 1 [9], .thread 2,
    .thread 2, .thread 2, .thread 2, .take 1, .readDone 1]).isSome = true := by decide +kernel

/-- The head packet of a tile that has just sent. -/
example := C41_head_progress demoNet [.send 2 1 [7]] _ (netAfter_eq (by decide +kernel)) (by decide +kernel)
  (by decide) 2 (by decide) (by decide +kernel) ⟨2, 1, [7]⟩ [] (by decide +kernel) (by decide +kernel)
  (by decide) (by decide) (by decide) 31 rfl (by decide) (by decide +kernel)

/-- A packet for a tile that the node does not have. -/
example : ((netAfter demoNet [.send 0 3 [7], .thread 0]).act demoNet (.thread 0)).map (fun s => s.crashed)
    = some (some .keyError) := by decide +kernel

/-- The claim that `packets_sent` never exceeds `packets_created` is false: `packets_created` is counted
after the `timeout` of `add_send_packet` (router.py:155-158), and with a network faster than the data
memory the packet is delivered before. -/
theorem C39_lag_witness : ∃ as s, Net.run demoNet {} as = some s ∧ (s.stats 0).created < (s.stats 0).sent :=
  ⟨[.send 0 1 [1], .thread 0, .thread 0, .thread 0, .thread 0, .thread 0, .thread 0], _,
    netAfter_eq (by decide +kernel), by decide +kernel⟩

end Ramwich
