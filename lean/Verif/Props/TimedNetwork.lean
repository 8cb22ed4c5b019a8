import Verif.Lemmas.TimedNetAdd

/-! # Times of packets, busy cycles, the end of a router (C70, C71, C72)

The routers of a node with the clock of simpy (`Model/TimedNetwork.lean`). The users of the routers may call them
at any time. `<+:` is "is a prefix of". -/
namespace Ramwich

open Spec

theorem tnet_reach {c : NetConfig} {addLat : Int} {as : List TNetAct} {s : TNet}
    (hrun : TNet.run c addLat {} as = some s) : NetTimes c s.now s.net s.clk := netTimes_run as (netTimes_init c) hrun

/-! ## The run that the examples use: two packets from tile 0 to tile 1, the first one is awaited, the second one not;
tile 0 stops its router at once. -/

def netDemo : NetConfig := ⟨1, 2, some 3, some 5⟩
def netDemoActs : List TNetAct :=
  [.net (.send 0 1 [5]), .net (.send 0 1 [6]), .net (.startRead 1 0), .net (.thread 0), .net (.thread 0), .monitor,
   .net (.halt 0), .recheck 0, .tick, .net (.added 0), .net (.added 0), .monitor, .recheck 0, .tick, .monitor, .recheck 0,
   .tick, .net (.thread 0), .net (.thread 0), .net (.take 1), .net (.thread 0), .net (.thread 0), .net (.readDone 1),
   .net (.thread 0), .net (.thread 0), .monitor, .net (.stopStep 0), .net (.stopStep 0), .tick, .monitor, .tick, .monitor,
   .tick, .net (.thread 0), .net (.thread 0), .net (.thread 0), .net (.thread 0), .net (.stopStep 0), .monitor, .tick,
   .net (.startRead 1 0), .net (.take 1), .net (.readDone 1), .monitor]
def netDemoEnd : TNet := (TNet.run netDemo 1 {} netDemoActs).getD {}
theorem netDemo_runs : TNet.run netDemo 1 {} netDemoActs = some netDemoEnd := by
  have h : (TNet.run netDemo 1 {} netDemoActs).isSome = true := by decide +kernel
  obtain ⟨s, hs⟩ := Option.isSome_iff_exists.1 h
  unfold netDemoEnd
  rw [hs]
  rfl

/-! ## C70: times of packets -/

/-- C70: a run of the routers with the clock is a run of the routers without (so C38-C41 hold for it). -/
theorem C70_refines (c : NetConfig) (addLat : Int) (as : List TNetAct) (s : TNet)
    (hrun : TNet.run c addLat {} as = some s) : ∃ bs, Net.run c {} bs = some s.net := by
  have key : ∀ (as : List TNetAct) (s s' : TNet), s.run c addLat as = some s' → ∃ bs, s.net.run c bs = some s'.net := by
    intro as
    induction as with
    | nil => intro s s' h; injection h with h; subst h; exact ⟨[], rfl⟩
    | cons a as ih =>
      intro s s' h
      simp only [TNet.run, Option.bind_eq_some_iff] at h
      obtain ⟨s₁, h1, h2⟩ := h
      obtain ⟨bs, hb⟩ := ih s₁ s' h2
      unfold TNet.act at h1
      split at h1
      · cases h1
      split at h1
      · rename_i b
        split at h1
        swap
        · cases h1
        rename_i n k hn hk
        injection h1 with h1
        subst h1
        exact ⟨b :: bs, by simp only [Net.run, hn, Option.bind_some]; exact hb⟩
      · split at h1
        swap
        · cases h1
        rw [Option.map_eq_some_iff] at h1
        obtain ⟨k, hk, rfl⟩ := h1
        exact ⟨bs, hb⟩
      · rw [Option.map_eq_some_iff] at h1
        obtain ⟨k, hk, rfl⟩ := h1
        exact ⟨bs, hb⟩
      · split at h1
        swap
        · cases h1
        injection h1 with h1
        subst h1
        exact ⟨bs, hb⟩
  exact key as {} s hrun

example := C70_refines netDemo 1 netDemoActs netDemoEnd netDemo_runs
example : netDemoEnd.net.readLog 1 0 = [[5], [6]] := by decide +kernel

/-- C70: the times of the packets of tile `i`, in the order in which it has sent them. The send thread takes a
packet as soon as it is in the queue and the thread is through with the packet before; it arrives
`noc_intra_lat` cycles later; the thread is through with it as soon as the buffer of the target has accepted it. The
buffer has accepted it as soon as it has arrived and the packet before from the same tile was read; a packet is read
as soon as it is in the buffer and somebody has asked for it. -/
theorem C70_times (c : NetConfig) (addLat : Int) (as : List TNetAct) (s : TNet)
    (hrun : TNet.run c addLat {} as = some s) (i : Nat) :
    (s.clk.queued i).length = (s.net.sent i).length ∧
    s.clk.taken i <+: List.zipWith max (s.clk.queued i) (0 :: s.clk.done i) ∧
    s.clk.arrived i <+: (s.clk.taken i).map (· + c.lat) ∧
    s.clk.done i <+: s.clk.put i ∧
    ∀ d : Nat,
      timesTo d (s.net.sent i) (s.clk.put i) <+:
        List.zipWith max (timesTo d (s.net.sent i) (s.clk.arrived i)) (0 :: s.clk.read d i) ∧
      s.clk.read d i <+: List.zipWith max (timesTo d (s.net.sent i) (s.clk.put i)) (s.clk.asked d i) := by
  have h := tnet_reach hrun
  exact ⟨(h.router i).lenQ, (h.router i).taken, (h.router i).arrived, (h.router i).done,
    fun d => ⟨(h.stream d i).put, (h.stream d i).read⟩⟩

example := C70_times netDemo 1 netDemoActs netDemoEnd netDemo_runs 0
example : (netDemoEnd.clk.queued 0, netDemoEnd.clk.taken 0, netDemoEnd.clk.arrived 0, netDemoEnd.clk.put 0,
    netDemoEnd.clk.done 0) = ([0, 0], [0, 3], [3, 6], [3, 6], [3, 6]) := by decide +kernel
example : (netDemoEnd.clk.asked 1 0, netDemoEnd.clk.read 1 0) = ([0, 7], [3, 7]) := by decide +kernel

/-- C70: no event is late. When time passes, every packet that can be taken, that has arrived, that fits into the
buffer, or that somebody has asked for has been taken, has been put into the buffer, has been read. -/
theorem C70_punctual (c : NetConfig) (addLat : Int) (as : List TNetAct) (s s' : TNet)
    (hrun : TNet.run c addLat {} as = some s) (ht : s.act c addLat .tick = some s') (i : Nat) :
    (s.net.stopper i ≠ .stopped → (s.clk.taken i).length = min (s.clk.queued i).length ((s.clk.done i).length + 1)) ∧
    (∀ m t : Nat, (s.clk.taken i)[m]? = some t → t + c.lat ≤ s.now → m < (s.clk.arrived i).length) ∧
    (s.clk.done i).length = (s.clk.put i).length ∧
    ∀ d : Nat,
      (timesTo d (s.net.sent i) (s.clk.put i)).length =
        min (timesTo d (s.net.sent i) (s.clk.arrived i)).length ((s.clk.read d i).length + 1) ∧
      (s.clk.read d i).length = min (timesTo d (s.net.sent i) (s.clk.put i)).length (s.clk.asked d i).length := by
  have h := tnet_reach hrun
  have q : NetQuiet c s.now s.net s.clk := by
    unfold TNet.act at ht
    split at ht
    · cases ht
    rename_i hc
    dsimp only at ht
    split at ht
    · rename_i hq; exact netQuiet_of h (by simpa using hc) hq
    · cases ht
  have hr := h.router i
  have hl := hr.lenT; have hq := hr.lenQ; have hx := queue_index hr; have hA := hr.lenA; have hP := hr.lenP
  simp only [rvOf] at hl hq hx hA hP
  refine ⟨?_, ?_, ?_, ?_⟩
  · intro hns
    cases hs : s.net.sender i with
    | idle =>
      rw [hs] at hl
      rcases q.idle i hs with e | e
      · rw [e] at hx
        simp only [Sender.nTaken, List.length_nil] at hl hx
        omega
      · exact absurd e hns
    | _ => rw [hs] at hl; simp only [Sender.nTaken] at hl; omega
  · intro m t h1 h2
    have hm := (List.getElem?_eq_some_iff.1 h1).1
    cases hs : s.net.sender i with
    | idle => rw [hs] at hl hA; simp only [Sender.nTaken, Sender.nArrived] at hl hA; omega
    | handed p => exact absurd hs (q.handed i p)
    | flying p b =>
      by_cases hml : m + 1 < (s.clk.taken i).length
      · rw [hs] at hl hA; simp only [Sender.nTaken, Sender.nArrived] at hl hA; omega
      · exfalso
        obtain ⟨t', e1, e2, e3⟩ := hr.flying p b hs
        have hne := q.flying i p b hs
        simp only [rvOf] at e1 e2 e3
        rw [List.getLast?_eq_getElem?, show (s.clk.taken i).length - 1 = m by omega, h1] at e1
        injection e1 with e1
        omega
    | _ => rw [hs] at hl hA; simp only [Sender.nTaken, Sender.nArrived] at hl hA; omega
  · have := q.put i
    omega
  · intro d
    have hs := h.stream d i
    have h1 := hs.lenA; have h2 := hs.lenP; have h3 := hs.lenQ; have h4 := hs.cap
    have h5 := q.waits d i; have h6 := q.asks d i
    generalize hw : (svOf s.net s.clk d i).waits = w at h1 h5
    generalize ha : (svOf s.net s.clk d i).asks = a at h3 h6
    by_cases hw' : w <;> by_cases ha' : a <;> simp only [hw', ha', if_true, if_false, true_imp_iff] at h1 h3 h5 h6 <;>
      simp only [svOf] at h1 h2 h3 h4 h5 h6 <;> omega

/-- The run up to the third tick. -/
def netDemoHead : TNet := (TNet.run netDemo 1 {} (netDemoActs.take 16)).getD {}
theorem netDemoHead_runs : TNet.run netDemo 1 {} (netDemoActs.take 16) = some netDemoHead := by
  have h : (TNet.run netDemo 1 {} (netDemoActs.take 16)).isSome = true := by decide +kernel
  obtain ⟨s, hs⟩ := Option.isSome_iff_exists.1 h
  unfold netDemoHead
  rw [hs]
  rfl
theorem netDemoHead_ticks : ∃ s', netDemoHead.act netDemo 1 .tick = some s' :=
  Option.isSome_iff_exists.1 (by decide +kernel)
example := C70_punctual netDemo 1 _ netDemoHead _ netDemoHead_runs netDemoHead_ticks.choose_spec 0
example : (netDemoHead.now, netDemoHead.clk.taken 0, netDemoHead.clk.queued 0) = (2, [0], [0, 0]) := by decide +kernel

/-- C70: `add_send_packet` returns `dataMem_lat` cycles after the packet was put into the queue: never earlier, and when
time passes no call is overdue. -/
theorem C70_add (c : NetConfig) (addLat : Int) (as : List TNetAct) (s : TNet)
    (hrun : TNet.run c addLat {} as = some s) (i : Nat) :
    s.clk.returned i <+: (s.clk.queued i).map (· + addLat.toNat) ∧
    (s.net.stats i).created = (s.clk.returned i).length ∧
    ∀ s', s.act c addLat .tick = some s' →
      ∀ m q : Nat, (s.clk.queued i)[m]? = some q → q + addLat.toNat ≤ s.now → m < (s.clk.returned i).length := by
  have h := tnet_reach hrun
  have ha := addInv_run as (netTimes_init c) (addInv_init addLat) hrun
  refine ⟨⟨_, (ha i).split.symm⟩, ?_, ?_⟩
  · have h1 := h.inv.created i
    have h2 := congrArg List.length (ha i).split
    have h3 := (h.router i).lenQ
    have h4 := (ha i).len
    simp only [rvOf, List.length_map, List.length_append] at h2 h3
    omega
  · intro s' ht m q h1 h2
    unfold TNet.act at ht
    split at ht
    · cases ht
    rename_i hc
    dsimp only at ht
    split at ht
    swap
    · cases ht
    rename_i hq
    have hnq := netQuiet_of h (by simpa using hc) hq
    by_contra hlt
    have hsp := (ha i).split
    have h3 : ((s.clk.queued i).map (· + addLat.toNat))[m]? = some (q + addLat.toNat) := by
      rw [List.getElem?_map, h1]; rfl
    rw [hsp, List.getElem?_append_right (by omega)] at h3
    have hmem := List.mem_of_getElem? h3
    have hlt' := addInv_tick (ha i) (adds_head h hnq (ha i)) _ hmem
    omega

example := C70_add netDemo 1 netDemoActs netDemoEnd netDemo_runs 0
example : (netDemoEnd.clk.returned 0, (netDemoEnd.net.stats 0).created) = ([1, 1], 2) := by decide +kernel

/-- C70: a router delivers at most one packet every `noc_intra_lat` cycles, whatever the targets are. -/
theorem C70_spacing (c : NetConfig) (addLat : Int) (as : List TNetAct) (s : TNet)
    (hrun : TNet.run c addLat {} as = some s) (i m a b : Nat) (ha : (s.clk.done i)[m]? = some a)
    (hb : (s.clk.done i)[m + 1]? = some b) : a + c.lat ≤ b := by
  have h := (tnet_reach hrun).router i
  have hb' : (s.clk.put i)[m + 1]? = some b := by
    obtain ⟨r, e⟩ := h.done
    simp only [rvOf] at e
    rw [← e, List.getElem?_append_left (List.getElem?_eq_some_iff.1 hb).1]
    exact hb
  have hlen : m + 1 < (s.clk.done i).length := (List.getElem?_eq_some_iff.1 hb).1
  have hA := h.lenA; have hT := h.lenT
  simp only [rvOf] at hA hT
  have ha1 : m + 1 < (s.clk.arrived i).length := by omega
  have ht1 : m + 1 < (s.clk.taken i).length := by omega
  have e1 := h.apart (m + 1) _ b (List.getElem?_eq_getElem ha1) hb'
  have e2 : (s.clk.arrived i)[m + 1] = (s.clk.taken i)[m + 1] + c.lat := by
    have := h.arrived.getElem (i := m + 1) ha1
    simpa [rvOf] using this
  have e3 : a ≤ (s.clk.taken i)[m + 1] := by
    have h4 := h.taken.getElem (i := m + 1) ht1
    have h5 : (s.clk.done i)[m]'(by omega) = a := (List.getElem?_eq_some_iff.1 ha).2
    simp only [rvOf, List.getElem_zipWith, List.getElem_cons_succ] at h4
    rw [h5] at h4
    omega
  omega

example : (netDemoEnd.clk.done 0)[0]? = some 3 ∧ (netDemoEnd.clk.done 0)[1]? = some 6 := by decide +kernel
example := C70_spacing netDemo 1 netDemoActs netDemoEnd netDemo_runs 0 0 3 6 (by decide +kernel) (by decide +kernel)

/-- C70: if tile `i` puts its first `n` packets into an idle router at time `q` and no buffer is full when they
arrive, the `m`-th of them is delivered at time `q + (m + 1) * noc_intra_lat`. -/
theorem C70_batch (c : NetConfig) (addLat : Int) (as : List TNetAct) (s : TNet)
    (hrun : TNet.run c addLat {} as = some s) (i n q : Nat) (hq : ∀ m, m < n → (s.clk.queued i)[m]? = some q)
    (hp : ∀ m, m < n → (s.clk.put i)[m]? = (s.clk.arrived i)[m]?) (m x : Nat) (hm : m < n)
    (hx : (s.clk.done i)[m]? = some x) : x = q + (m + 1) * c.lat := by
  have h := (tnet_reach hrun).router i
  have hA := h.lenA; have hT := h.lenT
  simp only [rvOf] at hA hT
  induction m generalizing x with
  | zero =>
    have hl := (List.getElem?_eq_some_iff.1 hx).1
    have hx' : (s.clk.put i)[0]? = some x := by
      obtain ⟨r, e⟩ := h.done
      simp only [rvOf] at e
      rw [← e, List.getElem?_append_left hl]
      exact hx
    rw [hp 0 hm] at hx'
    have ha1 : 0 < (s.clk.arrived i).length := by omega
    have ht1 : 0 < (s.clk.taken i).length := by omega
    have e2 : (s.clk.arrived i)[0] = (s.clk.taken i)[0] + c.lat := by
      have := h.arrived.getElem (i := 0) ha1
      simpa [rvOf] using this
    have e3 := h.taken.getElem (i := 0) ht1
    have e4 : (s.clk.arrived i)[0] = x := (List.getElem?_eq_some_iff.1 hx').2
    have e5 := (List.getElem?_eq_some_iff.1 (hq 0 hm)).2
    simp only [rvOf, List.getElem_zipWith, List.getElem_cons_zero] at e3
    rw [e5] at e3
    omega
  | succ m ih =>
    have hl := (List.getElem?_eq_some_iff.1 hx).1
    have hx' : (s.clk.put i)[m + 1]? = some x := by
      obtain ⟨r, e⟩ := h.done
      simp only [rvOf] at e
      rw [← e, List.getElem?_append_left hl]
      exact hx
    rw [hp (m + 1) hm] at hx'
    have ha1 : m + 1 < (s.clk.arrived i).length := by omega
    have ht1 : m + 1 < (s.clk.taken i).length := by omega
    have e2 : (s.clk.arrived i)[m + 1] = (s.clk.taken i)[m + 1] + c.lat := by
      have := h.arrived.getElem (i := m + 1) ha1
      simpa [rvOf] using this
    have e3 := h.taken.getElem (i := m + 1) ht1
    have e4 : (s.clk.arrived i)[m + 1] = x := (List.getElem?_eq_some_iff.1 hx').2
    have e5 := (List.getElem?_eq_some_iff.1 (hq (m + 1) hm)).2
    have e6 := ih ((s.clk.done i)[m]'(by omega)) (by omega) (List.getElem?_eq_getElem _)
    simp only [rvOf, List.getElem_zipWith, List.getElem_cons_succ] at e3
    rw [e5, e6] at e3
    have e7 : (m + 1 + 1) * c.lat = (m + 1) * c.lat + c.lat := by ring
    omega

example : (6 : Nat) = 0 + (1 + 1) * netDemo.lat :=
  C70_batch netDemo 1 netDemoActs netDemoEnd netDemo_runs 0 2 0 (by decide +kernel) (by decide +kernel) 1 6 (by decide)
    (by decide +kernel)

/-! ## C71: `queue_busy_cycles` -/

/-- C71: the monitor looks once per cycle; `queue_busy_cycles` is the number of cycles in which it has seen a packet. -/
theorem C71_counts (c : NetConfig) (addLat : Int) (as : List TNetAct) (s : TNet)
    (hrun : TNet.run c addLat {} as = some s) :
    (s.clk.looks.length = s.now ∨ s.clk.looks.length = s.now + 1) ∧ s.clk.busy = s.clk.looks.count true ∧
      s.clk.busy ≤ s.now + 1 := by
  have h := (tnet_reach hrun).mon
  have h1 := h.len; have h2 := h.look; have h3 := h.busy
  have : s.clk.looks.count true ≤ s.clk.looks.length := List.count_le_length
  exact ⟨by omega, h3, by omega⟩

example := C71_counts netDemo 1 netDemoActs netDemoEnd netDemo_runs
example : (netDemoEnd.clk.looks, netDemoEnd.clk.busy, netDemoEnd.now)
    = ([true, true, true, false, false, false, false, false], 3, 7) := by decide +kernel

/-- C71: a cycle is counted only if, in this cycle, a packet of a running router is in a send queue: it was put in no
later and was taken no earlier. -/
theorem C71_busy (c : NetConfig) (addLat : Int) (as : List TNetAct) (s : TNet)
    (hrun : TNet.run c addLat {} as = some s) (x : Nat) (hx : s.clk.looks[x]? = some true) :
    ∃ i, i < c.tiles ∧ ∃ m q : Nat, (s.clk.queued i)[m]? = some q ∧ q ≤ x ∧
      (∀ t, (s.clk.taken i)[m]? = some t → x ≤ t) ∧ ∀ t, s.clk.stopAt i = some t → x ≤ t :=
  (tnet_reach hrun).mon.seen x hx

example := C71_busy netDemo 1 netDemoActs netDemoEnd netDemo_runs 1 (by decide +kernel)

/-- C71: a cycle is counted if a packet of a running router has been in a send queue since before this cycle and
stays there until after it. -/
theorem C71_idle (c : NetConfig) (addLat : Int) (as : List TNetAct) (s : TNet)
    (hrun : TNet.run c addLat {} as = some s) (x : Nat) (hlen : x < s.clk.looks.length) (i m q : Nat) (hi : i < c.tiles)
    (hq : (s.clk.queued i)[m]? = some q) (hqx : q < x) (ht : ∀ t, (s.clk.taken i)[m]? = some t → x < t)
    (hs : ∀ t, s.clk.stopAt i = some t → x < t) : s.clk.looks[x]? = some true := by
  cases hb : s.clk.looks[x] with
  | true => rw [List.getElem?_eq_getElem hlen, hb]
  | false =>
    obtain ⟨t, e1, e2⟩ := (tnet_reach hrun).mon.unseen x (by rw [List.getElem?_eq_getElem hlen, hb]) i hi m q hq hqx ht
    have := hs t e1
    omega

example := C71_idle netDemo 1 netDemoActs netDemoEnd netDemo_runs 2 (by decide +kernel) 0 1 0 (by decide)
  (by decide +kernel) (by decide) (by decide +kernel) (by decide +kernel)

/-- C71: packets under way are not counted: if every packet is taken in the cycle in which it is put into the queue,
`queue_busy_cycles` is at most the number of packets, however long the latency is. -/
theorem C71_not_in_flight (c : NetConfig) (addLat : Int) (as : List TNetAct) (s : TNet)
    (hrun : TNet.run c addLat {} as = some s) (hnow : ∀ i, i < c.tiles → s.clk.taken i = s.clk.queued i) :
    s.clk.busy ≤ ∑ i ∈ Finset.range c.tiles, (s.net.sent i).length := by
  have h := tnet_reach hrun
  rw [h.mon.busy]
  have hsub : ((Finset.range s.clk.looks.length).filter fun x => s.clk.looks[x]? = some true) ⊆
      (Finset.range c.tiles).biUnion fun i => (s.clk.queued i).toFinset := by
    intro x hx
    rw [Finset.mem_filter] at hx
    obtain ⟨i, hi, m, q, h1, h2, h3, -⟩ := h.mon.seen x hx.2
    rw [Finset.mem_biUnion]
    refine ⟨i, Finset.mem_range.2 hi, ?_⟩
    have := h3 q (by rw [hnow i hi]; exact h1)
    rw [show x = q by omega]
    exact List.mem_toFinset.2 (List.mem_of_getElem? h1)
  have hcount : ∀ l : List Bool, ((Finset.range l.length).filter fun x => l[x]? = some true).card = l.count true := by
    intro l
    induction l using List.reverseRecOn with
    | nil => rfl
    | append_singleton l b ih =>
      rw [List.length_append, List.length_singleton, Finset.range_add_one, Finset.filter_insert, List.count_append, ← ih]
      have e : ((Finset.range l.length).filter fun x => (l ++ [b])[x]? = some true)
          = (Finset.range l.length).filter fun x => l[x]? = some true := by
        apply Finset.filter_congr
        intro x hx
        rw [List.getElem?_append_left (Finset.mem_range.1 hx)]
      rw [e]
      cases b <;> simp
  rw [← hcount]
  refine le_trans (Finset.card_le_card hsub) (le_trans Finset.card_biUnion_le ?_)
  refine Finset.sum_le_sum fun i _ => ?_
  have hl := (h.router i).lenQ
  simp only [rvOf] at hl
  rw [← hl]
  exact List.toFinset_card_le _

/-- One packet with a latency of 50 cycles. -/
def loneActs : List TNetAct :=
  [.net (.send 0 1 [5]), .monitor, .net (.thread 0), .net (.thread 0), .tick] ++
  ((List.range 9).map fun _ => [.monitor, .tick]).flatten ++ [.monitor, .net (.added 0), .tick]
def loneEnd : TNet := (TNet.run ⟨1, 2, some 50, some 5⟩ 10 {} loneActs).getD {}
theorem lone_runs : TNet.run ⟨1, 2, some 50, some 5⟩ 10 {} loneActs = some loneEnd := by
  have h : (TNet.run ⟨1, 2, some 50, some 5⟩ 10 {} loneActs).isSome = true := by decide +kernel
  obtain ⟨s, hs⟩ := Option.isSome_iff_exists.1 h
  unfold loneEnd
  rw [hs]
  rfl
example := C71_not_in_flight _ _ _ _ lone_runs (by decide +kernel)
example : (loneEnd.now, loneEnd.clk.busy, loneEnd.net.sent 0) = (11, 1, [⟨0, 1, [5]⟩]) := by decide +kernel

/-! ## C72: the end of a router -/

/-- C72: `stop_after_all_packets_sent` stops the router in the very cycle in which its last packet was delivered, or in
which it was called if that is later (one cycle later at most if packets have no latency). -/
theorem C72_stop_time (c : NetConfig) (addLat : Int) (as : List TNetAct) (s : TNet)
    (hrun : TNet.run c addLat {} as = some s) (i : Nat) (hs : s.net.stopper i = .stopped) :
    ∃ h t, s.clk.haltAt i = some h ∧ s.clk.stopAt i = some t ∧
      (0 < c.lat → t = max h ((s.clk.done i).getLast?.getD 0)) ∧
      max h ((s.clk.done i).getLast?.getD 0) ≤ t ∧ t ≤ max h ((s.clk.done i).getLast?.getD 0) + 1 := by
  obtain ⟨h, t, e1, e2, e3, e4, -⟩ := ((tnet_reach hrun).halt i).stopped hs
  simp only [rvOf] at e3 e4
  refine ⟨h, t, e1, e2, ?_, e3, ?_⟩
  · intro hl
    rw [if_neg (by omega)] at e4
    omega
  · split at e4 <;> omega

example := C72_stop_time netDemo 1 netDemoActs netDemoEnd netDemo_runs 0 (by decide +kernel)
example : (netDemoEnd.clk.haltAt 0, netDemoEnd.clk.stopAt 0) = (some 0, some 6) := by decide +kernel

/-- C72: and it does not forget to: when time passes and all packets of the router are delivered, the router is stopped
(if packets have a latency). -/
theorem C72_stops (c : NetConfig) (addLat : Int) (as : List TNetAct) (s s' : TNet)
    (hrun : TNet.run c addLat {} as = some s) (ht : s.act c addLat .tick = some s') (hlat : 0 < c.lat) (i : Nat)
    (hh : s.clk.haltAt i ≠ none) (hd : (s.clk.done i).length = (s.net.sent i).length) : s.net.stopper i = .stopped := by
  have h := tnet_reach hrun
  have q : NetQuiet c s.now s.net s.clk := by
    unfold TNet.act at ht
    split at ht
    · cases ht
    rename_i hc
    dsimp only at ht
    split at ht
    · rename_i hq; exact netQuiet_of h (by simpa using hc) hq
    · cases ht
  have hr := h.router i
  have hrest := hr.rest
  simp only [rvOf] at hrest
  rw [hd, List.drop_length, eq_comm, List.append_eq_nil_iff] at hrest
  have hidle : s.net.sender i = .idle := by
    cases hs : s.net.sender i <;> rw [hs] at hrest <;> simp [Sender.packet] at hrest ⊢
  cases hs : s.net.stopper i with
  | running => exact absurd ((h.halt i).run hs) hh
  | checking =>
    rcases (h.halt i).check hs with ⟨h1, -⟩ | ⟨-, h1 | ⟨-, h1 | ⟨h1, -⟩⟩⟩
    · exact absurd h1 (q.check i hs)
    · exact absurd hrest.2 h1
    · exact absurd hidle h1
    · omega
  | emptied => exact absurd hs (q.emptied i)
  | waiting m =>
    have := q.waiting i m hs
    rw [hidle] at this
    cases this
  | stopped => rfl

/-- The run up to the tick at time 6. -/
def netDemoLate : TNet := (TNet.run netDemo 1 {} (netDemoActs.take 39)).getD {}
theorem netDemoLate_runs : TNet.run netDemo 1 {} (netDemoActs.take 39) = some netDemoLate := by
  have h : (TNet.run netDemo 1 {} (netDemoActs.take 39)).isSome = true := by decide +kernel
  obtain ⟨s, hs⟩ := Option.isSome_iff_exists.1 h
  unfold netDemoLate
  rw [hs]
  rfl
theorem netDemoLate_ticks : ∃ s', netDemoLate.act netDemo 1 .tick = some s' :=
  Option.isSome_iff_exists.1 (by decide +kernel)
example := C72_stops netDemo 1 _ netDemoLate _ netDemoLate_runs netDemoLate_ticks.choose_spec (by decide +kernel) 0
  (by decide +kernel) (by decide +kernel)

end Ramwich
