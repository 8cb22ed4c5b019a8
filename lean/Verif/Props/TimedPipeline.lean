import Verif.Lemmas.TimedPipeline
import Verif.Props.Pipeline

/-! # How long the pipeline takes (C59, C60)

`(Timed.init prog t0).run hlt n lat acts = some s`: a pipeline with `n` stages fed with `prog` at time `t0`
gets into state `s` by the actions `acts`. `lat i k`: the time stage `i` needs for the `k`-th operation,
`none` if it is open. Histories of times: `fed`, `takes`, `starts`, `finishes`, `leaves`. -/
namespace Ramwich.Pipeline

variable {α : Type}

/-- C59: with a clock the pipeline does nothing that it cannot do without; C24-C27 apply to `s.st`. -/
theorem C59_refines (hlt : α → Bool) (n : Nat) (lat : Nat → Nat → Option Nat) (prog : List α) (t0 : Nat)
    (acts : List PAct) (s : Timed α) (h : (Timed.init prog t0).run hlt n lat acts = some s) :
    Reach hlt n prog s.st :=
  run_reach acts Reach.init h

/-- C59: when each stage deals with each operation. The `k`-th operation gets into the first buffer when the
first stage takes the one before (the first one at `t0`). A stage takes it when it has arrived and the stage
is rid of the one before, and calls the visitor at once. It is rid of it when the event has fired and, but
for the last stage, the next stage has taken the one before. A stage with a fixed time for the operation
needs exactly that. -/
theorem C59_recurrence (hlt : α → Bool) (n : Nat) (hn : 0 < n) (lat : Nat → Nat → Option Nat) (prog : List α)
    (t0 : Nat) (acts : List PAct) (s : Timed α) (h : (Timed.init prog t0).run hlt n lat acts = some s) :
    (∀ k, k < s.fed.length → s.fed.getD k 0 = before (s.takes 0) k t0) ∧
    ∀ i, i < n →
      (∀ k, k < (s.takes i).length →
        (s.takes i).getD k 0 = max ((s.arrivals i).getD k 0) (before (s.leaves i) k 0)) ∧
      (∀ k, k < (s.starts i).length → (s.starts i).getD k 0 = (s.takes i).getD k 0) ∧
      (∀ k, k < (s.finishes i).length → (s.starts i).getD k 0 ≤ (s.finishes i).getD k 0) ∧
      (∀ k, k < (s.finishes i).length → ∀ l, lat i k = some l →
        (s.finishes i).getD k 0 = (s.starts i).getD k 0 + l) ∧
      (∀ k, k < (s.leaves i).length → (s.leaves i).getD k 0 =
        if i + 1 = n then (s.finishes i).getD k 0
        else max ((s.finishes i).getD k 0) (before (s.takes (i + 1)) k 0)) := by
  have hi := tinv_run hn acts (tinv_init hn) h
  refine ⟨hi.eqFed, fun i hin => ?_⟩
  have o := hi.stage i hin
  refine ⟨o.eqTake, o.eqStart, o.order, o.fixed, fun k hk => ?_⟩
  rw [o.eqLeave k hk]
  by_cases hl : i + 1 = n
  · simp [hl]
  · simp [hl]

/-- C59: all of these histories are complete when `done_event` is triggered: they contain an entry for every
operation up to the first hlt, and the time of `done_event` is the last entry of the last stage. -/
theorem C59_done (hlt : α → Bool) (n : Nat) (hn : 0 < n) (lat : Nat → Nat → Option Nat) (pre post : List α)
    (op : α) (hop : hlt op = true) (hpre : ∀ x ∈ pre, hlt x = false) (t0 : Nat) (acts : List PAct) (s : Timed α)
    (h : (Timed.init (pre ++ op :: post) t0).run hlt n lat acts = some s) (hd : s.st.done = true) :
    (∀ i, i < n → (s.takes i).length = pre.length + 1 ∧ (s.starts i).length = pre.length + 1 ∧
      (s.finishes i).length = pre.length + 1 ∧ (s.leaves i).length = pre.length + 1) ∧
    s.doneAt = some ((s.leaves (n - 1)).getD pre.length 0) := by
  have hi := tinv_run hn acts (tinv_init hn) h
  refine ⟨fun i hin => ?_, ?_⟩
  · have hl := hi.done_len hd rfl hop hpre i hin
    have o := hi.stage i hin
    have hst : s.st.ctl i = .stopped :=
      (hi.inv.comp i hin).1 (hi.inv.mon.2 i (by rw [hi.inv.fin hd]; exact hin))
    have e1 := o.tkLen
    have e2 := o.stLen
    have e3 := o.fiLen
    rw [hst] at e1 e2 e3
    simp only [Ctl.dTake, Ctl.dStart, Ctl.dFinish, Nat.add_zero] at e1 e2 e3
    omega
  · rw [hi.done hd, hi.done_len hd rfl hop hpre (n - 1) (by omega)]
    simp [before]

/-- C59: which of several actions possible at one time comes first makes no difference to any time: if the
times needed by the stages are fixed, two runs agree on all entries of their histories, and on when
`done_event` is triggered. -/
theorem C59_order_irrelevant (hlt : α → Bool) (n : Nat) (hn : 0 < n) (lat : Nat → Nat → Option Nat)
    (hlat : ∀ i, i < n → ∀ k, lat i k ≠ none) (prog : List α) (t0 : Nat) (acts acts' : List PAct)
    (s s' : Timed α) (h : (Timed.init prog t0).run hlt n lat acts = some s)
    (h' : (Timed.init prog t0).run hlt n lat acts' = some s') :
    (∀ i, i < n → ∀ k,
      (k < (s.takes i).length → k < (s'.takes i).length → (s.takes i).getD k 0 = (s'.takes i).getD k 0) ∧
      (k < (s.leaves i).length → k < (s'.leaves i).length → (s.leaves i).getD k 0 = (s'.leaves i).getD k 0)) ∧
    (s.st.done = true → s'.st.done = true → s.doneAt = s'.doneAt ∧ s.doneAt ≠ none) := by
  have hi := tinv_run hn acts (tinv_init hn) h
  have hi' := tinv_run hn acts' (tinv_init hn) h'
  refine ⟨fun i hin k => hi.agree hn hlat hi' k i hin, fun hd hd' => ?_⟩
  obtain ⟨pre, op, post, hp, hop, hpre, -⟩ := C25_stops_at_hlt hlt n hn prog s.st (run_reach acts Reach.init h) hd
  subst hp
  have d1 := C59_done hlt n hn lat pre post op hop hpre t0 acts s h hd
  have d2 := C59_done hlt n hn lat pre post op hop hpre t0 acts' s' h' hd'
  have l1 := (d1.1 (n - 1) (by omega)).2.2.2
  have l2 := (d2.1 (n - 1) (by omega)).2.2.2
  rw [d1.2, d2.2, (hi.agree hn hlat hi' pre.length (n - 1) (by omega)).2 (by omega) (by omega)]
  simp

/-- C59: the clock never runs on idly: as long as completion is not signalled (and the program has a hlt),
time passes only while some stage waits for the event of an operation, and not beyond the time at which
that event fires. -/
theorem C59_no_idle_time (hlt : α → Bool) (n : Nat) (hn : 0 < n) (lat : Nat → Nat → Option Nat) (prog : List α)
    (hp : ∃ op ∈ prog, hlt op = true) (t0 : Nat) (acts : List PAct) (s t : Timed α)
    (h : (Timed.init prog t0).run hlt n lat acts = some s) (hd : s.st.done = false)
    (ht : s.act hlt n lat .tick = some t) :
    ∃ i, i < n ∧ (∃ op, s.st.ctl i = .busy op) ∧ ∀ d, s.deadline i = some d → t.now ≤ d := by
  have hi := tinv_run hn acts (tinv_init hn) h
  simp only [Timed.act] at ht
  split at ht
  · rename_i hq
    cases ht
    rcases C26_not_stuck hlt n hn prog hp s.st (run_reach acts Reach.init h) with h1 | ⟨u, hu⟩
    · rw [hd] at h1; cases h1
    · obtain ⟨i, hin, ⟨op, hc⟩, hne⟩ := quiet_step hq hu
      refine ⟨i, hin, ⟨op, hc⟩, fun d hdl => ?_⟩
      have h1 := ((hi.stage i hin).running op hc).2 d hdl
      have h2 := hne d hdl
      dsimp only
      omega
  · cases ht

/-- C60: the cycles of a core (core.py:127-152; visitor.py:73-92): fetch takes `F` and decode `D` cycles. The
`k`-th operation occupies the execution stage for `finishes - starts` cycles, whatever decides about that.
Up to and including the first hlt, the operation with number `m`, the core is active for at least
`F + D` cycles plus these times. It is active for at most that if every one of these times but the last is
raised to at least `F` and `D`. -/
theorem C60_core_cycles (hlt : α → Bool) (F D : Nat) (lat : Nat → Nat → Option Nat)
    (hF : ∀ k, lat 0 k = some F) (hD : ∀ k, lat 1 k = some D) (pre post : List α) (op : α)
    (hop : hlt op = true) (hpre : ∀ x ∈ pre, hlt x = false) (t0 : Nat) (acts : List PAct) (s : Timed α)
    (h : (Timed.init (pre ++ op :: post) t0).run hlt 3 lat acts = some s) (hd : s.st.done = true) :
    ∃ cycles, s.doneAt = some (t0 + cycles) ∧
      F + D + total (fun k => (s.finishes 2).getD k 0 - (s.starts 2).getD k 0) (pre.length + 1) ≤ cycles ∧
      cycles ≤ F + D +
        total (fun k => max ((s.finishes 2).getD k 0 - (s.starts 2).getD k 0) (max F D)) pre.length +
        ((s.finishes 2).getD pre.length 0 - (s.starts 2).getD pre.length 0) := by
  obtain ⟨hlen, hda⟩ := C59_done hlt 3 (by omega) lat pre post op hop hpre t0 acts s h hd
  obtain ⟨hfed, hst⟩ := C59_recurrence hlt 3 (by omega) lat _ t0 acts s h
  have hi := tinv_run (by omega) acts (tinv_init (by omega)) h
  have hfl : pre.length + 1 ≤ s.fed.length := by
    have := (hi.stage 0 (by omega)).bufLen
    dsimp only [Timed.arrivals] at this
    have := (hlen 0 (by omega)).1
    omega
  obtain ⟨a0, a1, a2, a3⟩ := hlen 0 (by omega)
  obtain ⟨b0, b1, b2, b3⟩ := hlen 1 (by omega)
  obtain ⟨c0, c1, c2, c3⟩ := hlen 2 (by omega)
  obtain ⟨r0, r1, r2, r3, r4⟩ := hst 0 (by omega)
  obtain ⟨q0, q1, q2, q3, q4⟩ := hst 1 (by omega)
  obtain ⟨p0, p1, p2, p3, p4⟩ := hst 2 (by omega)
  simp only [Timed.arrivals, before] at r0 q0 p0 r4 q4 p4 hfed
  have hm : ∀ {l : List Nat} {k : Nat}, l.length = pre.length + 1 → k < pre.length + 1 → k < l.length :=
    fun h1 h2 => by rw [h1]; exact h2
  have z : 0 < pre.length + 1 := Nat.succ_pos _
  have kF0 : (s.leaves 0).getD 0 0 = (s.takes 0).getD 0 0 + F := by
    rw [r4 0 (hm a3 z), if_neg (by decide), if_pos rfl, r3 0 (hm a2 z) F (hF 0), r1 0 (hm a1 z)]
    exact Nat.max_zero _
  have kF : ∀ k, k + 1 < pre.length + 1 → (s.leaves 0).getD (k + 1) 0 =
      max ((s.takes 0).getD (k + 1) 0 + F) ((s.takes 1).getD k 0) := fun k hk => by
    rw [r4 _ (hm a3 hk), if_neg (by decide), if_neg (Nat.succ_ne_zero k), r3 _ (hm a2 hk) F (hF _), r1 _ (hm a1 hk)]
    rfl
  have kD0 : (s.leaves 1).getD 0 0 = (s.takes 1).getD 0 0 + D := by
    rw [q4 0 (hm b3 z), if_neg (by decide), if_pos rfl, q3 0 (hm b2 z) D (hD 0), q1 0 (hm b1 z)]
    exact Nat.max_zero _
  have kD : ∀ k, k + 1 < pre.length + 1 → (s.leaves 1).getD (k + 1) 0 =
      max ((s.takes 1).getD (k + 1) 0 + D) ((s.takes 2).getD k 0) := fun k hk => by
    rw [q4 _ (hm b3 hk), if_neg (by decide), if_neg (Nat.succ_ne_zero k), q3 _ (hm b2 hk) D (hD _), q1 _ (hm b1 hk)]
    rfl
  have kE : ∀ k, k < pre.length + 1 → (s.leaves 2).getD k 0 =
      (s.takes 2).getD k 0 + ((s.finishes 2).getD k 0 - (s.starts 2).getD k 0) := fun k hk => by
    rw [p4 _ (hm c3 hk), if_pos trivial, ← p1 _ (hm c1 hk)]
    exact (Nat.add_sub_cancel' (p2 _ (hm c2 hk))).symm
  have key := three_stages F D t0 (pre.length + 1)
    (fun k => (s.finishes 2).getD k 0 - (s.starts 2).getD k 0) (fun k => s.fed.getD k 0)
    (fun k => (s.takes 0).getD k 0) (fun k => (s.leaves 0).getD k 0)
    (fun k => (s.takes 1).getD k 0) (fun k => (s.leaves 1).getD k 0)
    (fun k => (s.takes 2).getD k 0) (fun k => (s.leaves 2).getD k 0)
    (hfed 0 (Nat.lt_of_lt_of_le z hfl))
    (fun k hk => hfed (k + 1) (Nat.lt_of_lt_of_le hk hfl))
    ((r0 0 (hm a0 z)).trans (Nat.max_zero _))
    (fun k hk => r0 (k + 1) (hm a0 hk)) kF0 kF
    ((q0 0 (hm b0 z)).trans (Nat.max_zero _))
    (fun k hk => q0 (k + 1) (hm b0 hk)) kD0 kD
    ((p0 0 (hm c0 z)).trans (Nat.max_zero _))
    (fun k hk => p0 (k + 1) (hm c0 hk)) kE
    pre.length (Nat.lt_succ_self _)
  have e1 := kE pre.length (Nat.lt_succ_self _)
  refine ⟨(s.leaves 2).getD pre.length 0 - t0, ?_, ?_, ?_⟩
  · rw [hda]
    congr 1
    show (s.leaves 2).getD pre.length 0 = _
    clear * - key e1
    omega
  · simp only [total]
    clear * - key e1
    omega
  · clear * - key e1
    omega

/-- C60: if no operation before the hlt is executed faster than it is fetched and decoded, the fetch and
decode stages only matter for the first operation. -/
theorem C60_core_cycles_exact (hlt : α → Bool) (F D : Nat) (lat : Nat → Nat → Option Nat)
    (hF : ∀ k, lat 0 k = some F) (hD : ∀ k, lat 1 k = some D) (e : Nat → Nat) (he : ∀ k, lat 2 k = some (e k))
    (pre post : List α) (op : α) (hop : hlt op = true) (hpre : ∀ x ∈ pre, hlt x = false)
    (hslow : ∀ k, k < pre.length → F ≤ e k ∧ D ≤ e k) (t0 : Nat) (acts : List PAct) (s : Timed α)
    (h : (Timed.init (pre ++ op :: post) t0).run hlt 3 lat acts = some s) (hd : s.st.done = true) :
    s.doneAt = some (t0 + (F + D + total e (pre.length + 1))) := by
  obtain ⟨c, h1, h2, h3⟩ := C60_core_cycles hlt F D lat hF hD pre post op hop hpre t0 acts s h hd
  obtain ⟨hlen, -⟩ := C59_done hlt 3 (by omega) lat pre post op hop hpre t0 acts s h hd
  obtain ⟨-, hst⟩ := C59_recurrence hlt 3 (by omega) lat _ t0 acts s h
  obtain ⟨p0, p1, p2, p3, p4⟩ := hst 2 (by omega)
  have hfe : ∀ k, k < pre.length + 1 → (s.finishes 2).getD k 0 - (s.starts 2).getD k 0 = e k := by
    intro k hk
    have := p3 k (by rw [(hlen 2 (by omega)).2.2.1]; exact hk) (e k) (he k)
    omega
  rw [total_mono _ e _ hfe] at h2
  rw [total_mono (fun k => max ((s.finishes 2).getD k 0 - (s.starts 2).getD k 0) (max F D)) e pre.length
    (fun k hk => by
      have := hslow k hk
      have := hfe k (by omega)
      omega), hfe pre.length (by omega)] at h3
  have : c = F + D + total e (pre.length + 1) := by
    simp only [total] at h2 ⊢
    omega
  rw [h1, this]

/-! ## Examples -/

/-- Plays a schedule: at each point the first possible action of a list of candidates. -/
def play (hlt : α → Bool) (n : Nat) (lat : Nat → Nat → Option Nat) (order : List PAct) :
    Nat → Timed α → List PAct × Timed α
  | 0, s => ([], s)
  | fuel + 1, s =>
    if s.st.done then ([], s) else
    match (order.filterMap fun a => (s.act hlt n lat a).map fun t => (a, t)).head? with
    | none => ([], s)
    | some (a, t) => let r := play hlt n lat order fuel t; (a :: r.1, r.2)

theorem play_run (hlt : α → Bool) (n : Nat) (lat : Nat → Nat → Option Nat) (order : List PAct) (fuel : Nat)
    (s : Timed α) : s.run hlt n lat (play hlt n lat order fuel s).1 = some (play hlt n lat order fuel s).2 := by
  induction fuel generalizing s with
  | zero => rfl
  | succ fuel ih =>
    unfold play
    split
    · rfl
    · split
      · rfl
      · rename_i a t hh
        have hmem := List.mem_of_head? hh
        obtain ⟨b, -, hb⟩ := List.mem_filterMap.1 hmem
        simp only [Option.map_eq_some_iff, Prod.mk.injEq] at hb
        obtain ⟨u, hu, rfl, rfl⟩ := hb
        simp only [Timed.run, hu, Option.bind_some]
        exact ih u

/-- Fetch 1, decode 2, execution of the four operations as given. -/
def demoLat (e : List Nat) (i k : Nat) : Option Nat :=
  match i with
  | 0 => some 1
  | 1 => some 2
  | _ => some (e.getD k 0)

def forwards : List PAct :=
  [.feedIn, .take 0, .start 0, .finish 0, .putIn 0, .next 0, .take 1, .start 1, .finish 1, .putIn 1, .next 1,
    .take 2, .start 2, .finish 2, .next 2, .monitor, .signal, .tick]

def backwards : List PAct :=
  [.signal, .monitor, .next 2, .finish 2, .start 2, .take 2, .next 1, .putIn 1, .finish 1, .start 1, .take 1,
    .next 0, .putIn 0, .finish 0, .start 0, .take 0, .feedIn, .tick]

/-- Operation 0 is the hlt; what follows it is not executed. -/
def demoRun (e : List Nat) (order : List PAct) : List PAct × Timed Nat :=
  play (fun op => op == 0) 3 (demoLat e) order 200 (Timed.init [7, 8, 9, 0, 5] 100)

theorem demoRun_run (e : List Nat) (order : List PAct) :
    (Timed.init [7, 8, 9, 0, 5] 100).run (fun op => op == 0) 3 (demoLat e) (demoRun e order).1 =
      some (demoRun e order).2 := play_run _ _ _ _ _ _

/-- Two runs with different orders of actions; both signal completion at 113. -/
example : (demoRun [5, 2, 3, 0] forwards).1 ≠ (demoRun [5, 2, 3, 0] backwards).1 ∧
    (demoRun [5, 2, 3, 0] forwards).2.st.done = true ∧ (demoRun [5, 2, 3, 0] backwards).2.st.done = true ∧
    (demoRun [5, 2, 3, 0] forwards).2.doneAt = some 113 := by decide +kernel

example : (demoRun [5, 2, 3, 0] forwards).2.doneAt = (demoRun [5, 2, 3, 0] backwards).2.doneAt :=
  ((C59_order_irrelevant _ 3 (by omega) (demoLat [5, 2, 3, 0])
    (fun i _ k => by unfold demoLat; split <;> simp) _ 100 _ _ _ _
    (demoRun_run _ forwards) (demoRun_run _ backwards)).2 (by decide +kernel) (by decide +kernel)).1

/-- 1 + 2 + (5 + 2 + 3 + 0) cycles. -/
example : (demoRun [5, 2, 3, 0] backwards).2.doneAt = some (100 + (1 + 2 + (5 + 2 + 3 + 0))) :=
  C60_core_cycles_exact (fun op => op == 0) 1 2 (demoLat [5, 2, 3, 0]) (fun _ => rfl) (fun _ => rfl)
    (fun k => ([5, 2, 3, 0] : List Nat).getD k 0) (fun _ => rfl) [7, 8, 9] [5] 0 rfl (by decide)
    (by intro k hk; have : k = 0 ∨ k = 1 ∨ k = 2 := by simp at hk; omega
        rcases this with rfl | rfl | rfl <;> decide) 100 _ _ (demoRun_run _ _) (by decide +kernel)

/-- With faster operations the execution stage has to wait: the lower bound of C60 would be 108, the upper
one 110. -/
example : (demoRun [1, 1, 3, 0] backwards).2.doneAt = some 110 ∧
    (demoRun [1, 1, 3, 0] backwards).2.starts 2 = [103, 105, 107, 110] ∧
    (demoRun [1, 1, 3, 0] backwards).2.finishes 2 = [104, 106, 110, 110] := by decide +kernel

/-- The histories of a complete run. -/
example : (demoRun [5, 2, 3, 0] forwards).2.fed = [100, 100, 101, 102, 103] ∧
    (demoRun [5, 2, 3, 0] forwards).2.takes 0 = [100, 101, 102, 103] ∧
    (demoRun [5, 2, 3, 0] forwards).2.leaves 0 = [101, 102, 103, 105] := by decide +kernel

/-- Time passes while the first operation is being fetched. -/
example : ∃ s t : Timed Nat, (Timed.init [7, 8, 9, 0, 5] 100).run (fun op => op == 0) 3 (demoLat [5, 2, 3, 0])
      [.feedIn, .take 0, .start 0, .feedIn] = some s ∧ s.st.done = false ∧
      s.act (fun op => op == 0) 3 (demoLat [5, 2, 3, 0]) .tick = some t ∧ t.now = 101 ∧
      s.deadline 0 = some 101 := by
  refine ⟨_, _, rfl, rfl, rfl, rfl, rfl⟩

end Ramwich.Pipeline
