import Verif.Lemmas.WholeMerge
import Verif.Lemmas.WholeLength
import Verif.Props.ClockedTime

/-! # C96: all nodes in one environment -/
namespace Ramwich

open Pipeline (upd)
open Spec

section
variable (nodes : Nat) (cfg : Nat → SysCfg) (l : StageLat) (i : Nat → SysInit) (h0 : ∀ a < nodes, (i a).ok)
include h0

section
variable (es : List WAct) (w : Whole) (hrun : (Whole.start i).run nodes cfg l es = some w)
include hrun

omit hrun in
theorem good_all : ∀ a < nodes, ∀ t, GoodStart ((i a).mem t) ((i a).valid t) := fun a ha => (h0 a ha).good

theorem whole_inv : WInv nodes cfg l i w fun a => 0 + (es.filter (WAct.of a)).length :=
  winv_run (good_all nodes i h0) es winv_start hrun

/-- C96: in a simulation of several nodes every node is, at every moment, in a state that it can reach when it is
simulated alone up to the same time; only the monitor of its network stops when the node has returned. Nodes do not
influence each other. -/
theorem C96_alone (a : Nat) (ha : a < nodes) :
    ∃ as f, (i a).fstart.run (cfg a) l as = some f ∧ f.ts.now = w.now ∧ sameButMonitor (w.node a) f ∧
      (w.left a = none → w.node a = f) := by
  have h := (whole_inv nodes cfg l i h0 es w hrun).node a ha
  cases hl : w.left a with
  | none =>
    obtain ⟨⟨as, -, h1⟩, -⟩ := h.waits hl
    exact ⟨as, w.node a, h1, h.clock, watch_seen _, fun _ => rfl⟩
  | some T =>
    obtain ⟨as, g, bs, y, -, h1, -, -, -, h5, h6⟩ := h.gone T hl
    refine ⟨as ++ bs, y, frun_append_some h1 h5, by rw [← h.clock, h6]; rfl, ?_, nofun⟩
    rw [sameButMonitor_iff, h6, seen_watch]

/-- C96: when `Node.run` has returned: it has returned at the greatest `active_cycles` of the tiles of the node, and
`queue_busy_cycles` of its network is what it was then. -/
theorem C96_left (a : Nat) (ha : a < nodes) (T : Nat) (hT : w.left a = some T) :
    T ≤ w.now ∧ (∀ t < (cfg a).net.tiles, ∃ c ≤ T, (w.node a).active t = some c) ∧
    (T = 0 ∨ ∃ t < (cfg a).net.tiles, (w.node a).active t = some T) ∧
    ∃ as g, (i a).fstart.run (cfg a) l as = some g ∧ g.ts.now = T ∧ allReturned (cfg a) g ∧
      (w.node a).clk.busy = g.clk.busy ∧ (w.node a).clk.looks = g.clk.looks := by
  have h := (whole_inv nodes cfg l i h0 es w hrun).node a ha
  obtain ⟨as, g, bs, y, -, h1, h2, h3, h4, h5, h6⟩ := h.gone T hT
  have hI := clocked_reach (h0 a ha) h1
  have hact : ∀ t < (cfg a).net.tiles, ∀ c, g.active t = some c → (w.node a).active t = some c := by
    intro t ht c hc
    rw [h6, watch_active]
    exact active_keeps (good_all nodes i h0 a ha) hI h5 ht hc
  have hd : ∀ t < (cfg a).net.tiles, (g.active t).isSome = true := by
    intro t ht
    unfold FSys.tilesDone at h2
    rw [List.all_eq_true] at h2
    exact h2 t (List.mem_range.2 ht)
  have hn : y.ts.now = w.now := by rw [← h.clock, h6]; rfl
  refine ⟨by rw [← h3, ← hn]; exact frun_now h5, fun t ht => ?_, ?_, as, g, h1, h3, fun t ht e => ?_, ?_, ?_⟩
  · obtain ⟨c, hc⟩ := Option.isSome_iff_exists.1 (hd t ht)
    exact ⟨c, by rw [← h3]; exact start_active_le h1 t c hc, hact t ht c hc⟩
  · rcases h4 with h4 | ⟨t, ht, h4⟩
    · exact .inl h4
    · exact .inr ⟨t, ht, hact t ht T h4⟩
  · have := hd t ht
    rw [e] at this
    cases this
  · rw [h6]; rfl
  · rw [h6]; rfl

/-- C96: when all nodes have returned, the simulation ends: the time that `RAMwich.run` reports (ramwich.py:205) is the
greatest `active_cycles` of all tiles of all nodes. -/
theorem C96_end_time (ho : w.over nodes = true) :
    (∀ a < nodes, ∀ t < (cfg a).net.tiles, ∃ c ≤ w.now, (w.node a).active t = some c) ∧
    (w.now = 0 ∨ ∃ a < nodes, ∃ t < (cfg a).net.tiles, (w.node a).active t = some w.now) := by
  have hl : ∀ a < nodes, ∃ T, w.left a = some T := by
    intro a ha
    unfold Whole.over at ho
    rw [List.all_eq_true] at ho
    exact Option.isSome_iff_exists.1 (ho a (List.mem_range.2 ha))
  refine ⟨fun a ha t ht => ?_, ?_⟩
  · obtain ⟨T, hT⟩ := hl a ha
    obtain ⟨h1, h2, -⟩ := C96_left nodes cfg l i h0 es w hrun a ha T hT
    obtain ⟨c, hc, h3⟩ := h2 t ht
    exact ⟨c, hc.trans h1, h3⟩
  · rcases (whole_inv nodes cfg l i h0 es w hrun).last with h | ⟨a, ha, h⟩
    · exact .inl h
    · obtain ⟨T, hT⟩ := hl a ha
      rcases h with h | h
      · rw [hT] at h; cases h
      · obtain ⟨-, -, h3, -⟩ := C96_left nodes cfg l i h0 es w hrun a ha _ h
        exact h3.imp_right fun ⟨t, ht, e⟩ => ⟨a, ha, t, ht, e⟩

/-- C96: until the simulation is over, or a process has raised, there is always another event: `env.run` never stops
without having finished. -/
theorem C96_always_events (hr : w.raised nodes = false) (ho : w.over nodes = false) :
    ∃ e w', w.act nodes cfg l e = some w' :=
  w_progress (good_all nodes i h0) (whole_inv nodes cfg l i h0 es w hrun) hr ho

/-- C96: in a bounded time only a bounded number of events is possible: time passes. -/
theorem C96_time_passes :
    es.length ≤ (∑ a ∈ Finset.range nodes, ((cfg a).net.tiles + 2) * (clockedWork (cfg a) (i a) + 2 + w.now)) + nodes + w.now :=
  wrun_length h0 hrun

/-- C96: if a process raises, then one that raises when its node is simulated alone. -/
theorem C96_raised (hr : w.raised nodes = true) :
    ∃ a < nodes, ∃ as f, (i a).fstart.run (cfg a) l as = some f ∧ f.ts.now = w.now ∧ f.ts.sys.crashed.isSome = true := by
  unfold Whole.raised at hr
  rw [List.any_eq_true] at hr
  obtain ⟨a, ha, hc⟩ := hr
  rw [List.mem_range] at ha
  obtain ⟨as, f, h1, h2, h3, -⟩ := C96_alone nodes cfg l i h0 es w hrun a ha
  refine ⟨a, ha, as, f, h1, h2, ?_⟩
  rw [h3] at hc
  exact hc

omit h0 hrun in
theorem left_later {a : Nat} (es' : List WAct) : ∀ {w w' : Whole}, w.run nodes cfg l es' = some w' → w.left a = none →
    ∀ T, w'.left a = some T → w.now ≤ T := by
  induction es' with
  | nil => intro w w' h hn T hT; cases h; rw [hn] at hT; cases hT
  | cons e es' ih =>
    intro w w' h hn T hT
    simp only [Whole.run, Option.bind_eq_some_iff] at h
    obtain ⟨v, h1, h2⟩ := h
    have hstay : ∀ (es : List WAct) {v v' : Whole} {T' : Nat}, v.run nodes cfg l es = some v' → v.left a = some T' → v'.left a = some T' := by
      intro es
      induction es with
      | nil => intro v v' T' h hl; cases h; exact hl
      | cons e es ih =>
        intro v v' T' h hl
        simp only [Whole.run, Option.bind_eq_some_iff] at h
        obtain ⟨u, h1, h2⟩ := h
        refine ih h2 ?_
        unfold Whole.act at h1
        split at h1
        · cases h1
        cases e with
        | node b x =>
          dsimp only at h1
          split at h1
          · split at h1
            · cases h1
            · split at h1
              · cases h1
              · rw [Option.map_eq_some_iff] at h1; obtain ⟨_, -, rfl⟩ := h1; exact hl
            · rw [Option.map_eq_some_iff] at h1; obtain ⟨_, -, rfl⟩ := h1; exact hl
          · cases h1
        | leave b =>
          dsimp only at h1
          split at h1
          · rename_i hh
            injection h1 with h1
            subst h1
            show upd v.left b (some v.now) a = _
            rw [Pipeline.upd_ne _ _ _ _ (fun e => by rw [e, hh.2.1] at hl; cases hl)]
            exact hl
          · cases h1
        | tick =>
          dsimp only at h1
          split at h1
          · injection h1 with h1; subst h1; exact hl
          · cases h1
    unfold Whole.act at h1
    split at h1
    · cases h1
    cases e with
    | node b x =>
      dsimp only at h1
      split at h1
      · split at h1
        · cases h1
        · split at h1
          · cases h1
          · rw [Option.map_eq_some_iff] at h1; obtain ⟨_, -, rfl⟩ := h1; exact ih h2 hn T hT
        · rw [Option.map_eq_some_iff] at h1; obtain ⟨_, -, rfl⟩ := h1; exact ih h2 hn T hT
      · cases h1
    | leave b =>
      dsimp only at h1
      split at h1
      · injection h1 with h1
        subst h1
        by_cases e : a = b
        · subst e
          have := hstay es' h2 (Pipeline.upd_same _ _ _)
          rw [hT] at this
          injection this with this
          omega
        · exact ih h2 (by show upd w.left b (some w.now) a = none; rw [Pipeline.upd_ne _ _ _ _ e]; exact hn) T hT
      · cases h1
    | tick =>
      dsimp only at h1
      split at h1
      · injection h1 with h1
        subst h1
        have := ih h2 hn T hT
        dsimp only at this
        omega
      · cases h1

/-- C96, a watchdog: if the simulation is not over when the clock has passed, for every node, the sum of the times of the
operations of the node, then it will never be over. -/
theorem C96_watchdog (hlate : ∀ a < nodes, programCycles (cfg a) l (i a) < w.now) (ho : w.over nodes = false) :
    ∀ es' w', w.run nodes cfg l es' = some w' → w'.over nodes = false := by
  intro es' w' h'
  unfold Whole.over at ho
  rw [List.all_eq_false] at ho
  obtain ⟨a, ha, hl⟩ := ho
  rw [List.mem_range] at ha
  have hl : w.left a = none := by simpa using hl
  cases hl' : w'.left a with
  | none =>
    unfold Whole.over
    rw [List.all_eq_false]
    exact ⟨a, List.mem_range.2 ha, by rw [hl']; simp⟩
  | some T =>
    exfalso
    have h1 := left_later nodes cfg l es' h' hl T hl'
    have hlt := hlate a ha
    obtain ⟨-, -, h2, -⟩ := C96_left nodes cfg l i h0 _ w' (wrun_append_some hrun h') a ha T hl'
    rcases h2 with h2 | ⟨t, -, h2⟩
    · omega
    · obtain ⟨as, f, k1, -, k3, -⟩ := C96_alone nodes cfg l i h0 _ w' (wrun_append_some hrun h') a ha
      rw [k3] at h2
      have := C82_active_cycles (cfg a) l (i a) (h0 a ha) as f k1 t T h2
      omega

end

/-- C96: conversely, simulations of single nodes up to the same time can be put together to a simulation of all nodes, as
long as one of the nodes had not returned before: the simulation of several nodes is the product of the simulations of the
nodes. -/
theorem C96_together (T : Nat) (as : Nat → List FAct) (f : Nat → FSys)
    (hf : ∀ a < nodes, (i a).fstart.run (cfg a) l (as a) = some (f a) ∧ (f a).ts.now = T ∧ (f a).ts.sys.crashed = none)
    (hl : T = 0 ∨ ∃ a < nodes, ∃ t < (cfg a).net.tiles, (f a).active t = none ∨ (f a).active t = some T) :
    ∃ es w, (Whole.start i).run nodes cfg l es = some w ∧ w.now = T ∧
      ∀ a < nodes, sameButMonitor (w.node a) (f a) ∧ (w.left a = none → w.node a = f a) := by
  obtain ⟨es, w, h1, h2, h3⟩ := merge (good_all nodes i h0) T as f hf hl
  refine ⟨es, w, h1, h3, fun a ha => ?_⟩
  rcases h2 a ha with ⟨e1, e2⟩ | ⟨T', e1, e2, -⟩
  · rw [e2]; exact ⟨watch_seen _, fun _ => rfl⟩
  · exact ⟨e2, fun e => by rw [e1] at e; cases e⟩

/-- C96: if the simulation of one node alone raises at a time that the others can reach, too, the whole simulation raises
then. -/
theorem C96_one_raises (T : Nat) (as : Nat → List FAct) (f : Nat → FSys)
    (hf : ∀ a < nodes, (i a).fstart.run (cfg a) l (as a) = some (f a) ∧ (f a).ts.now = T ∧ (f a).ts.sys.crashed = none)
    (a : Nat) (ha : a < nodes) (x : FAct) (f' : FSys) (hx : (f a).act (cfg a) l x = some f')
    (hc : f'.ts.sys.crashed.isSome = true)
    (hl : T = 0 ∨ ∃ a < nodes, ∃ t < (cfg a).net.tiles, (f a).active t = none ∨ (f a).active t = some T) :
    ∃ es w, (Whole.start i).run nodes cfg l es = some w ∧ w.now = T ∧ w.raised nodes = true := by
  obtain ⟨es, w, h1, h2, h3⟩ := merge (good_all nodes i h0) T as f hf hl
  have hne : x ≠ .t .tick := by
    rintro rfl
    rw [((tick_iff (hf a ha).2.2 _).1 hx).2.2] at hc
    have : (f a).ts.sys.crashed.isSome = true := hc
    rw [(hf a ha).2.2] at this
    cases this
  obtain ⟨es', w', k1, k2, -, -, k5⟩ := fits_act (l := l) (i := i) ha
    (raised_of fun b hb => by rw [(h2 b hb).ts]; exact (hf b hb).2.2) (h2 a ha) (good_all nodes i h0 a ha)
    (clocked_reach (h0 a ha) (hf a ha).1) hne hx
  refine ⟨es ++ es', w', wrun_append_some h1 k1, k5.trans h3, ?_⟩
  unfold Whole.raised
  rw [List.any_eq_true]
  exact ⟨a, List.mem_range.2 ha, by rw [k2.ts]; exact hc⟩

/-- C96: a simulator whose nodes, each simulated alone, never raise and have returned when the clock has passed the sum of
the times of their operations, simulates them together: no process raises, the clock never passes the greatest of these
sums, only a bounded number of events is possible, and whatever has happened so far, the simulation can go on until it is
over: `RAMwich.run` returns. -/
theorem C96_returns (hno : ∀ a < nodes, ∀ as f, (i a).fstart.run (cfg a) l as = some f → f.ts.sys.crashed = none)
    (hend : ∀ a < nodes, ∀ as f, (i a).fstart.run (cfg a) l as = some f → programCycles (cfg a) l (i a) < f.ts.now →
      allReturned (cfg a) f)
    (T : Nat) (hT : ∀ a < nodes, programCycles (cfg a) l (i a) ≤ T)
    (es : List WAct) (w : Whole) (hrun : (Whole.start i).run nodes cfg l es = some w) :
    w.raised nodes = false ∧ w.now ≤ T ∧
    es.length ≤ (∑ a ∈ Finset.range nodes, ((cfg a).net.tiles + 2) * (clockedWork (cfg a) (i a) + 2 + T)) + nodes + T ∧
    ∃ es' w', w.run nodes cfg l es' = some w' ∧ w'.over nodes = true ∧ w'.raised nodes = false := by
  have key : ∀ (es : List WAct) (w : Whole), (Whole.start i).run nodes cfg l es = some w → w.raised nodes = false ∧ w.now ≤ T ∧
      es.length ≤ (∑ a ∈ Finset.range nodes, ((cfg a).net.tiles + 2) * (clockedWork (cfg a) (i a) + 2 + T)) + nodes + T := by
    intro es w hrun
    have hr : w.raised nodes = false := by
      refine Bool.eq_false_iff.2 fun hr => ?_
      obtain ⟨a, ha, as, f, h1, -, h3⟩ := C96_raised nodes cfg l i h0 es w hrun hr
      rw [hno a ha as f h1] at h3
      cases h3
    have ht : w.now ≤ T := by
      have hI := whole_inv nodes cfg l i h0 es w hrun
      have hact : ∀ a < nodes, ∀ t, (w.node a).active t = some w.now → w.now ≤ T := by
        intro a ha t h
        obtain ⟨as, f, h1, -, h3, -⟩ := C96_alone nodes cfg l i h0 es w hrun a ha
        rw [h3] at h
        exact (C82_active_cycles (cfg a) l (i a) (h0 a ha) as f h1 t _ h).trans (hT a ha)
      rcases hI.last with h | ⟨a, ha, h | h⟩
      · omega
      · obtain ⟨⟨as, -, h1⟩, h2⟩ := (hI.node a ha).waits h
        rcases h2 with h2 | ⟨t, ht, h2 | h2⟩
        · omega
        · by_contra hlt
          exact hend a ha as _ h1 (by rw [(hI.node a ha).clock]; have := hT a ha; omega) t ht h2
        · exact hact a ha t h2
      · obtain ⟨-, -, h3 | ⟨t, -, h3⟩, -⟩ := C96_left nodes cfg l i h0 es w hrun a ha _ h
        · omega
        · exact hact a ha t h3
    refine ⟨hr, ht, (C96_time_passes nodes cfg l i h0 es w hrun).trans ?_⟩
    have : ∑ a ∈ Finset.range nodes, ((cfg a).net.tiles + 2) * (clockedWork (cfg a) (i a) + 2 + w.now)
        ≤ ∑ a ∈ Finset.range nodes, ((cfg a).net.tiles + 2) * (clockedWork (cfg a) (i a) + 2 + T) :=
      Finset.sum_le_sum fun a _ => Nat.mul_le_mul_left _ (by omega)
    omega
  obtain ⟨h1, h2, h3⟩ := key es w hrun
  refine ⟨h1, h2, h3, ?_⟩
  have go : ∀ (n : Nat) (es : List WAct) (w : Whole), (Whole.start i).run nodes cfg l es = some w →
      (∑ a ∈ Finset.range nodes, ((cfg a).net.tiles + 2) * (clockedWork (cfg a) (i a) + 2 + T)) + nodes + T < es.length + n →
      ∃ es' w', w.run nodes cfg l es' = some w' ∧ w'.over nodes = true ∧ w'.raised nodes = false := by
    intro n
    induction n with
    | zero => intro es w h hn; have := (key es w h).2.2; omega
    | succ n ih =>
      intro es w h hn
      have hr := (key es w h).1
      by_cases ho : w.over nodes = true
      · exact ⟨[], w, rfl, ho, hr⟩
      · obtain ⟨e, v, hv⟩ := C96_always_events nodes cfg l i h0 es w h hr (Bool.eq_false_iff.2 ho)
        have h1 : w.run nodes cfg l [e] = some v := by simp [Whole.run, hv]
        obtain ⟨es', w', k1, k2⟩ := ih (es ++ [e]) v (wrun_append_some h h1) (by simp; omega)
        exact ⟨e :: es', w', by simp [Whole.run, hv, k1], k2⟩
  exact go ((∑ a ∈ Finset.range nodes, ((cfg a).net.tiles + 2) * (clockedWork (cfg a) (i a) + 2 + T)) + nodes + T + 1) es w hrun
    (by omega)

end

/-! ## Cases -/

/-- Runs up to `n` events, always the first possible one of a list, until `stop`. -/
def Whole.auto (nodes : Nat) (cfg : Nat → SysCfg) (l : StageLat) (stop : Whole → Bool) (order : List WAct) :
    Nat → Whole → List WAct × Whole
  | 0, w => ([], w)
  | n + 1, w =>
    if stop w then ([], w)
    else
      match order.findSome? fun a => (w.act nodes cfg l a).map fun w' => (a, w') with
      | none => ([], w)
      | some (a, w') => let r := Whole.auto nodes cfg l stop order n w'; (a :: r.1, r.2)

/-- What the scheduler does is a run. -/
theorem wauto_runs (nodes : Nat) (cfg : Nat → SysCfg) (l : StageLat) (stop : Whole → Bool) (order : List WAct) :
    ∀ (n : Nat) (w : Whole),
    w.run nodes cfg l (Whole.auto nodes cfg l stop order n w).1 = some (Whole.auto nodes cfg l stop order n w).2 := by
  intro n
  induction n with
  | zero => intro w; rfl
  | succ n ih =>
    intro w
    unfold Whole.auto
    by_cases hs : stop w = true
    · simp only [hs, ↓reduceIte]; rfl
    · simp only [hs]
      cases ho : order.findSome? fun a => (w.act nodes cfg l a).map fun w' => (a, w') with
      | none => rfl
      | some p =>
        obtain ⟨x, w'⟩ := p
        obtain ⟨y, -, h1⟩ := List.exists_of_findSome?_eq_some ho
        rw [Option.map_eq_some_iff] at h1
        obtain ⟨w'', h2, h3⟩ := h1
        injection h3 with h3 h4
        subst h3 h4
        show (w.act nodes cfg l y).bind _ = _
        rw [h2]
        exact ih w''

/-- All programs consist of one operation. -/
def haltInit : SysInit := { demoInit with prog := fun _ _ => [.hlt], ops := fun _ => [.halt] }

/-- Two nodes: a program and a program of one operation. -/
def besideInit (i : SysInit) : Nat → SysInit
  | 0 => i
  | _ => haltInit

theorem besideInit_ok {i : SysInit} (h : i.ok) : ∀ a < 2, (besideInit i a).ok := by
  intro a _
  match a with
  | 0 => exact h
  | _ + 1 => exact fun _ => ⟨rfl, rfl⟩

/-- The order in which the events of two nodes are tried. -/
def besideOrder : List WAct :=
  twoClocked.dropLast.map (.node 0) ++ twoClocked.dropLast.map (.node 1) ++ [.leave 0, .leave 1, .tick]

/-- The program of C42 on node 0, until both nodes have returned. -/
def besideRun : List WAct × Whole :=
  Whole.auto 2 (fun _ => quickSys) demoStages (Whole.over 2) besideOrder 800 (Whole.start (besideInit demoInit))

/-- The deadlock of C61 on node 0, until the clock has passed the sums of the times of the operations. -/
def besideStuck : List WAct × Whole :=
  Whole.auto 2 (fun _ => quickSys) demoStages (fun w => decide (36 < w.now)) besideOrder 800 (Whole.start (besideInit stuckInit))

theorem besideRun_runs : (Whole.start (besideInit demoInit)).run 2 (fun _ => quickSys) demoStages besideRun.1 = some besideRun.2 :=
  wauto_runs _ _ _ _ _ _ _
theorem besideStuck_runs :
    (Whole.start (besideInit stuckInit)).run 2 (fun _ => quickSys) demoStages besideStuck.1 = some besideStuck.2 :=
  wauto_runs _ _ _ _ _ _ _

/-- Node 1 returns at 3, node 0 at 34; the monitor of node 1 has looked four times only. -/
theorem besideRun_does : besideRun.2.over 2 = true ∧ besideRun.2.raised 2 = false ∧ besideRun.2.now = 34 ∧
    besideRun.2.left 0 = some 34 ∧ besideRun.2.left 1 = some 3 ∧ (besideRun.2.node 0).clk.looks.length = 35 ∧
    (besideRun.2.node 1).clk.looks.length = 4 ∧ besideRun.1.length = 318 := by decide +kernel

example := C96_alone 2 _ _ _ (besideInit_ok demoInit_ok) besideRun.1 besideRun.2 besideRun_runs 1 (by decide)
example := C96_left 2 _ _ _ (besideInit_ok demoInit_ok) besideRun.1 besideRun.2 besideRun_runs 1 (by decide) 3 besideRun_does.2.2.2.2.1
example := C96_end_time 2 _ _ _ (besideInit_ok demoInit_ok) besideRun.1 besideRun.2 besideRun_runs besideRun_does.1
example := C96_time_passes 2 _ _ _ (besideInit_ok demoInit_ok) besideRun.1 besideRun.2 besideRun_runs

theorem besideStuck_does : besideStuck.2.over 2 = false ∧ besideStuck.2.raised 2 = false ∧ besideStuck.2.now = 37 ∧
    besideStuck.2.left 1 = some 3 ∧ programCycles quickSys demoStages stuckInit = 36 ∧
    programCycles quickSys demoStages haltInit = 8 := by decide +kernel

example := C96_always_events 2 _ _ _ (besideInit_ok stuckInit_ok) besideStuck.1 besideStuck.2 besideStuck_runs besideStuck_does.2.1
  besideStuck_does.1
example := C96_watchdog 2 _ _ _ (besideInit_ok stuckInit_ok) besideStuck.1 besideStuck.2 besideStuck_runs
  (by
    have h := besideStuck_does
    intro a ha
    rw [h.2.2.1]
    match a, ha with
    | 0, _ => exact h.2.2.2.2.1.trans_lt (by decide)
    | 1, _ => exact h.2.2.2.2.2.trans_lt (by decide)) besideStuck_does.1

/-- Both nodes alone, up to 34. -/
def besideAlone (a : Nat) : List FAct × FSys :=
  if a = 0 then clockedRun else FSys.auto quickSys demoStages (fun f => decide (34 ≤ f.ts.now)) twoClocked 200 haltInit.fstart

theorem besideAlone_runs : ∀ a < 2, (besideInit demoInit a).fstart.run quickSys demoStages (besideAlone a).1 = some (besideAlone a).2 ∧
    (besideAlone a).2.ts.now = 34 ∧ (besideAlone a).2.ts.sys.crashed = none := by
  intro a ha
  match a, ha with
  | 0, _ => exact ⟨clockedRun_runs, by decide +kernel, by decide +kernel⟩
  | 1, _ => exact ⟨fauto_runs _ _ _ _ _ _, by decide +kernel, by decide +kernel⟩

example := C96_together 2 (fun _ => quickSys) demoStages _ (besideInit_ok demoInit_ok) 34 (fun a => (besideAlone a).1)
  (fun a => (besideAlone a).2) besideAlone_runs (.inr ⟨0, by decide, 1, by decide, .inr (by decide +kernel)⟩)

/-- An operation of node 0 has no latency: its core raises. -/
def besideBadCfg (a : Nat) : SysCfg := if a = 0 then noTimeSys else quickSys

def besideBad (a : Nat) : List FAct × FSys :=
  FSys.auto (besideBadCfg a) demoStages
    (fun f => if a = 0 then ((f.act noTimeSys demoStages (.t (.exec 0 0))).any fun g => g.ts.sys.crashed.isSome)
      else decide (2 ≤ f.ts.now)) twoClocked 200 (besideInit demoInit a).fstart

theorem besideBad_runs : ∀ a < 2,
    (besideInit demoInit a).fstart.run (besideBadCfg a) demoStages (besideBad a).1 = some (besideBad a).2 ∧
    (besideBad a).2.ts.now = 2 ∧ (besideBad a).2.ts.sys.crashed = none := by
  intro a ha
  refine ⟨fauto_runs _ _ _ _ _ _, ?_⟩
  match a, ha with
  | 0, _ => decide +kernel
  | 1, _ => decide +kernel

example := C96_one_raises 2 besideBadCfg demoStages _ (besideInit_ok demoInit_ok) 2 (fun a => (besideBad a).1)
  (fun a => (besideBad a).2) besideBad_runs 0 (by decide) (.t (.exec 0 0))
  (((besideBad 0).2.act noTimeSys demoStages (.t (.exec 0 0))).get (by decide +kernel)) (Option.some_get _).symm
  (by decide +kernel) (.inr ⟨0, by decide, 0, by decide, .inl (by decide +kernel)⟩)

/-- In this simulation it raises, too. -/
def besideRaises : List WAct × Whole :=
  Whole.auto 2 besideBadCfg demoStages (Whole.raised 2) besideOrder 800 (Whole.start (besideInit demoInit))

example := C96_raised 2 besideBadCfg demoStages _ (besideInit_ok demoInit_ok) besideRaises.1 besideRaises.2
  (wauto_runs _ _ _ _ _ _ _) (by decide +kernel)

/-- Any number of nodes with the program of C42 and the latencies of `slowSys`: every simulation of them returns, at time 90
at the latest. -/
example (nodes : Nat) := C96_returns nodes (fun _ => slowSys) ⟨3, 2⟩ (fun _ => demoInit) (fun _ _ => demoInit_ok)
  (fun _ _ as f hf => (C81_one_simulation_is_enough quickSys slowSys ⟨rfl, rfl, rfl, rfl⟩ demoStages ⟨3, 2⟩ demoInit demoInit_ok
    demoInit_oneReader slow_latenciesOk clockedRun.1 as clockedRun.2 f clockedRun_runs clockedRun_finished clockedRun_rest
    clockedRun_single hf).1)
  (fun _ _ as f hf hlate => (C82_done_in_time quickSys slowSys ⟨rfl, rfl, rfl, rfl⟩ demoStages ⟨3, 2⟩ demoInit demoInit_ok
    demoInit_oneReader slow_latenciesOk clockedRun.1 as clockedRun.2 f clockedRun_runs clockedRun_finished clockedRun_rest
    clockedRun_single hf hlate).2.2) 90 (fun _ _ => by decide +kernel)

end Ramwich
