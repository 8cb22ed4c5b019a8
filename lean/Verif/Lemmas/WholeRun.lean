import Verif.Spec.WholeRun
import Verif.Lemmas.ClockedBound
import Verif.Lemmas.ClockedTime
import Verif.Lemmas.ClockedProgress

/-! # Nodes of a simulator: what the monitor does not change -/
namespace Ramwich

open Pipeline (upd)
open Spec

/-- The part of the clocks that belongs to `_monitor_queues`. -/
structure Seen where
  look : Nat
  busy : Nat
  looks : List Bool

def NetClock.watch (k : NetClock) (m : Seen) : NetClock := { k with look := m.look, busy := m.busy, looks := m.looks }
def NetClock.seen (k : NetClock) : Seen := ⟨k.look, k.busy, k.looks⟩
def FSys.watch (f : FSys) (m : Seen) : FSys := { f with clk := f.clk.watch m }

variable {cfg : SysCfg} {l : StageLat} {f : FSys} {m : Seen}

theorem sameButMonitor_iff (g f : FSys) : sameButMonitor g f ↔ g = f.watch g.clk.seen := Iff.rfl

theorem watch_seen (f : FSys) : f.watch f.clk.seen = f := rfl
theorem seen_watch (f : FSys) (m : Seen) : (f.watch m).clk.seen = m := rfl
theorem watch_watch (f : FSys) (m m' : Seen) : (f.watch m).watch m' = f.watch m' := rfl
theorem watch_ts (f : FSys) (m : Seen) : (f.watch m).ts = f.ts := rfl
theorem watch_active (f : FSys) (m : Seen) : (f.watch m).active = f.active := rfl

theorem step_watch (c : NetConfig) (al : Int) (n : Net) (now : Nat) (k : NetClock) (m : Seen) (a : NetAct) :
    (k.watch m).step c al n now a = (k.step c al n now a).map (·.watch m) := by
  cases a with
  | added i =>
    simp only [NetClock.step, show (k.watch m).adds = k.adds from rfl]
    cases k.adds i with
    | nil => rfl
    | cons d r => by_cases h : d = now <;> simp only [h, ↓reduceIte] <;> rfl
  | thread i =>
    simp only [NetClock.step, show (k.watch m).flight = k.flight from rfl]
    cases n.sender i with
    | flying p => by_cases h : k.flight i = now <;> simp only [h, ↓reduceIte] <;> rfl
    | _ => rfl
  | take i => simp only [NetClock.step]; cases n.reader i <;> rfl
  | stopStep i =>
    simp only [NetClock.step, show (k.watch m).check = k.check from rfl]
    cases n.stopper i with
    | checking => by_cases h : k.check i = now <;> simp only [h, ↓reduceIte] <;> rfl
    | emptied => by_cases h : (n.sender i).busy = true <;> simp only [h, ↓reduceIte] <;> rfl
    | _ => rfl
  | _ => rfl

theorem netPart_watch (b : SysAct) : (f.watch m).netPart cfg b = (f.netPart cfg b).map (·.watch m) := by
  unfold FSys.netPart
  rw [watch_ts]
  split
  · rfl
  · exact step_watch ..

theorem mark_watch (t : Nat) (x y : TileSt) : (f.watch m).mark t x y = (f.mark t x y).watch m := by
  unfold FSys.mark
  split <;> rfl

theorem other_watch (b : SysAct) : (f.watch m).other cfg l b = (f.other cfg l b).map (·.watch m) := by
  unfold FSys.other
  rw [netPart_watch, watch_ts]
  cases f.ts.act cfg l (.other b) with
  | none => rfl
  | some ts =>
    cases f.netPart cfg b with
    | none => rfl
    | some k =>
      simp only [Option.map_some]
      split
      · rfl
      · cases b <;> first | rfl | exact congrArg some (mark_watch (f := { f with ts := ts, clk := k }) ..)

theorem recheck_watch (n : Net) (now : Nat) (k : NetClock) (m : Seen) (i : Nat) :
    (k.watch m).recheck n now i = (k.recheck n now i).map (·.watch m) := by
  unfold NetClock.recheck
  split
  · simp only [show (k.watch m).check = k.check from rfl]
    by_cases h : k.check i = now ∧ n.queue i ≠ []
    · simp only [if_pos h]; rfl
    · simp only [if_neg h]; rfl
  · rfl

/-- Everything but the monitor and the passing of time does the same whatever the monitor has seen. -/
theorem act_watch {a : FAct} (h1 : a ≠ .monitor) (h2 : a ≠ .t .tick) :
    (f.watch m).act cfg l a = (f.act cfg l a).map (·.watch m) := by
  unfold FSys.act
  rw [watch_ts]
  by_cases hc : f.ts.sys.crashed.isSome = true
  · rw [if_pos hc, if_pos hc]; rfl
  · rw [if_neg hc, if_neg hc]
    cases a with
    | monitor => exact absurd rfl h1
    | recheck i =>
      dsimp only
      split
      · show Option.map _ ((f.clk.watch m).recheck _ _ _) = _
        rw [recheck_watch]
        cases f.clk.recheck f.ts.sys.net f.ts.now i <;> rfl
      · rfl
    | t x =>
      cases x with
      | tick => exact absurd rfl h2
      | other b => exact other_watch b
      | _ => dsimp only; cases f.ts.act cfg l _ <;> rfl

theorem routerQuiet_watch (c : NetConfig) (al : Int) (n : Net) (now : Nat) (k : NetClock) (m : Seen) (i : Nat) :
    (k.watch m).routerQuiet c al n now i = k.routerQuiet c al n now i := by
  have h : ∀ a, (k.watch m).ready c al n now a = k.ready c al n now a := by
    intro a
    unfold NetClock.ready
    rw [step_watch, Option.isSome_map]
  unfold NetClock.routerQuiet
  simp only [h, recheck_watch, Option.isNone_map]

theorem still_watch : (f.watch m).still cfg l = f.still cfg l := by
  unfold FSys.still
  simp only [watch_ts, other_watch, Option.isNone_map]
  congr 2
  exact List.all_congr rfl fun _ => routerQuiet_watch ..

theorem tilesDone_watch : (f.watch m).tilesDone cfg = f.tilesDone cfg := rfl
theorem pass_watch : (f.watch m).pass cfg = (f.pass cfg).watch m := rfl

/-- The passing of time in a node. -/
theorem tick_iff (hc : f.ts.sys.crashed = none) (f' : FSys) : f.act cfg l (.t .tick) = some f' ↔
    f.still cfg l = true ∧ f.clk.monitor cfg.net f.ts.sys.net f.ts.now = none ∧ f' = f.pass cfg := by
  have e : ∀ b : Bool, b = true ∨ b = false := by decide
  have e1 : f.act cfg l (.t .tick) = if f.quiet cfg l then (f.ts.tick cfg l).map fun ts => { f with ts := ts } else none := by
    unfold FSys.act TSys.act
    simp only [hc, Option.isSome_none, Bool.false_eq_true, if_false]
  rw [e1]
  unfold TSys.tick FSys.quiet NetClock.quiet FSys.still
  cases hm : f.clk.monitor cfg.net f.ts.sys.net f.ts.now with
  | some k => simp
  | none =>
    rcases e ((List.range cfg.net.tiles).all (f.clk.routerQuiet cfg.net cfg.dataMemLat f.ts.sys.net f.ts.now)) with h1 | h1 <;>
    rcases e ((List.range cfg.net.tiles).all fun t => (f.other cfg l (.tile t)).isNone) with h2 | h2 <;>
    rcases e ((List.range cfg.net.tiles).all (f.ts.tileQuiet cfg l)) with h3 | h3 <;>
    simp only [h1, h2, h3, Option.isNone_none, Bool.and_true, Bool.true_and, Bool.and_false, Bool.false_and, if_true,
      Bool.false_eq_true, if_false, Option.map_some, Option.map_none, Option.some.injEq, reduceCtorEq, false_and, true_and]
    exact eq_comm

theorem monitor_act (hc : f.ts.sys.crashed = none) :
    f.act cfg l .monitor = (f.clk.monitor cfg.net f.ts.sys.net f.ts.now).map fun k => { f with clk := k } := by
  unfold FSys.act
  rw [if_neg (by rw [hc]; simp)]

/-- The monitor can be brought to its next look. -/
theorem watched (hc : f.ts.sys.crashed = none) : ∃ as m, f.run cfg l as = some (f.watch m) ∧
    (f.watch m).clk.monitor cfg.net f.ts.sys.net f.ts.now = none ∧ ∀ a ∈ as, a = .monitor := by
  by_cases h : f.clk.look = f.ts.now
  · refine ⟨[.monitor], ⟨f.ts.now + 1, if f.ts.sys.net.anyQueued cfg.net then f.clk.busy + 1 else f.clk.busy,
      f.clk.looks ++ [f.ts.sys.net.anyQueued cfg.net]⟩, ?_, ?_, by simp⟩
    · simp only [FSys.run, monitor_act hc, NetClock.monitor, if_pos h]
      rfl
    · unfold NetClock.monitor
      rw [if_neg]
      show ¬(f.ts.now + 1 = f.ts.now)
      omega
  · refine ⟨[], f.clk.seen, rfl, ?_, by simp⟩
    unfold NetClock.monitor
    rw [if_neg]
    exact h

/-- When nothing but the monitor and the passing of time is possible, everything else is still. -/
theorem still_of_idle {i : SysInit} (h0 : ∀ t, GoodStart (i.mem t) (i.valid t)) (h : FInv cfg l i f)
    (hc : f.ts.sys.crashed = none) (hn : ∀ a, a ≠ .monitor → a ≠ .t .tick → f.act cfg l a = none) :
    f.still cfg l = true := by
  obtain ⟨as, m, h1, h2, -⟩ := watched (cfg := cfg) (l := l) hc
  obtain ⟨a, f', ha⟩ := f_progress h0 (finv_run h0 as h h1) hc
  by_cases e1 : a = .monitor
  · subst e1
    rw [monitor_act (f := f.watch m) hc, watch_ts, h2] at ha
    cases ha
  · by_cases e2 : a = .t .tick
    · subst e2
      have := ((tick_iff (f := f.watch m) hc f').1 ha).1
      rwa [still_watch] at this
    · rw [act_watch e1 e2, hn a e1 e2] at ha
      cases ha

end Ramwich
