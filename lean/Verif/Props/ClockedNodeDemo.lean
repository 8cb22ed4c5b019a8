import Verif.Model.ClockedNode
import Verif.Props.TimedSystemDemo

/-! # A scheduler for nodes with one clock, and example runs

The properties are in `Props/ClockedNode.lean`. -/
namespace Ramwich

open Spec

/-- Runs up to `n` actions, always the first possible one of a list, until `stop`. -/
def FSys.auto (cfg : SysCfg) (l : StageLat) (stop : FSys → Bool) (order : List FAct) : Nat → FSys → List FAct × FSys
  | 0, f => ([], f)
  | n + 1, f =>
    if stop f then ([], f)
    else
      match order.findSome? fun a => (f.act cfg l a).map fun f' => (a, f') with
      | none => ([], f)
      | some (a, f') => let r := FSys.auto cfg l stop order n f'; (a :: r.1, r.2)

/-- What the scheduler does is a run. -/
theorem fauto_runs (cfg : SysCfg) (l : StageLat) (stop : FSys → Bool) (order : List FAct) : ∀ (n : Nat) (f : FSys),
    f.run cfg l (FSys.auto cfg l stop order n f).1 = some (FSys.auto cfg l stop order n f).2 := by
  intro n
  induction n with
  | zero => intro f; rfl
  | succ n ih =>
    intro f
    unfold FSys.auto
    by_cases hs : stop f = true
    · rw [if_pos hs]; rfl
    · rw [if_neg hs]
      cases hf : order.findSome? fun a => (f.act cfg l a).map fun f' => (a, f') with
      | none => rfl
      | some p =>
        obtain ⟨a, f'⟩ := p
        dsimp only
        obtain ⟨b, -, hb⟩ := List.exists_of_findSome?_eq_some hf
        simp only [Option.map_eq_some_iff, Prod.mk.injEq] at hb
        obtain ⟨f1, h1, h2, h3⟩ := hb
        subst h2 h3
        simp only [FSys.run, h1, Option.bind_some]
        exact ih f1

/-- Actions of two tiles with one core each. -/
def twoClocked : List FAct :=
  ((coreActs 0 0 ++ coreActs 1 0 ++ (twoTiles.drop 2).map TAct.other).map .t : List FAct) ++ [.recheck 0, .recheck 1, .monitor, .t .tick]

/-- Both tile processes have returned. -/
def bothReturned (f : FSys) : Bool := (f.active 0).isSome && (f.active 1).isSome

/-- Packets need four cycles. -/
def quickSys : SysCfg := { demoSys with net := ⟨1, 2, some 4, some 9⟩ }

/-- A run of the program of `demoInit`. -/
def clockedRun : List FAct × FSys := FSys.auto quickSys demoStages bothReturned twoClocked 500 demoInit.fstart

/-- The same program with other latencies and the actions tried in another order. -/
def otherClockedRun : List FAct × FSys :=
  FSys.auto slowSys ⟨3, 2⟩ bothReturned (twoClocked.dropLast.reverse ++ [.t .tick]) 500 demoInit.fstart

/-- Tile 1 wants rows of three words: it stops at the first row. -/
def shortRun : List FAct × FSys :=
  FSys.auto quickSys demoStages (fun f => (f.ends 1).length = 1) twoClocked 500 mismatchInit.fstart

/-- Tile 0 has a second Halt. -/
def twiceInit : SysInit :=
  { demoInit with ops := fun t => if t = 0 then [.send 4 1 2 2, .halt, .halt] else [.receive 2 0 2 2, .halt] }

def twiceRun : List FAct × FSys := FSys.auto quickSys demoStages bothReturned twoClocked 500 twiceInit.fstart

/-- The tile processes have nothing to do, the cores have. -/
def idleInit : SysInit :=
  { demoInit with
    valid := fun _ => List.replicate 8 true
    ops := fun _ => [] }

def idleRun : List FAct × FSys :=
  FSys.auto quickSys demoStages (fun f => (f.ts.pipe 0 0).doneAt.isSome) twoClocked 300 idleInit.fstart

end Ramwich
