import Verif.Spec.System
import Verif.Props.Core
import Verif.Props.DramController

/-! # Example programs of a node, and a scheduler to run them

The properties are in `Props/System.lean`; the runs here show that their hypotheses are met. -/
namespace Ramwich

open Spec

/-- Runs up to `n` actions, always the first possible one in a list that is rotated by one each time, or else in
a second list, until `stop`. -/
def Sys.auto (cfg : SysCfg) (stop : Sys → Bool) (order clocks : List SysAct) : Nat → Sys → List SysAct × Sys
  | 0, s => ([], s)
  | n + 1, s =>
    if stop s then ([], s)
    else
      match (order.rotate n ++ clocks.rotate n).findSome? fun a => (s.act cfg a).map fun s' => (a, s') with
      | none => ([], s)
      | some (a, s') => let r := Sys.auto cfg stop order clocks n s'; (a :: r.1, r.2)

/-- What the scheduler does is a run. -/
theorem auto_runs (cfg : SysCfg) (stop : Sys → Bool) (order clocks : List SysAct) : ∀ (n : Nat) (s : Sys),
    s.run cfg (Sys.auto cfg stop order clocks n s).1 = some (Sys.auto cfg stop order clocks n s).2 := by
  intro n
  induction n with
  | zero => intro s; rfl
  | succ n ih =>
    intro s
    unfold Sys.auto
    by_cases hs : stop s = true
    · rw [if_pos hs]; rfl
    · rw [if_neg hs]
      cases hf : (order.rotate n ++ clocks.rotate n).findSome? fun a => (s.act cfg a).map fun s' => (a, s') with
      | none => rfl
      | some p =>
        obtain ⟨a, s'⟩ := p
        dsimp only
        obtain ⟨b, -, hb⟩ := List.exists_of_findSome?_eq_some hf
        simp only [Option.map_eq_some_iff, Prod.mk.injEq] at hb
        obtain ⟨s1, h1, h2, h3⟩ := hb
        subst h2 h3
        simp only [Sys.run, h1, Option.bind_some]
        exact ih s1

/-- Actions of two tiles with one core each. -/
def twoTiles : List SysAct :=
  [.core 0 0, .core 1 0, .tile 0, .tile 1, .thread 0, .thread 1, .take 0, .take 1,
   .ctrl 0 .pick, .ctrl 0 .dispatch, .ctrl 0 .grant, .ctrl 0 .complete,
   .ctrl 1 .pick, .ctrl 1 .dispatch, .ctrl 1 .grant, .ctrl 1 .complete]

def twoClocks : List SysAct := [.ctrl 0 .tick, .ctrl 1 .tick]

/-- Two tiles with one core each. -/
def demoSys : SysCfg :=
  { net := ⟨1, 2, some 31, some 36⟩, cores := 1, edramLat := 2, dataMemLat := 1
    execLat := demoCoreBuilt.executionLatency, fl := someActs, noise := fun _ _ _ _ _ => ⟨fun _ _ _ => 0, fun _ _ _ => 0⟩ }

/-- Core 0 of tile 0 stores four words, which tile 0 sends to tile 1; core 0 of tile 1 loads them. -/
def demoInit : SysInit :=
  { mem := fun _ => demoDram
    valid := fun _ => demoValid
    core := fun _ _ => Core.new demoCoreBuilt
    prog := fun t _ => if t = 0 then [.set 16 4 1, .set 20 7 3, .set 23 9 1, .store 16 20 2 2, .hlt]
      else [.set 16 2 1, .load 24 16 2 2, .hlt]
    ops := fun t => if t = 0 then [.send 4 1 2 2, .halt] else [.receive 2 0 2 2, .halt] }

/-- Both tiles have executed their Halt. -/
def bothHalted (s : Sys) : Bool :=
  (s.tile 0).log.contains .halted && (s.tile 1).log.contains .halted

/-- A run of the program with the default order of actions. -/
def demoRun : List SysAct × Sys := Sys.auto demoSys bothHalted twoTiles twoClocks 200 demoInit.start

/-- Other latencies. -/
def slowSys : SysCfg := { demoSys with edramLat := 5, dataMemLat := 0, net := ⟨1, 2, some 1, some 1⟩ }

/-- The same program with other latencies and with the actions tried in another order. -/
def otherRun : List SysAct × Sys := Sys.auto slowSys bothHalted twoTiles.reverse twoClocks.reverse 300 demoInit.start

/-- As before, but tile 1 wants rows of three words. -/
def mismatchInit : SysInit :=
  { demoInit with ops := fun t => if t = 0 then [.send 4 1 2 2, .halt] else [.receive 2 0 3 2, .halt] }

/-- Tile 1 has taken the first row. -/
def firstTaken (s : Sys) : Bool :=
  match s.net.reader 1 with
  | .got .. => true
  | _ => false

def mismatchRun : List SysAct × Sys := Sys.auto demoSys firstTaken twoTiles twoClocks 200 mismatchInit.start

/-- Three tiles with one core each. -/
def threeSys : SysCfg := { demoSys with net := ⟨1, 3, some 31, some 36⟩ }

def threeTiles : List SysAct :=
  twoTiles ++ [.core 2 0, .tile 2, .thread 2, .take 2, .ctrl 2 .pick, .ctrl 2 .dispatch, .ctrl 2 .grant, .ctrl 2 .complete]

def threeClocks : List SysAct := twoClocks ++ [.ctrl 2 .tick]

/-- The program of `C41_deadlock`, with valid DRAMs and nothing for the cores to do. -/
def blockInit : SysInit :=
  { demoInit with
    valid := fun _ => List.replicate 8 true
    prog := fun _ _ => [.hlt]
    ops := fun t => match t with
      | 0 => [.send 0 1 2 1, .send 2 1 2 1, .send 4 2 2 1, .halt]
      | 1 => [.receive 0 2 2 1, .receive 2 0 2 1, .receive 4 0 2 1, .halt]
      | 2 => [.receive 0 0 2 1, .send 2 1 2 1, .halt]
      | _ => [] }

/-- The same with the Recvs of tile 1 in another order. -/
def unblockInit : SysInit :=
  { blockInit with
    ops := fun t => match t with
      | 1 => [.receive 2 0 2 1, .receive 0 2 2 1, .receive 4 0 2 1, .halt]
      | t => blockInit.ops t }

def allHalted (s : Sys) : Bool := [0, 1, 2].all fun t => (s.tile t).log.contains .halted

def unblockRun : List SysAct × Sys := Sys.auto threeSys allHalted threeTiles threeClocks 400 unblockInit.start

end Ramwich
