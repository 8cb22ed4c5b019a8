import Verif.Model.WholeRun
import Verif.Spec.Session
import Verif.Spec.Ledger

/-! # `RAMwich.run` as a whole -/
namespace Ramwich.Spec

/-- The nodes of the simulator as they are when their processes start. -/
def startOf (s : Sim) (a : Nat) : SysInit := nodeInit s.config (s.nodes.getD a (NodeObj.new s.config a))

/-- The simulator after `load_activation`. -/
abbrev fed (l : Libs) (s : Sim) (act : Activation) : Sim := (s.prepare l.oob (some act)).2

/-- Noise of all nodes, by node, tile, core, number of the operation, and matrix-vector unit. -/
abbrev Noises := Nat → Nat → Nat → Nat → Nat → Nat → Noise

/-- `w` is a state that `env.run` comes to by the events `es` in `RAMwich.run(act)` (ramwich.py:181-199). The networks do
not track anything yet (otherwise `start_tracking` would return at once, noc.py:63-64). -/
structure running (l : Libs) (s : Sim) (act : Activation) (fl : FloatActs) (noise : Noises) (es : List WAct) (w : Whole) :
    Prop where
  loads : (s.prepare l.oob (some act)).1 = .ok ()
  tracks : ∀ n ∈ s.nodes, n.isTracking = false
  events : (Whole.start (startOf (fed l s act))).run s.nodes.length (fun a => s.config.sysCfg fl (noise a)) s.config.stageLat es
    = some w

/-- `RAMwich.run(act)` returns when the processes are in state `w`; `s'` is the simulator afterwards. -/
structure returns (l : Libs) (s : Sim) (act : Activation) (fl : FloatActs) (noise : Noises) (w : Whole) (s' : Sim) :
    Prop where
  runs : ∃ es, running l s act fl noise es w
  fine : w.raised s.nodes.length = false
  over : w.over s.nodes.length = true
  after : s' = (fed l s act).afterWhole w

/-- A completed call of `run`: activation, noise, state of the processes at the end. -/
abbrev Completed := Activation × Noises × Whole

/-- Calls of `run` that have returned, one after the other with one simulator, with a `reset` before every call but the first
(tests/test_mlp_on_mnist_multi.py:41-46). -/
inductive batch (l : Libs) (fl : FloatActs) (s : Sim) : List Completed → Sim → Prop
  | first {act noise w s'} (h : returns l s act fl noise w s') : batch l fl s [(act, noise, w)] s'
  | next {runs s₁ s₂ act noise w s'} (h : batch l fl s runs s₁) (hr : s₁.reset = (.ok (), s₂))
      (h' : returns l s₂ act fl noise w s') : batch l fl s (runs ++ [(act, noise, w)]) s'

/-- `s` is the simulator before a call of `run`: new, or after calls that have returned and a `reset`. -/
inductive before (l : Libs) (fl : FloatActs) (s0 : Sim) : List Completed → Sim → Prop
  | new : before l fl s0 [] s0
  | reset {hist s₁ s} (h : batch l fl s0 hist s₁) (hr : s₁.reset = (.ok (), s)) : before l fl s0 hist s

/-- The times in the objects of node `a` after the calls `hist ++ [(_, _, w)]`: those of the last run, but
`queue_busy_cycles`, which `reset` does not set to zero (C50), of all of them. -/
def timesAfter (hist : List Completed) (w : Whole) (a : Nat) : RunTimes :=
  { tile := fun t => ((w.node a).active t).getD 0
    core := fun t k => (((w.node a).ts.pipe t k).doneAt).getD 0
    busy := (hist.map fun e => ((e.2.2.node a).clk.busy : Int)).sum + (w.node a).clk.busy
    tracking := false }

end Ramwich.Spec
