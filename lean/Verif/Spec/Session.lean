import Verif.Spec.EndToEnd
import Verif.Spec.Reset

/-! # Several runs of one simulator -/
namespace Ramwich.Spec

/-- The simulator with the operations and weights of the files. -/
def programmed (l : Libs) (c : Config) (js : List Json) (w : NpzFile) : Sim :=
  loaded l (Sim.new c) [.operations (.value (.arr js)), .weights w]

/-- `run(activation)`: the activation is loaded, every node runs to an end (node `i` with the latencies, activation
functions and noise of `cfg i`, in any order of events, to the state `y i`); `s'` is the simulator afterwards. -/
structure runOnce (l : Libs) (s : Sim) (act : Activation) (cfg : Nat → SysCfg) (y : Nat → Sys) (s' : Sim) : Prop where
  loads : (s.prepare l.oob (some act)).1 = .ok ()
  ends : ∀ i n, (s.prepare l.oob (some act)).2.nodes[i]? = some n → endsIn s.config (cfg i) n (y i)
  after : ∃ times : Nat → RunTimes, s' = { (s.prepare l.oob (some act)).2 with
    nodes := (s.prepare l.oob (some act)).2.nodes.mapIdx fun i n => n.afterRun (y i) (times i) }

/-- One run of a session: activation, latencies and noise, final states of the nodes. -/
abbrev SessionRun := Activation × (Nat → SysCfg) × (Nat → Sys)

/-- Runs one after the other with one simulator, with a `reset` before every run but the first, as `process_batch` does
in tests/test_mlp_on_mnist_multi.py:41-46. -/
inductive session (l : Libs) (s : Sim) : List SessionRun → Sim → Prop
  | first {act cfg y s'} (h : runOnce l s act cfg y s') : session l s [(act, cfg, y)] s'
  | next {runs s₁ s₂ act cfg y s'} (h : session l s runs s₁) (hr : s₁.reset = (.ok (), s₂)) (h' : runOnce l s₂ act cfg y s') :
      session l s (runs ++ [(act, cfg, y)]) s'

end Ramwich.Spec
