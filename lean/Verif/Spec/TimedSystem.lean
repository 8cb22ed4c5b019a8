import Verif.Model.TimedSystem
import Verif.Spec.System
import Verif.Spec.TimedPipeline

/-! # A node with pipelines seen as a node without -/
namespace Ramwich

open Pipeline

/-- What is left of a program after the operations `acc`: nothing once there was a `hlt`. -/
def leftOf (prog acc : List CoreOp) : List CoreOp := if acc.any isHlt then [] else prog.drop acc.length

/-- The node without pipelines: every core has the operations left that its execution stage has not started. -/
def TSys.plain (i : SysInit) (s : TSys) : Sys :=
  { s.sys with
    tile := fun t => { s.sys.tile t with
      core := fun k => { (s.sys.tile t).core k with
        prog := leftOf (i.prog t k) ((s.pipe t k).st.accepted 2) } } }

/-- Nothing can happen at the current time, and no core is in a `timeout`, neither in the execution stage nor
in the other two. -/
structure TSys.still (cfg : SysCfg) (l : StageLat) (s : TSys) : Prop where
  acts : ∀ a, a ≠ .tick → s.act cfg l a = none
  exec : ∀ t k, cfg.hasCore t k = true → s.due t k = none
  stages : ∀ t k, cfg.hasCore t k = true → ∀ j, j < 2 → ∀ op, (s.pipe t k).st.ctl j ≠ .busy op

/-- Every process has come to the end of its program: `Spec.finished` for cores with pipelines. -/
def TSys.finished (cfg : SysCfg) (i : SysInit) (s : TSys) : Prop :=
  s.sys.crashed = none ∧ ∀ t < cfg.net.tiles, (s.sys.tile t).phase = .ready ∧ (s.sys.tile t).ops = [] ∧
    ∀ k < cfg.cores, ((s.sys.tile t).core k).phase = .halted ∨
      ((s.sys.tile t).core k).phase = .ready ∧ (s.pipe t k).st.accepted 2 = i.prog t k

/-- The least number of cycles that an operation takes in the execution stage: a load or store of `vec` words of
some width accesses the DRAM and the registers. -/
def SysCfg.minCycles (cfg : SysCfg) : CoreOp → Int
  | .load _ _ _ vec => cfg.edramLat * vec + cfg.dataMemLat * vec
  | .store _ _ _ vec => cfg.dataMemLat * vec + cfg.edramLat * vec.toNat
  | op =>
    match cfg.execLat op with
    | .ok d => d
    | .error _ => 0

/-- The operation does not wait for a DRAM. -/
def CoreOp.isLocal : CoreOp → Bool
  | .load .. => false
  | .store .. => false
  | _ => true

end Ramwich
