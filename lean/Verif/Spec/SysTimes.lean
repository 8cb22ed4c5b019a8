import Verif.Spec.DramTimes
import Verif.Spec.TimedSystem

/-! # Which requests to a DRAM have to wait for what -/
namespace Ramwich.Spec

/-- The request does not have to wait for data: it is a write, or every word it reads was valid at the start
(`v0`) or written by a request answered at an earlier time than this one was submitted, or by an earlier request
of the same process. -/
def timely (v0 : List Bool) (answers : List Answer) (r : Req) : Prop :=
  r.isWrite = true ∨
    inDram v0.length r ∧ 0 ≤ r.length ∧ ∀ a : Nat, covers r a → v0.getD a false = true ∨
      ∃ w tm, .wrote w tm ∈ answers ∧ (tm < r.submitTime ∨ w.core = r.core ∧ w.id < r.id) ∧ covers w a

/-- The request of a load or store in the program of a core, with `num_batches = vec`. -/
def ofCoreOp (prog : List CoreOp) (kind : ReqKind) : Prop :=
  (∃ dest read w v, .load dest read w v ∈ prog ∧ kind = .read w v) ∨
  ∃ dest read w v data, .store dest read w v ∈ prog ∧ kind = .write data v.toNat

/-- The request of a Send or Recv in the program of a tile. -/
def ofTileOp (ops : List TileOp) (kind : ReqKind) : Prop :=
  (∃ addr target w v, .send addr target w v ∈ ops ∧ kind = .read w v) ∨
  ∃ addr source w v data, .receive addr source w v ∈ ops ∧ kind = .write data v.toNat

/-- Number of words of the accesses to the DRAM that an operation makes. -/
def coreBatches : CoreOp → Int
  | .load _ _ _ v => v
  | .store _ _ _ v => v
  | _ => 0

def tileBatches : TileOp → Int
  | .send _ _ _ v => v
  | .receive _ _ _ v => v
  | .halt => 0

end Ramwich.Spec
