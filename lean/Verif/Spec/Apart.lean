import Verif.Spec.StaticCheck

/-! # Writes that only one process waits for -/
namespace Ramwich.Spec

/-- A block of DRAM words: the first word and the number of words. -/
abbrev Block := Nat × Nat

/-- The blocks have a word in common. -/
def meet (b c : Block) : Prop := max b.1 c.1 < min (b.1 + b.2) (c.1 + c.2)

instance (b c : Block) : Decidable (meet b c) := by unfold meet; infer_instance

/-- The blocks that a core loads. -/
def loadBlocks (evs : List MemEv) : List Block := evs.filterMap fun | .read a n => some (a, n) | _ => none

/-- The blocks that a core stores. -/
def storeBlocks (evs : List MemEv) : List Block := evs.filterMap fun | .write a n => some (a, n) | _ => none

/-- The blocks that a tile process reads for its Sends. -/
def sendBlocks (ops : List TileOp) : List Block :=
  ops.filterMap fun | .send a _ w v => some (a.toNat, (w * v).toNat) | _ => none

/-- The blocks that a tile process writes for its Recvs. -/
def recvBlocks (ops : List TileOp) : List Block :=
  ops.filterMap fun | .receive a _ w v => some (a.toNat, (w * v).toNat) | _ => none

/-- For any two processes of a tile (its cores and the tile process), no write has words for both: no store and no Recv
of the tile overlaps with a block that the first reads and with a block that the second reads. -/
def oneWaits (cores : List (List MemEv)) (ops : List TileOp) : Prop :=
  (cores.map loadBlocks ++ [sendBlocks ops]).Pairwise fun rs rs' =>
    ∀ w ∈ cores.flatMap storeBlocks ++ recvBlocks ops, ¬((∃ b ∈ rs, meet b w) ∧ ∃ b ∈ rs', meet b w)

instance (cores : List (List MemEv)) (ops : List TileOp) : Decidable (oneWaits cores ops) := by
  unfold oneWaits; infer_instance

/-- The same for all tiles, from the texts of the programs. -/
def apart (p : CoreParams) (tiles cores : Nat) (prog : Nat → Nat → List CoreOp) (ops : Nat → List TileOp) : Prop :=
  ∀ t < tiles, match (List.range cores).mapM fun k => p.trace [] (prog t k) with
    | some evs => oneWaits evs (ops t)
    | none => False

instance (p : CoreParams) (tiles cores : Nat) (prog : Nat → Nat → List CoreOp) (ops : Nat → List TileOp) :
    Decidable (apart p tiles cores prog ops) := by
  unfold apart
  have (t : Nat) : Decidable (match (List.range cores).mapM fun k => p.trace [] (prog t k) with
    | some evs => oneWaits evs (ops t)
    | none => False) := by split <;> infer_instance
  infer_instance

end Ramwich.Spec
