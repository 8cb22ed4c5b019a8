import Verif.Model.ClockedNode

/-! # When the operations of a tile process happen -/
namespace Ramwich.Spec

/-- How many packets the operations of a tile process send. -/
def packetsOf (ops : List TileOp) : Nat :=
  (ops.map fun
    | .send _ _ _ vec => vec.toNat
    | _ => 0).sum

/-- `n` calls of `read_packet` one after the other, those with numbers `off`, `off + 1`, …: the first call is made at
time `s`, each of the others when the one before has its packet, and the last has its packet at time `e`. -/
def readsInTurn (asked read : List Nat) (off n s e : Nat) : Prop :=
  (n = 0 → e = s) ∧ (0 < n → asked[off]? = some s ∧ read[off + n - 1]? = some e) ∧
    ∀ j, j + 1 < n → ∃ x, read[off + j]? = some x ∧ asked[off + j + 1]? = some x

/-- How many packets from tile `src` the operations of a tile process read if the operation number `m` calls
`read_packet` `ns[m]` times. -/
def readsFrom (src : Nat) (ops : List TileOp) (ns : List Nat) : Nat :=
  ((ops.zip ns).map fun x => match x.1 with
    | .receive _ source _ _ => if source.toNat = src then x.2 else 0
    | _ => 0).sum

end Ramwich.Spec
