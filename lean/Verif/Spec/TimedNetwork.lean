import Verif.Model.Network

/-! # Times of packets -/
namespace Ramwich

/-- The number of cycles that a packet within a node is under way. -/
def NetConfig.lat (c : NetConfig) : Nat := (c.intraLat.getD 0).toNat

namespace Spec

/-- Those of the times `ts` of the packets `ps` that belong to packets for tile `d`. -/
def timesTo (d : Nat) (ps : List Packet) (ts : List Nat) : List Nat :=
  ((ps.zip ts).filter fun x => decide (x.1.target = (d : Int))).map Prod.snd

end Spec
end Ramwich
