import Verif.Model.Network

/-! # What a network should do -/
namespace Ramwich.Spec

/-- The data of the packets addressed to tile `d`. -/
def dataTo (d : Nat) (ps : List Packet) : List (List I32) :=
  (ps.filter fun p => decide (p.target = (d : Int))).map Packet.data

/-- Data taken from the buffer for `src` whose `read_packet` call has not returned yet. -/
def takenFrom (src : Nat) : Reader → List (List I32)
  | .got s x => if s = src then [x] else []
  | _ => []

/-- What tile `i` has sent to tile `d`, in the order of its `add_send_packet` calls. -/
def sends (as : List NetAct) (i d : Nat) : List (List I32) :=
  as.filterMap fun a => match a with
    | .send j t x => if j = i ∧ t = (d : Int) then some x else none
    | _ => none

/-- What the calls `read_packet(i)` of tile `d` have returned during a run. -/
def reads (c : NetConfig) : Net → List NetAct → Nat → Nat → List (List I32)
  | _, [], _, _ => []
  | s, a :: as, d, i =>
    (if a = .readDone d then takenFrom i (s.reader d) else [])
      ++ match s.act c a with
        | some s' => reads c s' as d i
        | none => []

/-- The number of `add_send_packet` calls of tile `i`. -/
def sendCalls (as : List NetAct) (i : Nat) : Nat :=
  (as.filter fun a => match a with
    | .send j _ _ => decide (j = i)
    | _ => false).length

/-- The thread has just put a packet into a buffer of tile `d` and `receive_packet` has not returned. -/
def justPut (d : Nat) : Sender → Bool
  | .deposited p _ => decide (p.target = (d : Int))
  | _ => false

/-- 1 if a `read_packet` call has taken a packet and not returned yet. -/
def justTaken : Reader → Nat
  | .got _ _ => 1
  | _ => 0

end Ramwich.Spec
