import Verif.Spec.System
import Verif.Spec.Reset
import Verif.Spec.GetStats

/-! # What the counters of a node should count -/
namespace Ramwich.Spec

/-! ## DRAMs -/

/-- The requests of a core to the DRAM: one for every load and store. -/
def coreRequests (log : List CoreEv) : List (Int × ReqKind) :=
  log.filterMap fun e => match e.op with
    | .load _ _ width vec => some (e.addr, .read width vec)
    | .store _ _ _ vec => some (e.addr, .write e.data vec.toNat)
    | _ => none

/-- The requests of a tile process to the DRAM: one for every Send and every complete Recv. -/
def tileRequests (log : List TileEv) : List (Int × ReqKind) :=
  log.filterMap fun
    | .sent addr _ width vec _ => some (addr, .read width vec)
    | .received addr _ _ vec rows => some (addr, .write rows.flatten vec.toNat)
    | _ => none

/-- All requests of a tile to its DRAM. -/
def requestsOf (cores : Nat) (x : TileSt) : List (Int × ReqKind) :=
  (List.range cores).flatMap (fun k => coreRequests (x.core k).log) ++ tileRequests x.log

/-- Rows read by a request. -/
def rowsRead : ReqKind → Int
  | .read _ vec => vec
  | .write .. => 0

/-- Rows written by a request. -/
def rowsWritten : ReqKind → Int
  | .read .. => 0
  | .write _ rows => rows

/-- Words read by a request. -/
def wordsRead : ReqKind → Int
  | .read width vec => width * vec
  | .write .. => 0

/-- Words written by a request. -/
def wordsWritten : ReqKind → Int
  | .read .. => 0
  | .write data _ => data.length

/-- The sum over the requests. -/
def totalReq (f : ReqKind → Int) (rs : List (Int × ReqKind)) : Int := (rs.map fun r => f r.2).sum

/-- The counters of a memory after the requests. -/
def memoryCounts (s : MemoryStats) (rs : List (Int × ReqKind)) : MemoryStats :=
  { readOperations := s.readOperations + totalReq rowsRead rs
    readCells := s.readCells + totalReq wordsRead rs
    writeOperations := s.writeOperations + totalReq rowsWritten rs
    writeCells := s.writeCells + totalReq wordsWritten rs
    totalOperations := s.totalOperations + (totalReq rowsRead rs + totalReq rowsWritten rs)
    totalOperatedCells := s.totalOperatedCells + (totalReq wordsRead rs + totalReq wordsWritten rs) }

/-! ## Routers -/

/-- The rows of the Sends. -/
def rowsSent (log : List TileEv) : List (List I32) :=
  log.flatMap fun
    | .sent _ _ _ _ rows => rows
    | _ => []

/-- The counters of the router of tile `t` of a node with `tiles` tiles, when the tile processes have done
what the logs say and everything has been sent: one packet per row of a Send, all within the node. -/
def routerCounts (tiles : Nat) (logs : Nat → List TileEv) (t : Nat) : RouterStats :=
  { created := (rowsSent (logs t)).length
    sentInter := 0
    sentIntra := (rowsSent (logs t)).length
    sent := (rowsSent (logs t)).length
    received := ∑ i ∈ Finset.range tiles, (rowsTo t (logs i)).length
    read := ∑ i ∈ Finset.range tiles, (rowsFrom i (logs t)).length }

/-! ## Reports -/

/-- What a node that has not run starts with. -/
def nodeInit (c : Config) (n : NodeObj) : SysInit :=
  { mem := fun t => (n.tiles.getD t (TileObj.new c t)).ctrl.mem
    valid := fun t => (n.tiles.getD t (TileObj.new c t)).ctrl.valid
    core := fun t k => ((n.tiles.getD t (TileObj.new c t)).cores.getD k (CoreObj.new c)).core
    prog := fun t k => ((n.tiles.getD t (TileObj.new c t)).cores.getD k (CoreObj.new c)).operations
    ops := fun t => (n.tiles.getD t (TileObj.new c t)).operations }

/-- The entries of a report whose counts are cycles. -/
def countsCycles (k : String) : Prop := k = "Core Control Unit" ∨ k = "Tile Control Unit"

/-- The second run took at least as long as the first, in every respect. -/
structure slower (a b : RunTimes) : Prop where
  tile : ∀ t, a.tile t ≤ b.tile t
  core : ∀ t k, a.core t k ≤ b.core t k
  busy : a.busy ≤ b.busy

end Ramwich.Spec
