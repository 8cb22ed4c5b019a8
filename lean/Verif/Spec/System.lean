import Verif.Model.System
import Verif.Spec.DramController
import Verif.Spec.Network

/-! # What the processes of a node should do -/
namespace Ramwich.Spec

/-- Every DRAM has as many words and validity bits as its size says (which `Memory.__init__` and
`DRAMController.__init__` establish). -/
def _root_.Ramwich.SysInit.ok (i : SysInit) : Prop :=
  ∀ t, (i.mem t).cells.length = (i.mem t).size ∧ (i.valid t).length = (i.mem t).size

/-! ## A core alone

The instruction set of a core with the answers of the DRAM given. -/

/-- `e` is what the next operation does on core `c`, given its read noise and, for a load, the data that
the DRAM answers. -/
def _root_.Ramwich.CoreEv.follows (fl : FloatActs) (noise : Nat → Nat → Noise) (c : Core) (e : CoreEv) : Prop :=
  match e.op with
  | .load dest read _ _ =>
      ∃ c1, c.loadAddress read = (.ok e.addr, c1) ∧ e.after = (c1.loadFinish dest e.data).2
  | .store dest read width vec => c.storeRequest dest read width vec = (.ok (e.addr, e.data), e.after)
  | op => c.execute fl noise op = (.ok (), e.after) ∧ e.addr = 0 ∧ e.data = []

/-- A core `c` with program `prog` does the operations of `log`, one after the other in program order,
and is then `c'` with the operations `prog'` left. Nothing follows a `hlt`. -/
def coreRan (fl : FloatActs) (noise : Nat → Nat → Nat → Noise) :
    Nat → Core → List CoreOp → List CoreEv → Core → List CoreOp → Prop
  | _, c, prog, [], c', prog' => c' = c ∧ prog' = prog
  | n, c, prog, e :: log, c', prog' => ∃ rest, prog = e.op :: rest ∧ e.follows fl (noise n) c ∧
      coreRan fl noise (n + 1) e.after (if e.op = .hlt then [] else rest) log c' prog'

/-! ## A tile process alone -/

/-- A tile process with the operations `st.1` left, `st.2` being the rows that the first of them (a Recv) has
received, does something. -/
def tileNext : List TileOp × List (List I32) → TileEv → Option (List TileOp × List (List I32))
  | (.send a t w v :: ops, []), .sent a' t' w' v' _ =>
      if a' = a ∧ t' = t ∧ w' = w ∧ v' = v then some (ops, []) else none
  | (.receive a s w v :: ops, got), .row s' x =>
      if s' = s ∧ (got.length : Int) < v then
        if (x.length : Int) = w then some (.receive a s w v :: ops, got ++ [x]) else some (ops, [])
      else none
  | (.receive a s w v :: ops, got), .received a' s' w' v' rows =>
      if a' = a ∧ s' = s ∧ w' = w ∧ v' = v ∧ rows = got ∧ ¬(got.length : Int) < v then some (ops, []) else none
  | (.halt :: ops, []), .halted => some (ops, [])
  | _, _ => none

/-- A tile process with program `ops` does what `log` says, in program order. -/
def tileRan : List TileOp × List (List I32) → List TileEv → Option (List TileOp × List (List I32))
  | st, [] => some st
  | st, e :: log => (tileNext st e).bind fun st => tileRan st log

/-- The rows that a tile process has decided to send to tile `d`. -/
def rowsTo (d : Nat) (log : List TileEv) : List (List I32) :=
  log.flatMap fun
    | .sent _ t _ _ rows => if t = (d : Int) then rows else []
    | _ => []

/-- The rows that a tile process has received from tile `i`. -/
def rowsFrom (i : Nat) (log : List TileEv) : List (List I32) :=
  log.flatMap fun
    | .row s x => if s = (i : Int) then [x] else []
    | _ => []

/-! ## Transfers between tiles -/

/-- The completed reads of the Sends to tile `d`: address, width, vec and the rows read. -/
def sentTo (d : Nat) (log : List TileEv) : List (Int × Int × Int × List (List I32)) :=
  log.filterMap fun
    | .sent a t w v rows => if t = (d : Int) then some (a, w, v, rows) else none
    | _ => none

/-- The Recvs from tile `i` that have got all their rows: address, width, vec and the rows. -/
def receivedFrom (i : Nat) (log : List TileEv) : List (Int × Int × Int × List (List I32)) :=
  log.filterMap fun
    | .received a s w v rows => if s = (i : Int) then some (a, w, v, rows) else none
    | _ => none

/-- Width and vec of the Sends to tile `d` of a program. -/
def sendShapes (d : Nat) (ops : List TileOp) : List (Int × Int) :=
  ops.filterMap fun
    | .send _ t w v => if t = (d : Int) then some (w, v) else none
    | _ => none

/-- Width and vec of the Recvs from tile `i` of a program. -/
def recvShapes (i : Nat) (ops : List TileOp) : List (Int × Int) :=
  ops.filterMap fun
    | .receive _ s w v => if s = (i : Int) then some (w, v) else none
    | _ => none

/-! ## Outstanding requests -/

/-- The request has been answered. -/
def answered (c : Ctrl) (r : Req) : Prop := ∃ a ∈ c.answers, a.req = r

/-- The core waits for the request with this number. -/
def _root_.Ramwich.CorePhase.waits (id : Nat) : CorePhase → Prop
  | .loadWait i .. => i = id
  | .storeWait i => i = id
  | _ => False

/-- The tile process waits for the request with this number. -/
def _root_.Ramwich.TilePhase.waits (id : Nat) : TilePhase → Prop
  | .sendWait i .. => i = id
  | .recvWrite i => i = id
  | _ => False

/-! ## Programs whose result does not depend on time -/

/-- Every process has come to the end of its program. -/
def finished (cfg : SysCfg) (s : Sys) : Prop :=
  s.crashed = none ∧ ∀ t < cfg.net.tiles, (s.tile t).phase = .ready ∧ (s.tile t).ops = [] ∧
    ∀ k < cfg.cores, ((s.tile t).core k).phase = .halted ∨
      ((s.tile t).core k).phase = .ready ∧ ((s.tile t).core k).prog = []

/-- No DRAM word has been given two different values, the initial one of a valid word included. -/
def singleAssignment (cfg : SysCfg) (i : SysInit) (s : Sys) : Prop :=
  ∀ t < cfg.net.tiles, ∀ w ∈ writesOf (s.tile t).ctrl.answers, ∀ a, covers w a →
    ((i.valid t).getD a false = true → w.value a = (i.mem t).cells.getD a 0) ∧
    ∀ w' ∈ writesOf (s.tile t).ctrl.answers, covers w' a → w'.value a = w.value a

/-- The configurations differ at most in latencies. -/
structure sameMachine (cfg cfg' : SysCfg) : Prop where
  tiles : cfg'.net.tiles = cfg.net.tiles
  cores : cfg'.cores = cfg.cores
  fl : cfg'.fl = cfg.fl
  noise : cfg'.noise = cfg.noise

end Ramwich.Spec
