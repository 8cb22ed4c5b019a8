import Verif.Model.Stats

/-! # `src/ramwich/utils/visualize.py`

`run.py` (22-24) has a call of `summarize_results` with the report of the simulator, commented out. What is printed and
drawn is a list of outputs. matplotlib is modelled only by the check of `bar` that both arguments can be broadcast. -/
namespace Ramwich.Visualize

/-- The dictionary under "stats" (visualize.py:20-24, 42-56, 98-99): the keys that are read, and how many others it
has. -/
structure OpStats where
  opCounts : Option (List (String × Int)) := none
  totalTime : Option ℚ := none
  avgLoad : Option ℚ := none
  avgSet : Option ℚ := none
  avgAlu : Option ℚ := none
  avgMvm : Option ℚ := none
  completionTimes : Option (List ℚ) := none
  others : Nat := 0
  deriving DecidableEq, Repr

/-- `not overall_stats` (visualize.py:35). -/
def OpStats.isEmpty (o : OpStats) : Bool := o = {}

/-- `sum(stats.get('op_counts', {}).values())` (visualize.py:23, 69, 76, 83, 129). -/
def OpStats.ops (o : OpStats) : Int := ((o.opCounts.getD []).map (·.2)).sum

/-- `stats.get('total_execution_time', 0)` (visualize.py:24, 130). -/
def OpStats.time (o : OpStats) : ℚ := o.totalTime.getD 0

/-- A component: `component_type`, `component_id`, `stats` and `components` (visualize.py:67-85, 122-133). The empty list
stands for a missing key "components" too: lines 74, 81 and 132 treat both alike. -/
inductive Comp
  | mk (type id : Option String) (stats : Option OpStats) (components : List Comp)

/-- `get("component_type", "unknown")` (visualize.py:123). -/
def Comp.type : Comp → String | .mk t _ _ _ => t.getD "unknown"
/-- `get("component_id", "unknown")` (visualize.py:68, 75, 82, 124). -/
def Comp.id : Comp → String | .mk _ i _ _ => i.getD "unknown"
/-- `get("stats", {})` (visualize.py:69, 76, 83, 125). -/
def Comp.stats : Comp → OpStats | .mk _ _ s _ => s.getD {}
/-- `get("components", [])` (visualize.py:74, 81, 132-133). -/
def Comp.components : Comp → List Comp | .mk _ _ _ cs => cs

/-- What the argument of `summarize_results` may hold under a key (visualize.py:10): an object that is no dictionary (as
the `Stats` of a report), a dictionary of numbers, or a list of components. -/
inductive Entry
  | object
  | numbers (o : OpStats)
  | list (cs : List Comp)

/-- The argument of `summarize_results` (visualize.py:10). -/
abbrev Top := List (String × Entry)

/-- `simulator_stats.get(key, default)` (visualize.py:20-21, 32-33). -/
def Top.get (d : Top) (key : String) (default : Entry) : Entry :=
  match d with
  | [] => default
  | e :: d => if e.1 = key then e.2 else Top.get d key default

/-- A report of `get_stats` as the argument (run.py:23-24, stats.py:21): each name with a `Stats` object. -/
def ofReport (d : StatsDict) : Top := d.map fun e => (e.1, .object)

/-- What is printed, logged or drawn. -/
inductive Out
  /-- visualize.py:13 -/
  | title
  /-- visualize.py:16 -/
  | noStatistics
  /-- visualize.py:23 -/
  | totalOperations (n : Int)
  /-- visualize.py:24 -/
  | totalTime (t : ℚ)
  /-- visualize.py:36 -/
  | insufficient
  /-- visualize.py:46, 58 and 93: a bar chart in row and column of the figure -/
  | bars (row column : Nat) (labels : List String) (values : List ℚ)
  /-- visualize.py:102 -/
  | timeline (times : List ℚ)
  /-- visualize.py:107-109 -/
  | noTimeline
  /-- visualize.py:111-113 -/
  | saved
  /-- visualize.py:116 -/
  | componentsTitle
  /-- visualize.py:128-130: indentation, type (before `capitalize`), id, operations and time of a component -/
  | component (indent : Nat) (type id : String) (operations : Int) (time : ℚ)
  deriving DecidableEq

/-- visualize.py:82-85 -/
def coreBar (node tile : String) (c : Comp) : String × Int :=
  ("Core " ++ node ++ "." ++ tile ++ "." ++ c.id, c.stats.ops)

/-- visualize.py:75-85 -/
def tileBars (node : String) (t : Comp) : List (String × Int) :=
  ("Tile " ++ node ++ "." ++ t.id, t.stats.ops) :: t.components.map (coreBar node t.id)

/-- visualize.py:68-85 -/
def nodeBars (n : Comp) : List (String × Int) :=
  ("Node " ++ n.id, n.stats.ops) :: n.components.flatMap (tileBars n.id)

/-- visualize.py:88-91; `argsort` is `np.argsort`, which may put equal numbers in any order. -/
def topTen (argsort : List Int → List Nat) (bars : List (String × Int)) : List (String × Int) :=
  if 10 < bars.length then
    let order := argsort (bars.map (·.2))
    (order.drop (order.length - 10)).map fun i => bars.getD i ("", 0)
  else bars

mutual
/-- One round of the loop of `_print_hierarchical_stats` (visualize.py:123-133). -/
def Comp.lines (indent : Nat) : Comp → List Out
  | .mk t i s cs =>
    .component indent (t.getD "unknown") (i.getD "unknown") (s.getD {}).ops (s.getD {}).time
      :: printComponents (indent + 1) cs

/-- `_print_hierarchical_stats` (visualize.py:120-133). -/
def printComponents (indent : Nat) : List Comp → List Out
  | [] => []
  | c :: cs => Comp.lines indent c ++ printComponents indent cs
end

/-- visualize.py:98-109 -/
def timelineOf (o : OpStats) : Out :=
  match o.completionTimes with
  | some ts => .timeline ts
  | none => .noTimeline

/-- `not components` (visualize.py:35); an object is true. -/
def Entry.isEmpty : Entry → Bool
  | .object => false
  | .numbers o => o.isEmpty
  | .list cs => cs.isEmpty

/-- `visualize_results` (visualize.py:30-117). `bar` raises ValueError if its four heights (line 58) cannot be broadcast
with the types of operations, i.e. unless there are one or four. A loop over something that is no list of components
raises AttributeError at `get` (line 68). -/
def visualize (argsort : List Int → List Nat) (o : OpStats) (components : Entry) : Res (List Out) Unit :=
  if o.isEmpty ∨ components.isEmpty then (.ok (), [.insufficient])
  else
    let types := (o.opCounts.getD []).map (·.1)
    let first := Out.bars 0 0 types ((o.opCounts.getD []).map fun e => (e.2 : ℚ))
    if types.length = 1 ∨ types.length = 4 then
      let second := Out.bars 0 1 types [o.avgLoad.getD 0, o.avgSet.getD 0, o.avgAlu.getD 0, o.avgMvm.getD 0]
      match components with
      | .list cs =>
        let shown := topTen argsort (cs.flatMap nodeBars)
        (.ok (), [first, second, .bars 1 0 (shown.map (·.1)) (shown.map fun e => (e.2 : ℚ)), timelineOf o, .saved,
          .componentsTitle] ++ printComponents 0 cs)
      | _ => (.error .attributeError, [first, second])
    else (.error .valueError, [first])

/-- `summarize_results` (visualize.py:10-27). A value under "stats" that is no dictionary has no `get`:
AttributeError at line 23. -/
def summarize (argsort : List Int → List Nat) (d : Top) : Res (List Out) Unit :=
  if d.isEmpty then (.ok (), [.title, .noStatistics])
  else
    match d.get "stats" (.numbers {}) with
    | .numbers o =>
      let r := visualize argsort o (d.get "components" (.list []))
      (r.1, [.title, .totalOperations o.ops, .totalTime o.time] ++ r.2)
    | _ => (.error .attributeError, [.title])

end Ramwich.Visualize
