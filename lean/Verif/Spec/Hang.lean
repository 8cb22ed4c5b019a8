import Verif.Spec.StaticCheck

/-! # A check that finds hangs

The moves of `Spec/StaticCheck.lean`, with one more: a process may ask for words of the DRAM that are not there, and then
it waits. When words are written, the list of the processes that wait is gone through once, and after a process that gets
its words the next one is not looked at (C32). No word of data and no time occurs. -/
namespace Ramwich.Spec

/-- A process of a tile: its own, or the one of a core. -/
inductive Proc
  | tile
  | core (k : Nat)
  deriving DecidableEq, Repr

/-- A tile without data; the processes that wait for words of the DRAM, in the order in which they have asked; those that
have got their words and have not gone on yet. -/
structure WaitTile where
  dry : DryTile
  waiting : List Proc := []
  served : List Proc := []
  deriving DecidableEq, Repr

/-- The words that a process reads next. -/
def DryTile.wants (x : DryTile) : Proc → Option (Nat × Nat)
  | .tile =>
      match x.ops with
      | .send addr _ width vec :: _ => some (addr.toNat, (width * vec).toNat)
      | _ => none
  | .core k =>
      match x.cores[k]? with
      | some (.read a n :: _) => some (a, n)
      | _ => none

/-- The words that the process reads next are there. -/
def DryTile.canHave (x : DryTile) (w : Proc) : Bool :=
  match x.wants w with
  | some (a, n) => decide (x.has a n)
  | none => false

/-- One pass over a list: the elements taken out and those left. After an element that is taken out the next one is not
looked at. -/
def onePass {α : Type} (ok : α → Bool) : List α → List α × List α
  | [] => ([], [])
  | a :: rest =>
    if ok a then
      match rest with
      | [] => ([a], [])
      | b :: rest' => let p := onePass ok rest'; (a :: p.1, b :: p.2)
    else let p := onePass ok rest; (p.1, a :: p.2)

/-- After a move the tile is `x`. If words have been written, the list of those who wait is gone through. -/
def WaitTile.after (w : WaitTile) (x : DryTile) : WaitTile :=
  if x.valid = w.dry.valid then { w with dry := x }
  else
    let p := onePass x.canHave w.waiting
    { dry := x, waiting := p.2, served := w.served ++ p.1 }

/-- The next read of the process is in order: that of a Send of tile `t` needs another tile and a positive number of
words. -/
def DryTile.canAsk (tiles t : Nat) (x : DryTile) : Proc → Prop
  | .core _ => True
  | .tile =>
      match x.ops with
      | .send addr target width vec :: _ =>
          0 ≤ addr ∧ 0 ≤ target ∧ target < tiles ∧ target ≠ t ∧ 0 < width ∧ 0 < vec
      | _ => False

instance (tiles t : Nat) (x : DryTile) (w : Proc) : Decidable (x.canAsk tiles t w) := by
  cases w with
  | tile => simp only [DryTile.canAsk]; split <;> infer_instance
  | core k => exact isTrue trivial

/-- A process that has got its words goes on. -/
def DryTile.resume (x : DryTile) : Proc → Option DryTile
  | .tile =>
      match x.ops with
      | .send _ target width vec :: rest => some { x with
          ops := rest, out := x.out ++ List.replicate vec.toNat (target.toNat, width.toNat) }
      | _ => none
  | .core k =>
      match x.cores[k]? with
      | some (.read _ _ :: evs) => some { x with cores := x.cores.set k evs }
      | _ => none

inductive WaitMove
  /-- a process that does not wait does its next operation -/
  | go (m : DryMove)
  /-- a process asks for words that are not there -/
  | ask (t : Nat) (w : Proc)
  /-- a process goes on with the words that it has got -/
  | resume (t : Nat) (w : Proc)
  deriving DecidableEq, Repr

/-- One move. -/
def waitStep (size : Nat) (d : List WaitTile) : WaitMove → Option (List WaitTile)
  | .ask t w =>
      match d[t]? with
      | none => none
      | some x =>
        match x.dry.wants w with
        | none => none
        | some (a, n) =>
          if w ∉ x.waiting ∧ w ∉ x.served ∧ ¬x.dry.has a n ∧ a + n ≤ size ∧
              x.dry.canAsk d.length t w then
            some (d.set t { x with waiting := x.waiting ++ [w] })
          else none
  | .resume t w =>
      match d[t]? with
      | none => none
      | some x =>
        if w ∈ x.served then
          (x.dry.resume w).map fun y => d.set t { x with dry := y, served := x.served.erase w }
        else none
  | .go (.core t k) =>
      match d[t]? with
      | none => none
      | some x =>
        if .core k ∈ x.waiting ∨ .core k ∈ x.served then none
        else (x.dry.coreMove size k).map fun y => d.set t (x.after y)
  | .go (.tile t) =>
      match d[t]? with
      | none => none
      | some x =>
        if .tile ∈ x.waiting ∨ .tile ∈ x.served then none
        else (dryStep size (d.map WaitTile.dry) (.tile t)).map fun ys =>
          (d.zip ys).map fun p => p.1.after p.2

/-- A sequence of moves. -/
def waitRun (size : Nat) : List WaitTile → List WaitMove → Option (List WaitTile)
  | d, [] => some d
  | d, m :: ms => (waitStep size d m).bind fun d => waitRun size d ms

/-- No process of tile `t` can move: its cores have ended or wait; its own process has ended, or it waits for words, or
for a row that has not been sent, or for its cores. -/
def WaitTile.hangs (tiles t : Nat) (x : WaitTile) : Prop :=
  x.dry.out = [] ∧ x.served = [] ∧ (∀ k < x.dry.cores.length, x.dry.cores[k]? = some [] ∨ .core k ∈ x.waiting) ∧
    (.tile ∈ x.waiting ∨
      match x.dry.ops with
      | [] => True
      | .receive _ source width vec :: _ => 0 ≤ source ∧ source < tiles ∧ source ≠ t ∧ 0 ≤ width ∧ 0 < vec
      | .halt :: _ => ∃ k < x.dry.cores.length, .core k ∈ x.waiting
      | _ => False)

instance (tiles t : Nat) (x : WaitTile) : Decidable (x.hangs tiles t) := by
  unfold WaitTile.hangs
  have : Decidable (match x.dry.ops with
      | [] => True
      | .receive _ source width vec :: _ => 0 ≤ source ∧ source < tiles ∧ source ≠ t ∧ 0 ≤ width ∧ 0 < vec
      | .halt :: _ => ∃ k < x.dry.cores.length, .core k ∈ x.waiting
      | _ => False) := by split <;> infer_instance
  infer_instance

/-- No process can move, and one of them waits for words that are there. -/
def hung (d : List WaitTile) : Prop :=
  (∀ t < d.length, ∃ x ∈ d[t]?, WaitTile.hangs d.length t x) ∧ ∃ x ∈ d, ∃ w ∈ x.waiting, x.dry.canHave w = true

instance (d : List WaitTile) : Decidable (hung d) := by
  unfold hung
  have h : ∀ t : Nat, Decidable (∃ x ∈ d[t]?, WaitTile.hangs d.length t x) := fun t => by
    cases d[t]? with
    | none => exact isFalse (by simp)
    | some x => exact decidable_of_iff (x.hangs d.length t) (by simp)
  infer_instance

/-- The check: the moves lead to a state in which nobody can move and somebody waits for words that are there. -/
def hangsWith (p : CoreParams) (size tiles cores : Nat) (valid : Nat → Nat) (prog : Nat → Nat → List CoreOp)
    (ops : Nat → List TileOp) (moves : List WaitMove) : Prop :=
  ∃ d ∈ (dryStart p tiles cores valid prog ops).bind fun d => waitRun size (d.map fun x => { dry := x }) moves, hung d

instance (p : CoreParams) (size tiles cores : Nat) (valid : Nat → Nat) (prog : Nat → Nat → List CoreOp)
    (ops : Nat → List TileOp) (moves : List WaitMove) : Decidable (hangsWith p size tiles cores valid prog ops moves) := by
  unfold hangsWith
  cases (dryStart p tiles cores valid prog ops).bind fun d => waitRun size (d.map fun x => { dry := x }) moves with
  | none => exact isFalse (by simp)
  | some d => exact decidable_of_iff (hung d) (by simp)

end Ramwich.Spec
