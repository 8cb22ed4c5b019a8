import Verif.Lemmas.FlowTile
import Verif.Lemmas.Vfu

/-! # Symbolic execution of a core

An evaluator for programs that work on blocks of words; for such a program it finds formulas for what is stored. -/
namespace Ramwich

open Spec

/-- Formulas for blocks of words: constants, words of the DRAM, the first outputs of a unit activated by operation `op`,
saturated sums, rectified blocks. -/
inductive Sym
  | const (v : Int) (n : Nat)
  | words (a n : Nat)
  | mvm (op m : Nat) (x : Sym) (n : Nat)
  | add (x y : Sym)
  | relu (x : Sym)
  deriving DecidableEq

def Sym.length : Sym → Nat
  | .const _ n => n
  | .words _ n => n
  | .mvm _ _ _ n => n
  | .add x y => min x.length y.length
  | .relu x => x.length

/-- What the formulas speak about. -/
structure SymEnv where
  p : CoreParams
  mem : Nat → Int
  weights : Nat → Nat → Nat → ℚ
  errors : Nat → MvmErrors

def SymEnv.eval (E : SymEnv) : Sym → List Int
  | .const v n => List.replicate n v
  | .words a n => wordsAt E.mem a n
  | .mvm op m x n => E.p.product (E.weights m) (E.errors op) (E.eval x) n
  | .add x y => List.zipWith (fun a b => clampTo E.p.actWidth (wrap32 (a + b))) (E.eval x) (E.eval y)
  | .relu x => E.p.rectified (E.eval x)

/-- The symbolic state: blocks in the cache, newest first; inputs of units (`none`: used); units that have been
activated, with the number of the operation and the inputs. -/
structure SymState where
  cache : List (Nat × Sym) := []
  ins : List (Nat × Option Sym) := []
  outs : List (Nat × Nat × Sym) := []

/-- The block at `a`, if it is one. -/
def symLookup : List (Nat × Sym) → Nat → Nat → Option Sym
  | [], _, _ => none
  | (b, e) :: l, a, n =>
      if b + e.length ≤ a ∨ a + n ≤ b then symLookup l a n else if b = a ∧ e.length = n then some e else none

def SymState.read (place : Int → Nat → Option Place) (s : SymState) (start : Int) (n : Nat) : Option Sym :=
  match place start n with
  | some (.cache a) => symLookup s.cache a n
  | some (.output m a) => if a = 0 then (s.outs.lookup m).map fun x => .mvm x.1 m x.2 n else none
  | _ => none

def SymState.write (place : Int → Nat → Option Place) (s : SymState) (start : Int) (e : Sym) : Option SymState :=
  match place start e.length with
  | some (.cache a) => some { s with cache := (a, e) :: s.cache }
  | some (.input m a) => if a = 0 ∧ s.ins.lookup m = none then some { s with ins := (m, some e) :: s.ins } else none
  | _ => none

/-- The address in a register. -/
def SymState.addr (place : Int → Nat → Option Place) (s : SymState) (start : Int) : Option Nat :=
  match s.read place start 1 with
  | some (.const v 1) => some v.toNat
  | _ => none

/-- One operation that is neither a load nor a store. -/
def SymState.exec (place : Int → Nat → Option Place) (n : Nat) (s : SymState) : CoreOp → Option SymState
  | .set dest imm vec => if fits32 imm then s.write place dest (.const imm vec.toNat) else none
  | .copy dest read vec => (s.read place read vec.toNat).bind fun e => s.write place dest e
  | .vfu .add dest r1 (some r2) vec => (s.read place r1 vec.toNat).bind fun x =>
      (s.read place r2 vec.toNat).bind fun y => s.write place dest (.add x y)
  | .vfu .relu dest r1 none vec => (s.read place r1 vec.toNat).bind fun x => s.write place dest (.relu x)
  | .mvm [m] => if 0 ≤ m then
      match s.ins.lookup m.toNat with
      | some (some e) => some { s with ins := (m.toNat, none) :: s.ins, outs := (m.toNat, n, e) :: s.outs }
      | _ => none
    else none
  | _ => none

/-- The stores of a program: addresses and formulas. -/
def symRun (place : Int → Nat → Option Place) : Nat → SymState → List CoreOp → Option (List (Nat × Sym))
  | _, _, [] => some []
  | _, _, .hlt :: _ => some []
  | n, s, .load dest read width vec :: ops =>
      (s.addr place read).bind fun a => (s.write place dest (.words a (width * vec).toNat)).bind fun s =>
        symRun place (n + 1) s ops
  | n, s, .store dest read width vec :: ops =>
      (s.addr place dest).bind fun a => (s.read place read (width * vec).toNat).bind fun e =>
        (symRun place (n + 1) s ops).map fun out => (a, e) :: out
  | n, s, op :: ops => (s.exec place n op).bind fun s => symRun place (n + 1) s ops

/-! ## Soundness -/

theorem SymEnv.eval_length (E : SymEnv) (e : Sym) : (E.eval e).length = e.length := by
  induction e with
  | const => simp [SymEnv.eval, Sym.length]
  | words => simp [SymEnv.eval, Sym.length, wordsAt]
  | mvm => simp [SymEnv.eval, Sym.length, CoreParams.product]
  | add x y hx hy => simp [SymEnv.eval, Sym.length, hx, hy]
  | relu x hx => simp [SymEnv.eval, Sym.length, hx, CoreParams.rectified]

/-- All words fit in 32 bits. -/
def allFit (l : List Int) : Prop := ∀ v ∈ l, fits32 v

theorem wrap32_in (v : Int) : fits32 (wrap32 v) := by
  unfold fits32 wrap32
  have h1 := Int.le_bmod (x := v) (m := 2 ^ 32) (by decide)
  have h2 := Int.bmod_lt (x := v) (m := 2 ^ 32) (by decide)
  constructor
  · exact le_trans (by decide) h1
  · exact lt_of_lt_of_le h2 (by decide)

theorem clampTo_fits {w : Nat} (hw : w ≤ 31) (v : Int) : fits32 (clampTo w v) := by
  have h1 : (2 : Int) ^ w ≤ 2 ^ 31 := pow_le_pow_right₀ (by decide) hw
  have h2 : (0 : Int) < 2 ^ w := by positivity
  unfold fits32 clampTo
  omega

theorem div_fits {v : Int} (h : fits32 v) (k : Nat) : fits32 (v / 2 ^ k) := by
  unfold fits32 at *
  have hk : (0 : Int) < 2 ^ k := by positivity
  constructor
  · rw [Int.le_ediv_iff_mul_le hk]
    nlinarith
  · refine Int.ediv_lt_of_lt_mul hk ?_
    nlinarith

theorem getD_setBlock {f : Nat → Int} (a : Nat) {l : List Int} (hl : allFit l) (n : Nat) (hn : n = l.length) :
    ((List.range n).map fun i => setBlock f a l (a + i)) = l := by
  subst hn
  apply List.ext_getElem
  · simp
  · intro i h1 h2
    rw [List.getElem_map, List.getElem_range]
    unfold setBlock
    rw [if_pos (by omega), Nat.add_sub_cancel_left, List.getD_eq_getElem?_getD, List.getElem?_eq_getElem h2, Option.getD_some]
    exact wrap32_fits _ (hl _ (List.getElem_mem h2))

/-- The symbolic state describes the state. -/
structure SymOk (E : SymEnv) (s : CoreState) (st : SymState) : Prop where
  cache : ∀ a n e, symLookup st.cache a n = some e →
    ((List.range n).map fun i => s.cache (a + i)) = E.eval e ∧ e.length = n ∧ allFit (E.eval e)
  weights : ∀ m, (s.units m).weights = E.weights m
  fresh : ∀ m, st.ins.lookup m = none → (s.units m).inputs = fun _ => 0
  given : ∀ m e, st.ins.lookup m = some (some e) → (s.units m).inputs = fun j => (E.eval e).getD j 0
  outs : ∀ m op e, st.outs.lookup m = some (op, e) → (s.units m).outputs = fun r =>
    wrap32 ((E.p.unit.analog ((E.errors op).pos 0) ((E.errors op).neg 0)).mvmValue E.p.unit.storage E.p.unit.frac
      E.p.unit.size E.p.unit.res E.p.unit.width E.p.unit.adcBits (E.weights m) (fun j => (E.eval e).getD j 0) r)

theorem sym_read {E : SymEnv} {s : CoreState} {st : SymState} (h : SymOk E s st) {start : Int} {n : Nat} {e : Sym}
    (hr : st.read E.p.place start n = some e) :
    E.p.read s start n = .ok (E.eval e) ∧ e.length = n ∧ allFit (E.eval e) := by
  unfold SymState.read at hr
  unfold CoreParams.read
  cases hp : E.p.place start n with
  | none => rw [hp] at hr; cases hr
  | some pl =>
    rw [hp] at hr
    cases pl with
    | cache a =>
      obtain ⟨h1, h2, h3⟩ := h.cache a n e hr
      exact ⟨by dsimp only; rw [h1], h2, h3⟩
    | input m a => cases hr
    | output m a =>
      dsimp only at hr ⊢
      split at hr
      · rename_i ha
        subst ha
        cases hl : st.outs.lookup m with
        | none => rw [hl] at hr; cases hr
        | some x =>
          obtain ⟨op, x⟩ := x
          rw [hl] at hr
          injection hr with hr
          subst hr
          have ho := h.outs m op x hl
          refine ⟨?_, rfl, ?_⟩
          · rw [ho]
            simp only [Nat.zero_add]
            rfl
          · intro v hv
            obtain ⟨r, -, rfl⟩ := List.mem_map.1 hv
            exact div_fits (wrap32_in _) _
      · cases hr

theorem lookup_cons_ne {α : Type} {l : List (Nat × α)} {a b : Nat} {x : α} (h : a ≠ b) :
    List.lookup a ((b, x) :: l) = List.lookup a l := by
  rw [List.lookup_cons, show (a == b) = false by simpa using h]

theorem lookup_cons_eq {α : Type} {l : List (Nat × α)} {a : Nat} {x : α} :
    List.lookup a ((a, x) :: l) = some x := by
  rw [List.lookup_cons, show (a == a) = true by simp]

theorem sym_write {E : SymEnv} {s : CoreState} {st st' : SymState} (h : SymOk E s st) {start : Int} {e : Sym}
    (hw : st.write E.p.place start e = some st') (hf : allFit (E.eval e)) :
    ∃ s', E.p.write s start (E.eval e) = .ok s' ∧ SymOk E s' st' := by
  unfold SymState.write at hw
  unfold CoreParams.write
  rw [E.eval_length]
  cases hp : E.p.place start e.length with
  | none => rw [hp] at hw; cases hw
  | some pl =>
    rw [hp] at hw
    cases pl with
    | cache a =>
      injection hw with hw
      subst hw
      refine ⟨_, rfl, ?_, h.weights, h.fresh, h.given, h.outs⟩
      intro b n e' hl
      unfold symLookup at hl
      split at hl
      · rename_i hd
        obtain ⟨h1, h2⟩ := h.cache b n e' hl
        refine ⟨?_, h2⟩
        rw [← h1]
        apply List.map_congr_left
        intro i hi
        have hi := List.mem_range.1 hi
        show setBlock s.cache a (E.eval e) (b + i) = s.cache (b + i)
        unfold setBlock
        rw [if_neg (by rw [E.eval_length]; omega)]
      · split at hl
        · rename_i hq
          injection hl with hl
          subst hl
          obtain ⟨rfl, rfl⟩ := hq
          exact ⟨getD_setBlock a hf _ (E.eval_length e).symm, rfl, hf⟩
        · cases hl
    | input m a =>
      dsimp only at hw ⊢
      split at hw
      · rename_i hc
        obtain ⟨rfl, hfr⟩ := hc
        injection hw with hw
        subst hw
        have hz := h.fresh m hfr
        refine ⟨_, rfl, h.cache, ?_, ?_, ?_, ?_⟩
        · intro i
          dsimp only
          rw [← h.weights i]
          split <;> rfl
        · intro i hi
          dsimp only at hi ⊢
          by_cases him : i = m
          · rw [him, lookup_cons_eq] at hi; cases hi
          · rw [lookup_cons_ne him] at hi
            rw [if_neg him]
            exact h.fresh i hi
        · intro i x hi
          dsimp only at hi ⊢
          by_cases him : i = m
          · rw [him, lookup_cons_eq] at hi
            injection hi with hi
            injection hi with hi
            subst hi
            rw [if_pos him, him]
            funext j
            show setBlock (s.units m).inputs 0 (E.eval e) j = _
            unfold setBlock
            by_cases hj : j < (E.eval e).length
            · rw [if_pos (by omega), Nat.sub_zero, List.getD_eq_getElem?_getD, List.getElem?_eq_getElem hj, Option.getD_some]
              exact wrap32_fits _ (hf _ (List.getElem_mem hj))
            · rw [if_neg (by omega), hz, List.getD_eq_getElem?_getD, List.getElem?_eq_none (by omega)]
              rfl
          · rw [lookup_cons_ne him] at hi
            rw [if_neg him]
            exact h.given i x hi
        · intro i op x hi
          dsimp only at hi ⊢
          rw [← h.outs i op x hi]
          split <;> rfl
      · cases hw
    | output m a => cases hw

theorem sym_addr {E : SymEnv} {s : CoreState} {st : SymState} (h : SymOk E s st) {start : Int} {a : Nat}
    (hr : st.addr E.p.place start = some a) :
    ∃ v : Int, E.p.read s start 1 = .ok [v] ∧ v.toNat = a := by
  unfold SymState.addr at hr
  split at hr
  · rename_i v hv
    injection hr with hr
    exact ⟨v, (sym_read h hv).1, hr⟩
  · cases hr

theorem sym_exec {E : SymEnv} (hwd : E.p.actWidth ≤ 31) {s : CoreState} {st st' : SymState} (h : SymOk E s st) {n : Nat}
    {op : CoreOp} (hx : st.exec E.p.place n op = some st') :
    ∀ {s' : CoreState}, E.p.exec (E.errors n) s op = .ok s' → SymOk E s' st' := by
  intro s' hs
  unfold SymState.exec at hx
  split at hx
  · rename_i dest imm vec
    split at hx
    · rename_i hfit
      obtain ⟨s1, h1, h2⟩ := sym_write h hx (by
        intro v hv
        rw [List.eq_of_mem_replicate hv]
        exact hfit)
      rw [show E.p.exec (E.errors n) s (.set dest imm vec) = .ok s1 from h1] at hs
      injection hs with hs
      rw [← hs]
      exact h2
    · cases hx
  · rename_i dest read vec
    obtain ⟨e, h1, h2⟩ := Option.bind_eq_some_iff.1 hx
    obtain ⟨h3, h4, h5⟩ := sym_read h h1
    obtain ⟨s1, h6, h7⟩ := sym_write h h2 h5
    rw [show E.p.exec (E.errors n) s (.copy dest read vec)
      = (E.p.read s read vec.toNat >>= fun v => E.p.write s dest v) from rfl, h3,
      show (Except.ok (E.eval e) >>= fun v => E.p.write s dest v) = .ok s1 from h6] at hs
    injection hs with hs
    rw [← hs]
    exact h7
  · rename_i dest r1 r2 vec
    obtain ⟨x, h1, h2⟩ := Option.bind_eq_some_iff.1 hx
    obtain ⟨y, h3, h4⟩ := Option.bind_eq_some_iff.1 h2
    obtain ⟨g1, g2, g3⟩ := sym_read h h1
    obtain ⟨k1, k2, k3⟩ := sym_read h h3
    obtain ⟨s1, h6, h7⟩ := sym_write h h4 (by
      intro v hv
      obtain ⟨j, hj, rfl⟩ := List.mem_iff_getElem.1 hv
      unfold SymEnv.eval at hj ⊢
      rw [List.getElem_zipWith]
      exact clampTo_fits hwd _)
    rw [show E.p.exec (E.errors n) s (.vfu .add dest r1 (some r2) vec)
      = (E.p.read s r1 vec.toNat >>= fun a => ((E.p.read s r2 vec.toNat).map some) >>= fun b =>
        vfuVector E.p.sig E.p.tanh E.p.actFrac E.p.actWidth .add a b >>= fun v => E.p.write s dest v) from rfl, g1, k1,
      show (Except.ok (E.eval x) >>= fun a => ((Except.ok (E.eval y) : Except PyErr _).map some) >>= fun b =>
        vfuVector E.p.sig E.p.tanh E.p.actFrac E.p.actWidth .add a b >>= fun v => E.p.write s dest v)
        = E.p.write s dest (E.eval (.add x y)) from rfl, h6] at hs
    injection hs with hs
    rw [← hs]
    exact h7
  · rename_i dest r1 vec
    obtain ⟨x, h1, h2⟩ := Option.bind_eq_some_iff.1 hx
    obtain ⟨g1, g2, g3⟩ := sym_read h h1
    obtain ⟨s1, h6, h7⟩ := sym_write h h2 (by
      intro v hv
      obtain ⟨a, -, rfl⟩ := List.mem_map.1 hv
      exact clampTo_fits hwd _)
    rw [show E.p.exec (E.errors n) s (.vfu .relu dest r1 none vec)
      = (E.p.read s r1 vec.toNat >>= fun a => Except.ok none >>= fun b =>
        vfuVector E.p.sig E.p.tanh E.p.actFrac E.p.actWidth .relu a b >>= fun v => E.p.write s dest v) from rfl, g1,
      show (Except.ok (E.eval x) >>= fun a => (Except.ok none : Except PyErr _) >>= fun b =>
        vfuVector E.p.sig E.p.tanh E.p.actFrac E.p.actWidth .relu a b >>= fun v => E.p.write s dest v)
        = E.p.write s dest (E.eval (.relu x)) from rfl, h6] at hs
    injection hs with hs
    rw [← hs]
    exact h7
  · rename_i m
    split at hx
    · rename_i hm
      split at hx
      · rename_i e he
        injection hx with hx
        subst hx
        unfold CoreParams.exec CoreParams.mvms at hs
        dsimp only at hs
        split at hs
        · unfold CoreParams.mvms at hs
          injection hs with hs
          subst hs
          refine ⟨h.cache, ?_, ?_, ?_, ?_⟩
          · intro i
            dsimp only
            rw [← h.weights i]
            split <;> rfl
          · intro i hi
            dsimp only at hi ⊢
            by_cases him : i = m.toNat
            · rw [him, lookup_cons_eq] at hi; cases hi
            · rw [lookup_cons_ne him] at hi
              rw [if_neg him]
              exact h.fresh i hi
          · intro i x hi
            dsimp only at hi ⊢
            by_cases him : i = m.toNat
            · rw [him, lookup_cons_eq] at hi; cases hi
            · rw [lookup_cons_ne him] at hi
              rw [if_neg him]
              exact h.given i x hi
          · intro i op x hi
            dsimp only at hi ⊢
            by_cases him : i = m.toNat
            · rw [him, lookup_cons_eq] at hi
              injection hi with hi
              injection hi with hi1 hi2
              subst hi1 hi2
              rw [if_pos him, him]
              funext r
              show wrap32 (Analog.mvmValue _ _ _ _ _ _ _ (s.units m.toNat).weights (s.units m.toNat).inputs r) = _
              rw [h.weights, h.given _ _ he]
            · rw [lookup_cons_ne him] at hi
              rw [if_neg him]
              exact h.outs i op x hi
        · cases hs
      · cases hx
    · cases hx
  · cases hx

/-- The evaluator finds what `flow` stores. -/
theorem sym_run {E : SymEnv} (hwd : E.p.actWidth ≤ 31) (hmem : ∀ a, fits32 (E.mem a)) (prog : List CoreOp) :
    ∀ (n : Nat) (s : CoreState) (st : SymState) (out : List (Nat × Sym)) (fin : CoreState) (stores : List (Nat × List Int)),
    SymOk E s st → symRun E.p.place n st prog = some out → E.p.flow E.mem E.errors n s prog = .ok (fin, stores) →
    stores = out.map fun x => (x.1, E.eval x.2) := by
  induction prog with
  | nil =>
    intro n s st out fin stores _ h1 h2
    injection h1 with h1
    injection h2 with h2
    injection h2 with _ h2
    rw [← h1, ← h2]
    rfl
  | cons op prog ih =>
    intro n s st out fin stores h h1 h2
    have other : ∀ st1, st.exec E.p.place n op = some st1 → symRun E.p.place (n + 1) st1 prog = some out →
        (E.p.exec (E.errors n) s op >>= fun s => E.p.flow E.mem E.errors (n + 1) s prog) = .ok (fin, stores) →
        stores = out.map fun x => (x.1, E.eval x.2) := by
      intro st1 g1 g2 g3
      cases hs : E.p.exec (E.errors n) s op with
      | error err => rw [hs] at g3; cases g3
      | ok s1 =>
        rw [hs] at g3
        exact ih (n + 1) s1 st1 out fin stores (sym_exec hwd h g1 hs) g2 g3
    cases op with
    | hlt =>
      injection h1 with h1
      injection h2 with h2
      injection h2 with _ h2
      rw [← h1, ← h2]
      rfl
    | load dest read w v =>
      unfold symRun at h1
      obtain ⟨a, g1, g2⟩ := Option.bind_eq_some_iff.1 h1
      obtain ⟨st1, g3, g4⟩ := Option.bind_eq_some_iff.1 g2
      obtain ⟨x, k1, k2⟩ := sym_addr h g1
      obtain ⟨s1, k3, k4⟩ := sym_write h g3 (by
        intro y hy
        obtain ⟨j, -, rfl⟩ := List.mem_map.1 hy
        exact hmem _)
      unfold CoreParams.flow at h2
      rw [k1, show (Except.ok [x] >>= fun a => E.p.write s dest (wordsAt E.mem (a.headD 0).toNat (w * v).toNat) >>= fun s =>
        E.p.flow E.mem E.errors (n + 1) s prog) = (E.p.write s dest (wordsAt E.mem x.toNat (w * v).toNat) >>= fun s =>
        E.p.flow E.mem E.errors (n + 1) s prog) from rfl, k2,
        show E.p.write s dest (wordsAt E.mem a (w * v).toNat) = .ok s1 from k3] at h2
      exact ih (n + 1) s1 st1 out fin stores k4 g4 h2
    | store dest read w v =>
      unfold symRun at h1
      obtain ⟨a, g1, g2⟩ := Option.bind_eq_some_iff.1 h1
      obtain ⟨e, g3, g4⟩ := Option.bind_eq_some_iff.1 g2
      obtain ⟨out', g5, g6⟩ := Option.map_eq_some_iff.1 g4
      obtain ⟨x, k1, k2⟩ := sym_addr h g1
      obtain ⟨k3, -, -⟩ := sym_read h g3
      unfold CoreParams.flow at h2
      rw [k1, k3] at h2
      cases hf : E.p.flow E.mem E.errors (n + 1) s prog with
      | error err => rw [hf] at h2; cases h2
      | ok r =>
        rw [hf] at h2
        have := ih (n + 1) s st out' r.1 r.2 h g5 hf
        injection h2 with h2
        injection h2 with _ h2
        rw [← h2, ← g6, this, List.map_cons, ← k2]
        rfl
    | set dest imm vec =>
      obtain ⟨st1, g1, g2⟩ := Option.bind_eq_some_iff.1 h1
      exact other st1 g1 g2 h2
    | copy dest read vec =>
      obtain ⟨st1, g1, g2⟩ := Option.bind_eq_some_iff.1 h1
      exact other st1 g1 g2 h2
    | vfu o dest r1 r2 vec =>
      obtain ⟨st1, g1, g2⟩ := Option.bind_eq_some_iff.1 h1
      exact other st1 g1 g2 h2
    | mvm xs =>
      obtain ⟨st1, g1, g2⟩ := Option.bind_eq_some_iff.1 h1
      exact other st1 g1 g2 h2

/-- The state after loading weights. -/
theorem sym_start (p : CoreParams) (mem : Nat → Int) (errors : Nat → MvmErrors) (weights : List (Nat × List (List ℚ))) :
    SymOk ⟨p, mem, fun m => ((CoreState.loadAll {} weights).units m).weights, errors⟩ (CoreState.loadAll {} weights) {} := by
  have key : ∀ (ws : List (Nat × List (List ℚ))) (s : CoreState), (∀ m, (s.units m).inputs = fun _ => 0) →
      ∀ m, ((CoreState.loadAll s ws).units m).inputs = fun _ => 0 := by
    intro ws
    induction ws with
    | nil => intro s h; exact h
    | cons w ws ih =>
      intro s h
      obtain ⟨m, w⟩ := w
      refine ih _ fun i => ?_
      dsimp only
      split
      · exact h i
      · exact h i
  refine ⟨?_, fun _ => rfl, fun m _ => key weights {} (fun _ => rfl) m, ?_, ?_⟩
  · intro _ _ _ h; cases h
  · intro _ _ h; cases h
  · intro _ _ _ h; cases h

end Ramwich
