import Verif.Lemmas.SymCore

/-! # Symbolic execution of a node

From the formulas of the cores and the transfers: formulas for blocks of the DRAMs in terms of the words that are given. -/
namespace Ramwich

open Spec

/-- Formulas for blocks of words: given words of tile 0, the first outputs of a unit activated by operation `op` of core
`k` of tile `t`, saturated sums, rectified blocks. -/
inductive Val
  | input (a n : Nat)
  | mvm (t k op m : Nat) (x : Val) (n : Nat)
  | add (x y : Val)
  | relu (x : Val)
  deriving DecidableEq

/-- What the formulas speak about. -/
structure NodeEnv where
  p : CoreParams
  given : Nat → Int
  weights : Nat → Nat → Nat → Nat → Nat → ℚ
  errors : Nat → Nat → Nat → MvmErrors

def NodeEnv.eval (N : NodeEnv) : Val → List Int
  | .input a n => wordsAt N.given a n
  | .mvm t k op m x n => N.p.product (N.weights t k m) (N.errors t k op) (N.eval x) n
  | .add x y => N.p.plus (N.eval x) (N.eval y)
  | .relu x => N.p.rectified (N.eval x)

/-- Blocks whose words are so small that sums of two do not wrap around. -/
def Val.small : Val → Bool
  | .input .. => false
  | _ => true

/-- Known blocks: tile, address, length and formula. -/
abbrev Known := List ((Nat × Nat × Nat) × Val)

/-- A formula of a core of tile `t` with the known blocks. -/
def resolve (known : Known) (t k : Nat) : Sym → Option Val
  | .const .. => none
  | .words a n => known.lookup (t, a, n)
  | .mvm op m x n => (resolve known t k x).map fun x => .mvm t k op m x n
  | .add x y => (resolve known t k x).bind fun x => (resolve known t k y).bind fun y =>
      if x.small && y.small then some (.add x y) else none
  | .relu x => (resolve known t k x).map .relu

/-- Address, width and vec of the Sends to tile `d`. -/
def sendsTo (d : Nat) (ops : List TileOp) : List (Int × Int × Int) :=
  ops.filterMap fun
    | .send a t w v => if t = (d : Int) then some (a, w, v) else none
    | _ => none

/-- Address, width and vec of the Recvs from tile `i`. -/
def recvsFrom (i : Nat) (ops : List TileOp) : List (Int × Int × Int) :=
  ops.filterMap fun
    | .receive a s w v => if s = (i : Int) then some (a, w, v) else none
    | _ => none

/-- A step of the evaluation: store number `j` of core `k` of tile `t`, or transfer number `j` from a tile to another. -/
inductive Fact
  | store (t k j : Nat)
  | move (src dst j : Nat)

def Fact.learn (place : Int → Nat → Option Place) (prog : Nat → Nat → List CoreOp) (ops : Nat → List TileOp)
    (known : Known) : Fact → Option Known
  | .store t k j => (symRun place 0 {} (prog t k)).bind fun out => out[j]?.bind fun x =>
      (resolve known t k x.2).map fun v => ((t, x.1, x.2.length), v) :: known
  | .move src dst j =>
      if (sendsTo dst (ops src)).map Prod.snd = (recvsFrom src (ops dst)).map Prod.snd then
        (sendsTo dst (ops src))[j]?.bind fun x => (recvsFrom src (ops dst))[j]?.bind fun y =>
          (known.lookup (src, x.1.toNat, x.2.2.toNat * x.2.1.toNat)).map fun v =>
            ((dst, y.1.toNat, x.2.2.toNat * x.2.1.toNat), v) :: known
      else none

def learnAll (place : Int → Nat → Option Place) (prog : Nat → Nat → List CoreOp) (ops : Nat → List TileOp) :
    Known → List Fact → Option Known
  | known, [] => some known
  | known, f :: fs => (f.learn place prog ops known).bind fun known => learnAll place prog ops known fs

/-- The tiles and cores of a step exist. -/
def Fact.inNode (tiles cores : Nat) : Fact → Prop
  | .store t k _ => t < tiles ∧ k < cores
  | .move src dst _ => src < tiles ∧ dst < tiles

instance (tiles cores : Nat) (f : Fact) : Decidable (f.inNode tiles cores) := by
  cases f <;> unfold Fact.inNode <;> infer_instance

/-! ## Soundness -/

theorem clampTo_bounds {w : Nat} (hw : w ≤ 30) (v : Int) : -2 ^ 30 ≤ clampTo w v ∧ clampTo w v < 2 ^ 30 := by
  have h1 : (2 : Int) ^ w ≤ 2 ^ 30 := pow_le_pow_right₀ (by decide) hw
  have h2 : (0 : Int) < 2 ^ w := by positivity
  unfold clampTo
  omega

theorem small_bounds {N : NodeEnv} (hw : N.p.actWidth ≤ 30) (hf : 1 ≤ N.p.unit.frac) {v : Val} (h : v.small = true) :
    ∀ x ∈ N.eval v, -2 ^ 30 ≤ x ∧ x < 2 ^ 30 := by
  intro x hx
  cases v with
  | input => cases h
  | mvm t k op m y n =>
    obtain ⟨r, -, rfl⟩ := List.mem_map.1 hx
    have h1 := wrap32_in (Analog.mvmValue (N.p.unit.analog ((N.errors t k op).pos 0) ((N.errors t k op).neg 0))
      N.p.unit.storage N.p.unit.frac N.p.unit.size N.p.unit.res N.p.unit.width N.p.unit.adcBits (N.weights t k m)
      (fun j => (N.eval y).getD j 0) r)
    generalize wrap32 _ = z at h1
    unfold fits32 at h1
    have hk : (2 : Int) ^ 1 ≤ 2 ^ N.p.unit.frac := pow_le_pow_right₀ (by decide) hf
    generalize (2 : Int) ^ N.p.unit.frac = q at hk
    have hq : 0 < q := by omega
    constructor
    · rw [Int.le_ediv_iff_mul_le hq]
      nlinarith
    · refine Int.ediv_lt_of_lt_mul hq ?_
      nlinarith
  | add a b =>
    obtain ⟨j, hj, rfl⟩ := List.mem_iff_getElem.1 hx
    unfold NodeEnv.eval CoreParams.plus at hj ⊢
    rw [List.getElem_zipWith]
    exact clampTo_bounds hw _
  | relu a =>
    obtain ⟨a, -, rfl⟩ := List.mem_map.1 hx
    exact clampTo_bounds hw _

theorem zipWith_congr_mem {f g : Int → Int → Int} : ∀ (x y : List Int), (∀ a ∈ x, ∀ b ∈ y, f a b = g a b) →
    List.zipWith f x y = List.zipWith g x y := by
  intro x
  induction x with
  | nil => intro y _; simp
  | cons a x ih =>
    intro y h
    cases y with
    | nil => simp
    | cons b y =>
      rw [List.zipWith_cons_cons, List.zipWith_cons_cons, h a (by simp) b (by simp), ih y]
      intro a' ha b' hb
      exact h a' (by simp [ha]) b' (by simp [hb])

/-- The known blocks are right. -/
def KnownOk (N : NodeEnv) (mem : Nat → Nat → Int) (known : Known) : Prop :=
  ∀ x ∈ known, wordsAt (mem x.1.1) x.1.2.1 x.1.2.2 = N.eval x.2

theorem lookup_pair {α β : Type} [BEq α] [LawfulBEq α] {a : α} {b : β} : ∀ {l : List (α × β)}, l.lookup a = some b → (a, b) ∈ l := by
  intro l
  induction l with
  | nil => intro h; cases h
  | cons x l ih =>
    intro h
    obtain ⟨c, d⟩ := x
    rw [List.lookup_cons] at h
    split at h
    · rename_i hc
      injection h with h
      rw [eq_of_beq hc, h]
      simp
    · exact List.mem_cons_of_mem _ (ih h)

theorem resolve_ok {N : NodeEnv} {mem : Nat → Nat → Int} {known : Known} (hk : KnownOk N mem known)
    (hw : N.p.actWidth ≤ 30) (hf : 1 ≤ N.p.unit.frac) (t k : Nat) (e : Sym) : ∀ v, resolve known t k e = some v →
    (⟨N.p, mem t, N.weights t k, N.errors t k⟩ : SymEnv).eval e = N.eval v := by
  induction e with
  | const => intro v h; cases h
  | words a n => intro v h; exact hk _ (lookup_pair h)
  | mvm op m x n ih =>
    intro v h
    obtain ⟨y, h1, rfl⟩ := Option.map_eq_some_iff.1 h
    unfold SymEnv.eval NodeEnv.eval
    rw [ih y h1]
  | add x y ihx ihy =>
    intro v h
    obtain ⟨x', h1, h2⟩ := Option.bind_eq_some_iff.1 h
    obtain ⟨y', h3, h4⟩ := Option.bind_eq_some_iff.1 h2
    split at h4
    · rename_i hs
      rw [Bool.and_eq_true] at hs
      injection h4 with h4
      subst h4
      unfold SymEnv.eval NodeEnv.eval CoreParams.plus
      rw [ihx x' h1, ihy y' h3]
      apply zipWith_congr_mem
      intro a ha b hb
      have k1 := small_bounds hw hf hs.1 a ha
      have k2 := small_bounds hw hf hs.2 b hb
      rw [wrap32_fits _ (by unfold fits32; omega)]
    · cases h4
  | relu x ih =>
    intro v h
    obtain ⟨y, h1, rfl⟩ := Option.map_eq_some_iff.1 h
    unfold SymEnv.eval NodeEnv.eval
    rw [ih y h1]

theorem rowsAt_flatten (mem : Nat → Int) (a w v : Int) :
    (rowsAt mem a w v).flatten = wordsAt mem a.toNat (v.toNat * w.toNat) := by
  unfold rowsAt
  generalize v.toNat = n
  generalize w.toNat = m
  generalize a.toNat = b
  induction n with
  | zero => simp [wordsAt]
  | succ n ih =>
    rw [List.range_succ, List.map_append, List.flatten_append, ih, Nat.add_mul, Nat.one_mul, wordsAt_add]
    simp

theorem sentRows_eq (mem : Nat → Int) (d : Nat) (ops : List TileOp) :
    sentRows mem d ops = (sendsTo d ops).flatMap fun x => rowsAt mem x.1 x.2.1 x.2.2 := by
  induction ops with
  | nil => rfl
  | cons op ops ih =>
    unfold sentRows sendsTo at *
    rw [List.flatMap_cons, ih, List.filterMap_cons]
    cases op with
    | send a t w v =>
      dsimp only
      split
      · rw [List.flatMap_cons]
      · rfl
    | _ => rfl

theorem recvRows_eq (mem : Nat → Int) (s : Nat) (ops : List TileOp) :
    recvRows mem s ops = (recvsFrom s ops).flatMap fun x => rowsAt mem x.1 x.2.1 x.2.2 := by
  induction ops with
  | nil => rfl
  | cons op ops ih =>
    unfold recvRows recvsFrom at *
    rw [List.flatMap_cons, ih, List.filterMap_cons]
    cases op with
    | receive a t w v =>
      dsimp only
      split
      · rw [List.flatMap_cons]
      · rfl
    | _ => rfl

theorem rows_match (m m' : Nat → Int) : ∀ (xs ys : List (Int × Int × Int)), xs.map Prod.snd = ys.map Prod.snd →
    (ys.flatMap fun x => rowsAt m' x.1 x.2.1 x.2.2) = (xs.flatMap fun x => rowsAt m x.1 x.2.1 x.2.2) →
    ∀ (j : Nat) x y, xs[j]? = some x → ys[j]? = some y →
      wordsAt m' y.1.toNat (x.2.2.toNat * x.2.1.toNat) = wordsAt m x.1.toNat (x.2.2.toNat * x.2.1.toNat) := by
  intro xs
  induction xs with
  | nil => intro ys _ _ j x y h; simp at h
  | cons x0 xs ih =>
    intro ys hs hr j x y hx hy
    cases ys with
    | nil => simp at hy
    | cons y0 ys =>
      rw [List.map_cons, List.map_cons, List.cons.injEq] at hs
      rw [List.flatMap_cons, List.flatMap_cons] at hr
      obtain ⟨h1, h2⟩ := List.append_inj hr (by rw [rowsAt_length, rowsAt_length, hs.1])
      cases j with
      | zero =>
        injection hx with hx
        injection hy with hy
        subst hx hy
        rw [← rowsAt_flatten, ← rowsAt_flatten, ← h1, hs.1]
      | succ j => exact ih ys hs.2 h2 j x y hx hy

/-- The evaluation finds formulas that hold for all solutions of the equations. -/
theorem learnAll_ok {N : NodeEnv} {tiles cores : Nat} {prog : Nat → Nat → List CoreOp} {ops : Nat → List TileOp}
    {ws : Nat → Nat → List (Nat × List (List ℚ))} {there : Nat → Nat → Prop} {given mem : Nat → Nat → Int}
    {final : Nat → Nat → CoreState} (hw : N.p.actWidth ≤ 30) (hf : 1 ≤ N.p.unit.frac)
    (hN : N.weights = fun t k m => ((CoreState.loadAll {} (ws t k)).units m).weights)
    (h : solution N.p tiles cores prog ops (fun t k => CoreState.loadAll {} (ws t k)) N.errors there given mem final)
    (hmem : ∀ t a, fits32 (mem t a)) (fs : List Fact) : ∀ known known', (∀ f ∈ fs, f.inNode tiles cores) →
    KnownOk N mem known → learnAll N.p.place prog ops known fs = some known' → KnownOk N mem known' := by
  induction fs with
  | nil =>
    intro known known' _ hk hl
    injection hl with hl
    rw [← hl]
    exact hk
  | cons f fs ih =>
    intro known known' hin hk hl
    obtain ⟨k1, h1, h2⟩ := Option.bind_eq_some_iff.1 hl
    refine ih k1 known' (fun g hg => hin g (List.mem_cons_of_mem _ hg)) ?_ h2
    have hthis := hin f (List.mem_cons_self ..)
    cases f with
    | store t k j =>
      obtain ⟨out, g1, g2⟩ := Option.bind_eq_some_iff.1 h1
      obtain ⟨x, g3, g4⟩ := Option.bind_eq_some_iff.1 g2
      obtain ⟨v, g5, rfl⟩ := Option.map_eq_some_iff.1 g4
      obtain ⟨stores, k2, k3⟩ := h.core t hthis.1 k hthis.2
      have hrun := sym_run (E := ⟨N.p, mem t, N.weights t k, N.errors t k⟩) (by dsimp only; omega) (hmem t) (prog t k) 0 _ {}
        out (final t k) stores (by rw [hN]; exact sym_start N.p (mem t) (N.errors t k) (ws t k)) g1 k2
      intro y hy
      rcases List.mem_cons.1 hy with rfl | hy
      · dsimp only
        have hx := k3 (x.1, (⟨N.p, mem t, N.weights t k, N.errors t k⟩ : SymEnv).eval x.2) (by
          rw [hrun]
          exact List.mem_map.2 ⟨x, List.mem_of_getElem? g3, rfl⟩)
        dsimp only at hx
        rw [SymEnv.eval_length] at hx
        rw [← hx]
        exact resolve_ok hk hw hf t k x.2 v g5
      · exact hk y hy
    | move src dst j =>
      unfold Fact.learn at h1
      dsimp only at h1
      split at h1
      · rename_i hsh
        obtain ⟨x, g1, g2⟩ := Option.bind_eq_some_iff.1 h1
        obtain ⟨y, g3, g4⟩ := Option.bind_eq_some_iff.1 g2
        obtain ⟨v, g5, rfl⟩ := Option.map_eq_some_iff.1 g4
        intro z hz
        rcases List.mem_cons.1 hz with rfl | hz
        · dsimp only
          have ht := h.transfer src hthis.1 dst hthis.2
          rw [sentRows_eq, recvRows_eq] at ht
          rw [rows_match (mem src) (mem dst) _ _ hsh ht j x y g1 g3]
          exact hk _ (lookup_pair g5)
        · exact hk z hz
      · cases h1

end Ramwich
