import Verif.Lemmas.Text
import Verif.Lemmas.SpecMvm
import Verif.Model.DataConvert

/-! # Properties of the text formats and of the fixed-point conversion (C55, C56)

`uni` is the unknown table of the decimal digits outside ASCII; the theorems hold for every table. -/
namespace Ramwich

open Spec

theorem parseFormat_of (uni : Char → Option Nat) (s : String) (i f li lf : Nat)
    (h : startsWithFormat uni s i f li lf) (hi : li ≤ maxIntDigits) (hf : lf ≤ maxIntDigits) :
    parseFormat uni s = .ok (i, f) := by
  obtain ⟨ds, es, rest, hs, ⟨hd1, vs, hd2, hd3⟩, ⟨he1, ws, he2, he3⟩, hr, hl, hl'⟩ := h
  have e1 : scanField uni ['Q'] s.toList = some (vs, '.' :: (es ++ rest)) := by
    rw [hs]
    exact scanField_append uni ['Q'] ds vs _ hd1 hd2 (noDigit_lit uni _ _ (by decide) (by decide))
  have e2 : scanField uni ['.'] ('.' :: (es ++ rest)) = some (ws, rest) :=
    scanField_append uni ['.'] es ws rest he1 he2 hr
  have l1 := digits_length uni ds vs hd2
  have l2 := digits_length uni es ws he2
  have p1 : pyIntOfDigits vs = .ok i := by
    unfold pyIntOfDigits
    rw [if_neg (by omega), hd3]
  have p2 : pyIntOfDigits ws = .ok f := by
    unfold pyIntOfDigits
    rw [if_neg (by omega), he3]
  unfold parseFormat
  rw [e1]
  dsimp only
  rw [e2]
  dsimp only
  rw [p1, p2]
  rfl

/-- C55, exact characterisation: a format string is parsed to `(i, f)` exactly when it starts with
`Q<i>.<f>` where `<f>` is followed by no further digit; any text may follow. (The numerals must not have
more than 4300 digits, the limit of Python's `int`.) -/
theorem C55_format_iff (uni : Char → Option Nat) (s : String) (i f : Nat) :
    parseFormat uni s = .ok (i, f) ↔
      ∃ li lf, li ≤ maxIntDigits ∧ lf ≤ maxIntDigits ∧ startsWithFormat uni s i f li lf := by
  constructor
  · intro h
    unfold parseFormat at h
    split at h
    · cases h
    rename_i a r h1
    split at h
    · cases h
    rename_i b rest h2
    obtain ⟨ds, e1, n1, d1, -⟩ := scanField_eq uni _ _ _ _ h1
    obtain ⟨es, e2, n2, d2, hr⟩ := scanField_eq uni _ _ _ _ h2
    have l1 := digits_length uni ds a d1
    have l2 := digits_length uni es b d2
    unfold pyIntOfDigits at h
    split at h
    · cases h
    rename_i hla
    split at h
    · cases h
    rename_i hlb
    injection h with h
    injection h with hi hf
    refine ⟨ds.length, es.length, by omega, by omega, ds, es, rest, ?_, ⟨n1, a, d1, hi.symm⟩,
      ⟨n2, b, d2, hf.symm⟩, hr, rfl, rfl⟩
    rw [e1, e2]; rfl
  · rintro ⟨li, lf, h1, h2, h3⟩
    exact parseFormat_of uni s i f li lf h3 h1 h2

example (uni : Char → Option Nat) : startsWithFormat uni "Q12.07abc" 12 7 2 2 :=
  ⟨['1', '2'], ['0', '7'], ['a', 'b', 'c'], rfl, ⟨by decide, [1, 2], rfl, rfl⟩,
    ⟨by decide, [0, 7], rfl, rfl⟩, noDigit_lit uni _ _ (by decide) (by decide), rfl, rfl⟩

/-- C55, rejection: everything else raises ValueError. -/
theorem C55_format_rejected (uni : Char → Option Nat) (s : String)
    (h : ¬ ∃ i f li lf, li ≤ maxIntDigits ∧ lf ≤ maxIntDigits ∧ startsWithFormat uni s i f li lf) :
    parseFormat uni s = .error .valueError := by
  cases hp : parseFormat uni s with
  | ok v =>
    obtain ⟨li, lf, h'⟩ := (C55_format_iff uni s v.1 v.2).1 hp
    exact absurd ⟨v.1, v.2, li, lf, h'⟩ h
  | error e =>
    unfold parseFormat pyIntOfDigits at hp
    split at hp
    · rw [← hp]
    · split at hp
      · rw [← hp]
      · split at hp
        · rw [← hp]; rfl
        · split at hp
          · rw [← hp]; rfl
          · cases hp

example : parseFormat (fun _ => none) "q1.7" = .error .valueError ∧
    parseFormat (fun _ => none) "Q.7" = .error .valueError ∧
    parseFormat (fun _ => none) "Q1." = .error .valueError ∧
    parseFormat (fun _ => none) " Q1.7" = .error .valueError := by decide +kernel

/-- C55, round trip: the decimal notation of `i` and `f` is parsed back, for all `i` and `f` within
Python's limit, and text after it is ignored when it does not start with a digit. -/
theorem C55_format_round_trip (uni : Char → Option Nat) (i f : Nat) (rest : List Char)
    (hi : i < 10 ^ maxIntDigits) (hf : f < 10 ^ maxIntDigits) (hr : noDigitNext uni rest) :
    parseFormat uni ("Q" ++ toString i ++ "." ++ toString f ++ String.ofList rest) = .ok (i, f) := by
  refine parseFormat_of uni _ i f _ _ ⟨Nat.toDigits 10 i, Nat.toDigits 10 f, rest, ?_,
    numeral_toDigits uni i, numeral_toDigits uni f, hr, rfl, rfl⟩
    ((Nat.length_toDigits_le_iff (by decide) (by decide)).2 hi)
    ((Nat.length_toDigits_le_iff (by decide) (by decide)).2 hf)
  have hi : (toString i).toList = Nat.toDigits 10 i := Nat.toList_repr
  have hf : (toString f).toList = Nat.toDigits 10 f := Nat.toList_repr
  simp only [String.toList_append, hi, hf, String.toList_ofList]
  simp

example : parseFormat (fun _ => none) ("Q" ++ toString 16 ++ "." ++ toString 0 ++ String.ofList [' ', '1'])
    = .ok (16, 0) :=
  C55_format_round_trip _ 16 0 _ (Nat.lt_of_lt_of_le (by decide : 16 < 10 ^ 2) (Nat.pow_le_pow_right (by decide) (by decide)))
    (Nat.pow_pos (by decide)) (noDigit_lit _ _ _ (by decide) (by decide))

/-- C55 for a whole data configuration: it is accepted exactly when every storage letter is one of
`1 2 3 4 s` and both formats parse; the widths are the sums of the two numbers. -/
theorem C55_data_config (uni : Char → Option Nat) (t : DataText) (d : DataConfig) :
    t.parse uni = .ok d ↔
      parseFormat uni t.weightFormat = .ok (d.weightIntBits, d.weightFracBits) ∧
      parseFormat uni t.activationFormat = .ok (d.activationIntBits, d.activationFracBits) ∧
      List.Forall₂ (fun s b => (s, b) ∈ [("1", BitConfig.slc), ("2", .mlc), ("3", .tlc), ("4", .qlc), ("s", .sram)])
        t.storageConfig d.storageConfig := by
  have key : ∀ (s : String) (b : BitConfig), BitConfig.ofString s = .ok b ↔
      (s, b) ∈ [("1", BitConfig.slc), ("2", .mlc), ("3", .tlc), ("4", .qlc), ("s", .sram)] := by
    intro s b
    unfold BitConfig.ofString
    repeat' split
    all_goals cases b <;> simp_all
  have keyM : ∀ (l : List String) (bs : List BitConfig), l.mapM BitConfig.ofString = .ok bs ↔
      List.Forall₂ (fun s b => (s, b) ∈ [("1", BitConfig.slc), ("2", .mlc), ("3", .tlc), ("4", .qlc),
        ("s", .sram)]) l bs := by
    intro l
    induction l with
    | nil =>
      intro bs
      rw [List.mapM_nil]
      constructor
      · intro h; injection h with h; subst h; exact .nil
      · intro h; cases h; rfl
    | cons s l ih =>
      intro bs
      rw [List.mapM_cons]
      constructor
      · intro h
        cases h1 : BitConfig.ofString s with
        | error e => rw [h1] at h; cases h
        | ok b =>
          cases h2 : l.mapM BitConfig.ofString with
          | error e => rw [h1, h2] at h; cases h
          | ok bs' =>
            rw [h1, h2] at h
            injection h with h
            subst h
            exact .cons ((key s b).1 h1) ((ih bs').1 h2)
      · intro h
        cases h with
        | cons hb hbs =>
          rw [(key s _).2 hb, (ih _).2 hbs]
          rfl
  unfold DataText.parse
  constructor
  · intro h
    cases h1 : t.storageConfig.mapM BitConfig.ofString with
    | error e => rw [h1] at h; cases h
    | ok st =>
      cases h2 : parseFormat uni t.weightFormat with
      | error e => rw [h1, h2] at h; cases h
      | ok w =>
        cases h3 : parseFormat uni t.activationFormat with
        | error e => rw [h1, h2, h3] at h; cases h
        | ok a =>
          rw [h1, h2, h3] at h
          injection h with h
          subst h
          exact ⟨rfl, rfl, (keyM _ _).1 h1⟩
  · rintro ⟨h2, h3, h1⟩
    rw [(keyM _ _).2 h1, h2, h3]
    rfl

example : DataText.parse (fun _ => none)
      { storageConfig := ["2", "s", "4"], weightFormat := "Q1.6", activationFormat := "Q3.5x" } =
    .ok { storageConfig := [.mlc, .sram, .qlc], weightIntBits := 1, weightFracBits := 6,
          activationIntBits := 3, activationFracBits := 5 } := by decide +kernel

/-- C56: the fixed-point integer of `x` is within half a step of `x`, no other integer is nearer, and if
two are equally near it is the even one. -/
theorem C56_float_to_fixed_nearest (x : ℚ) (frac : Nat) :
    |x - (floatToFixed x frac : ℚ) / 2 ^ frac| ≤ 1 / 2 / 2 ^ frac ∧
    ∀ n : Int, |x - (floatToFixed x frac : ℚ) / 2 ^ frac| ≤ |x - (n : ℚ) / 2 ^ frac| ∧
      (|x - (n : ℚ) / 2 ^ frac| = |x - (floatToFixed x frac : ℚ) / 2 ^ frac| → n ≠ floatToFixed x frac →
        floatToFixed x frac % 2 = 0) := by
  have hp : (0 : ℚ) < 2 ^ frac := by positivity
  have scale : ∀ m : ℚ, |x - m / 2 ^ frac| = |x * 2 ^ frac - m| / 2 ^ frac := by
    intro m
    rw [← abs_of_pos hp, ← abs_div, abs_of_pos hp, sub_div, mul_div_assoc, div_self hp.ne', mul_one]
  have h1 := roundHalfEven_le (x * 2 ^ frac)
  simp only [scale]
  refine ⟨div_le_div_of_nonneg_right h1 hp.le, fun n => ?_⟩
  by_cases hn : n = floatToFixed x frac
  · subst hn; exact ⟨le_rfl, fun _ h => absurd rfl h⟩
  have hd : (1 : ℚ) ≤ |(n : ℚ) - (floatToFixed x frac : ℚ)| := by
    have : (1 : Int) ≤ |n - floatToFixed x frac| := Int.one_le_abs (sub_ne_zero.2 hn)
    exact_mod_cast this
  have tri : |(n : ℚ) - (floatToFixed x frac : ℚ)| ≤
      |x * 2 ^ frac - floatToFixed x frac| + |x * 2 ^ frac - n| := by
    have := abs_sub_le (n : ℚ) (x * 2 ^ frac) (floatToFixed x frac)
    rw [abs_sub_comm (n : ℚ) (x * 2 ^ frac)] at this
    linarith
  have h1' : |x * 2 ^ frac - (floatToFixed x frac : ℚ)| ≤ 1 / 2 := h1
  refine ⟨div_le_div_of_nonneg_right (by linarith) hp.le, fun heq _ => ?_⟩
  have heq' : |x * 2 ^ frac - (n : ℚ)| = |x * 2 ^ frac - (floatToFixed x frac : ℚ)| := by
    have := (div_left_inj' hp.ne').1 heq
    exact this
  have hhalf : |x * 2 ^ frac - (floatToFixed x frac : ℚ)| = 1 / 2 := by linarith
  unfold floatToFixed at hhalf ⊢
  generalize x * 2 ^ frac = q at hhalf
  unfold roundHalfEven at hhalf ⊢
  have f0 : (0 : ℚ) ≤ q - ⌊q⌋ := by linarith [Int.floor_le q]
  have f1 : q - ⌊q⌋ < 1 := by linarith [Int.lt_floor_add_one q]
  dsimp only at hhalf ⊢
  split at hhalf
  · rename_i h; rw [abs_of_nonneg f0] at hhalf; linarith
  · rename_i h
    split at hhalf
    · rename_i h2
      push_cast at hhalf
      rw [abs_of_neg (by linarith)] at hhalf
      linarith
    · rename_i h2
      rw [if_neg h, if_neg h2]
      split
      · assumption
      · omega

example : floatToFixed (5 / 32) 4 = 2 ∧ floatToFixed (7 / 32) 4 = 4 ∧ floatToFixed (-3 / 32) 4 = -2 ∧
    floatToFixed (11 / 64) 4 = 3 := by decide +kernel

/-- C56: converting to float and back is the identity, for every integer and number of fraction bits. -/
theorem C56_fixed_round_trip (n : Int) (frac : Nat) : floatToFixed (fixedToFloat n frac) frac = n := by
  have hp : (2 : ℚ) ^ frac ≠ 0 := by positivity
  unfold floatToFixed fixedToFloat
  rw [div_mul_cancel₀ _ hp, roundHalfEven_intCast]

example : fixedToFloat (-19) 4 = -19 / 16 ∧ floatToFixed (fixedToFloat (-19) 4) 4 = -19 :=
  ⟨by norm_num [fixedToFloat], C56_fixed_round_trip _ _⟩

/-- C56: the other direction moves a value by at most half a step, and not at all on the grid. -/
theorem C56_float_round_trip (x : ℚ) (frac : Nat) :
    |fixedToFloat (floatToFixed x frac) frac - x| ≤ 1 / 2 / 2 ^ frac := by
  rw [abs_sub_comm]
  exact (C56_float_to_fixed_nearest x frac).1

example : fixedToFloat (floatToFixed (1 / 3) 4) 4 = 5 / 16 := by decide +kernel

end Ramwich
