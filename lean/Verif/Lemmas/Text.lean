import Verif.Spec.Text

/-! # The scanner agrees with the description by concatenation -/
namespace Ramwich

open Spec

theorem digitVal_ascii (uni : Char → Option Nat) (c : Char) (h : c.isDigit = true) :
    digitVal uni c = some (c.toNat - 48) := by simp [digitVal, h]

theorem scanLit_append (l r : List Char) : scanLit l (l ++ r) = some r := by
  induction l with
  | nil => rfl
  | cons a l ih => simp [scanLit, ih]

theorem scanLit_eq (l s r : List Char) (h : scanLit l s = some r) : s = l ++ r := by
  induction l generalizing s with
  | nil => simpa [scanLit] using h
  | cons a l ih =>
    cases s with
    | nil => simp [scanLit] at h
    | cons c cs =>
      simp only [scanLit] at h
      split at h
      · rename_i hac; subst hac; rw [ih cs h]; rfl
      · cases h

theorem scanDigits_spec (uni : Char → Option Nat) (s : List Char) :
    ∃ ds, s = ds ++ (scanDigits uni s).2 ∧
      ds.map (digitVal uni) = (scanDigits uni s).1.map some ∧
      noDigitNext uni (scanDigits uni s).2 := by
  induction s with
  | nil => exact ⟨[], rfl, rfl, by simp [noDigitNext, scanDigits]⟩
  | cons c cs ih =>
    unfold scanDigits
    cases h : digitVal uni c with
    | none => exact ⟨[], rfl, rfl, by simp [noDigitNext, h]⟩
    | some v =>
      obtain ⟨ds, e1, e2, e3⟩ := ih
      exact ⟨c :: ds, by rw [List.cons_append, ← e1], by simp [h, e2], e3⟩

theorem scanDigits_append (uni : Char → Option Nat) (ds : List Char) (vs : List Nat) (rest : List Char)
    (h : ds.map (digitVal uni) = vs.map some) (hr : noDigitNext uni rest) :
    scanDigits uni (ds ++ rest) = (vs, rest) := by
  induction ds generalizing vs with
  | nil =>
    cases vs with
    | cons _ _ => simp at h
    | nil =>
      cases rest with
      | nil => rfl
      | cons c cs => simp [scanDigits, hr c (by simp)]
  | cons d ds ih =>
    cases vs with
    | nil => simp at h
    | cons v vs =>
      simp only [List.map_cons, List.cons.injEq] at h
      simp [scanDigits, h.1, ih vs h.2]

theorem scanField_append (uni : Char → Option Nat) (l ds : List Char) (vs : List Nat) (rest : List Char)
    (hne : ds ≠ []) (h : ds.map (digitVal uni) = vs.map some) (hr : noDigitNext uni rest) :
    scanField uni l (l ++ (ds ++ rest)) = some (vs, rest) := by
  unfold scanField
  rw [scanLit_append]
  dsimp only
  rw [scanDigits_append uni ds vs rest h hr]
  cases vs with
  | nil => simp at h; exact absurd h hne
  | cons => rfl

theorem scanField_eq (uni : Char → Option Nat) (l s : List Char) (vs : List Nat) (rest : List Char)
    (h : scanField uni l s = some (vs, rest)) :
    ∃ ds, s = l ++ (ds ++ rest) ∧ ds ≠ [] ∧ ds.map (digitVal uni) = vs.map some ∧
      noDigitNext uni rest := by
  unfold scanField at h
  split at h
  · cases h
  · rename_i r hl
    obtain ⟨ds, e1, e2, e3⟩ := scanDigits_spec uni r
    have hs := scanLit_eq l s r hl
    split at h
    · cases h
    · rename_i d ds' rest' hd
      injection h with h
      injection h with h1 h2
      subst h1 h2
      rw [hd] at e1 e2 e3
      refine ⟨ds, by rw [hs, ← e1], ?_, e2, e3⟩
      intro hn; subst hn; simp at e2

theorem noDigit_lit (uni : Char → Option Nat) (c : Char) (cs : List Char) (h : c.isDigit = false)
    (h' : c.toNat < 128) : noDigitNext uni (c :: cs) := by
  intro x hx; simp at hx; subst hx; simp [digitVal, h, h']

theorem digits_length (uni : Char → Option Nat) (ds : List Char) (vs : List Nat)
    (h : ds.map (digitVal uni) = vs.map some) : vs.length = ds.length := by
  have := congrArg List.length h; simpa using this.symm

theorem digits_unique (uni : Char → Option Nat) (ds : List Char) (vs ws : List Nat)
    (h : ds.map (digitVal uni) = vs.map some) (h' : ds.map (digitVal uni) = ws.map some) : vs = ws := by
  have e : vs.map some = ws.map some := h.symm.trans h'
  exact List.map_injective_iff.mpr (Option.some_injective _) e

/-- Printing a number in decimal gives a numeral for it. -/
theorem numeral_toDigits (uni : Char → Option Nat) (n : Nat) : isNumeral uni (Nat.toDigits 10 n) n := by
  refine ⟨Nat.toDigits_ne_nil, (Nat.toDigits 10 n).map fun c => c.toNat - 48, ?_, ?_⟩
  · rw [List.map_map]
    apply List.map_congr_left
    intro c hc
    exact digitVal_ascii uni c (Nat.isDigit_of_mem_toDigits (by decide) (by decide) hc)
  · have h := Nat.ofDigitChars_ten_toDigits (n := n)
    rw [Nat.ofDigitChars_eq_foldl] at h
    rw [List.foldl_map]
    exact h.symm

end Ramwich
