import Verif.Lemmas.Loader
import Verif.Lemmas.Text

/-! # Lemmas about loading weights and activations -/
namespace Ramwich
open Spec

theorem pyInt_numeral (ds : List Char) (vs : List Nat) (uni : Char → Option Nat) (n : Nat)
    (h : ds.map (digitVal uni) = vs.map some) (hn : n = vs.foldl (fun a d => 10 * a + d) 0) :
    pyIntOfDigits vs = if maxIntDigits < ds.length then .error .valueError else .ok n := by
  unfold pyIntOfDigits
  rw [digits_length uni ds vs h, hn]

theorem noDigit_tail (uni : Char → Option Nat) (t : List Char) (h : t = [] ∨ t = ['\n']) :
    noDigitNext uni t := by
  rcases h with rfl | rfl
  · simp [noDigitNext]
  · exact noDigit_lit uni _ _ (by decide) (by decide)

/-- A key of the right form is matched, and its numbers are read. -/
theorem matchKey_of (uni : Char → Option Nat) (s : String) (a b c d l : Nat)
    (h : isWeightKey uni s a b c d l) :
    ∃ g, matchKey uni s = some g ∧
      keyIds g = if maxIntDigits < l then .error .valueError else .ok (a, b, c, d) := by
  obtain ⟨da, db, dc, dd, tail, hs, ht, ⟨ha1, va, ha2, ha3⟩, ⟨hb1, vb, hb2, hb3⟩, ⟨hc1, vc, hc2, hc3⟩,
    ⟨hd1, vd, hd2, hd3⟩, hl⟩ := h
  have n1 : "node".toList = ['n', 'o', 'd', 'e'] := by decide
  have n2 : "_tile".toList = ['_', 't', 'i', 'l', 'e'] := by decide
  have n3 : "_core".toList = ['_', 'c', 'o', 'r', 'e'] := by decide
  have n4 : "_mvmu".toList = ['_', 'm', 'v', 'm', 'u'] := by decide
  rw [n1, n2, n3, n4] at hs
  have hs' : s.toList = ['n', 'o', 'd', 'e'] ++ (da ++ (['_', 't', 'i', 'l', 'e'] ++ (db ++
      (['_', 'c', 'o', 'r', 'e'] ++ (dc ++ (['_', 'm', 'v', 'm', 'u'] ++ (dd ++ tail))))))) := by
    rw [hs]; simp only [List.append_assoc]
  have u1 : ∀ r, noDigitNext uni (['_', 't', 'i', 'l', 'e'] ++ r) :=
    fun r => noDigit_lit uni _ _ (by decide) (by decide)
  have u2 : ∀ r, noDigitNext uni (['_', 'c', 'o', 'r', 'e'] ++ r) :=
    fun r => noDigit_lit uni _ _ (by decide) (by decide)
  have u3 : ∀ r, noDigitNext uni (['_', 'm', 'v', 'm', 'u'] ++ r) :=
    fun r => noDigit_lit uni _ _ (by decide) (by decide)
  refine ⟨(va, vb, vc, vd), ?_, ?_⟩
  · unfold matchKey
    rw [hs', scanField_append uni _ da va _ ha1 ha2 (u1 _)]
    dsimp only
    rw [scanField_append uni _ db vb _ hb1 hb2 (u2 _)]
    dsimp only
    rw [scanField_append uni _ dc vc _ hc1 hc2 (u3 _)]
    dsimp only
    rw [scanField_append uni _ dd vd _ hd1 hd2 (noDigit_tail uni tail ht)]
    dsimp only
    have : atEnd tail = true := by unfold atEnd; exact decide_eq_true ht
    rw [if_pos this]
  · unfold keyIds
    dsimp only
    rw [pyInt_numeral da va uni a ha2 ha3, pyInt_numeral db vb uni b hb2 hb3, pyInt_numeral dc vc uni c hc2 hc3,
      pyInt_numeral dd vd uni d hd2 hd3]
    clear hs hs'
    by_cases h1 : maxIntDigits < da.length
    · have h : maxIntDigits < l := by omega
      simp only [h1, h, if_true]; rfl
    by_cases h2 : maxIntDigits < db.length
    · have h : maxIntDigits < l := by omega
      simp only [h1, h2, h, if_true, if_false]; rfl
    by_cases h3 : maxIntDigits < dc.length
    · have h : maxIntDigits < l := by omega
      simp only [h1, h2, h3, h, if_true, if_false]; rfl
    by_cases h4 : maxIntDigits < dd.length
    · have h : maxIntDigits < l := by omega
      simp only [h1, h2, h3, h4, h, if_true, if_false]; rfl
    have h : ¬ maxIntDigits < l := by omega
    simp only [h1, h2, h3, h4, h, if_false]; rfl

/-- Only keys of the right form are matched. -/
theorem matchKey_some (uni : Char → Option Nat) (s : String) (g : List Nat × List Nat × List Nat × List Nat)
    (h : matchKey uni s = some g) : ∃ a b c d l, isWeightKey uni s a b c d l := by
  unfold matchKey at h
  split at h
  · cases h
  rename_i va r1 h1
  split at h
  · cases h
  rename_i vb r2 h2
  split at h
  · cases h
  rename_i vc r3 h3
  split at h
  · cases h
  rename_i vd r4 h4
  split at h
  · rename_i hend
    obtain ⟨da, e1, n1, d1, -⟩ := scanField_eq uni _ _ _ _ h1
    obtain ⟨db, e2, n2, d2, -⟩ := scanField_eq uni _ _ _ _ h2
    obtain ⟨dc, e3, n3, d3, -⟩ := scanField_eq uni _ _ _ _ h3
    obtain ⟨dd, e4, n4, d4, -⟩ := scanField_eq uni _ _ _ _ h4
    refine ⟨_, _, _, _, _, da, db, dc, dd, r4, ?_, of_decide_eq_true hend, ⟨n1, va, d1, rfl⟩, ⟨n2, vb, d2, rfl⟩,
      ⟨n3, vc, d3, rfl⟩, ⟨n4, vd, d4, rfl⟩, rfl⟩
    rw [e1, e2, e3, e4]
    have m1 : "node".toList = ['n', 'o', 'd', 'e'] := by decide
    have m2 : "_tile".toList = ['_', 't', 'i', 'l', 'e'] := by decide
    have m3 : "_core".toList = ['_', 'c', 'o', 'r', 'e'] := by decide
    have m4 : "_mvmu".toList = ['_', 'm', 'v', 'm', 'u'] := by decide
    rw [m1, m2, m3, m4]
    simp only [List.append_assoc]
  · cases h

/-! ## Addressing by numbers -/

theorem updTile_nat (s : Sim) (a b : Nat) (f : TileObj → Except PyErr TileObj) :
    s.updTile a b f = match tileAt s a b with
      | none => .error .indexError
      | some x => match f x with
        | .error e => .error e
        | .ok y => .ok (setTile s a b y) := by
  cases hx : tileAt s a b with
  | none =>
    apply updTile_none
    intro a' nd b' ha hn hb
    obtain ⟨x, hx'⟩ := tileAt_of_position s a' nd hn b b' hb
    have ha' : a' = a := by
      by_cases hl : a < s.nodes.length
      · rw [position_nat _ _ hl] at ha; cases ha; rfl
      · rw [position_nat_none _ _ (by omega)] at ha; cases ha
    have hb' : b' = b := by
      by_cases hl : b < nd.tiles.length
      · rw [position_nat _ _ hl] at hb; cases hb; rfl
      · rw [position_nat_none _ _ (by omega)] at hb; cases hb
    subst ha' hb'
    rw [hx] at hx'
    cases hx'
  | some x =>
    cases hn : nodeAt s a with
    | none => simp [tileAt, hn] at hx
    | some nd =>
      have h1 : a < s.nodes.length := (List.getElem?_eq_some_iff.1 hn).1
      have hx' : nd.tiles[b]? = some x := by unfold tileAt at hx; rw [hn] at hx; exact hx
      have h2 : b < nd.tiles.length := (List.getElem?_eq_some_iff.1 hx').1
      exact updTile_some s a b f a b nd x (position_nat _ _ h1) hn (position_nat _ _ h2) hx

theorem updCore_nat (t : TileObj) (c : Nat) (f : CoreObj → Except PyErr CoreObj) :
    t.updCore c f = match t.cores[c]? with
      | none => .error .indexError
      | some o => match f o with
        | .error e => .error e
        | .ok o' => .ok (t.setCore c o') := by
  cases ho : t.cores[c]? with
  | none =>
    have := List.getElem?_eq_none_iff.1 ho
    exact updCore_none t c f (position_nat_none _ _ this)
  | some o =>
    have := (List.getElem?_eq_some_iff.1 ho).1
    exact updCore_some t c f c o (position_nat _ _ this) ho

/-! ## One array -/

/-- MVMU `d` replaced. -/
def CoreObj.setMvmu (o : CoreObj) (d : Nat) (m : Mvmu) : CoreObj :=
  { o with core := { o.core with mvmus := o.core.mvmus.set d m } }

theorem coreObj_load (o : CoreObj) (d : Nat) (w : NpzArray) :
    o.loadWeights d w = match w with
      | .other => .error .valueError
      | .matrix rows => match o.core.mvmus[d]? with
        | none => .error .indexError
        | some m => match m.loadWeights rows with
          | .error e => .error e
          | .ok m' => .ok (o.setMvmu d m') := by
  unfold CoreObj.loadWeights
  cases w with
  | other => rfl
  | matrix rows =>
    dsimp only
    unfold Core.loadWeights Core.getMvmu
    cases hm : o.core.mvmus[d]? with
    | none =>
      have hl := List.getElem?_eq_none_iff.1 hm
      have h : (d : Int) < 0 ∨ (d : Int) ≥ o.core.mvmus.length := by omega
      simp only [h, if_true]
    | some m =>
      have hl := (List.getElem?_eq_some_iff.1 hm).1
      have h : ¬ ((d : Int) < 0 ∨ (d : Int) ≥ o.core.mvmus.length) := by omega
      simp only [h, if_false, Int.toNat_natCast, hm]
      cases m.loadWeights rows <;> rfl

/-- The weights of one array in one MVMU. -/
theorem loadUnit_eq (s : Sim) (a b c d : Nat) (w : NpzArray) :
    (∃ x o m rows m', tileAt s a b = some x ∧ x.cores[c]? = some o ∧ o.core.mvmus[d]? = some m ∧
      w = .matrix rows ∧ m.loadWeights rows = .ok m' ∧
      s.loadUnit a b c d w = setTile s a b (x.setCore c (o.setMvmu d m'))) ∨
    ((∀ m rows m', mvmuAt s a b c d = some m → w = .matrix rows → m.loadWeights rows ≠ .ok m') ∧
      s.loadUnit a b c d w = s) := by
  unfold Sim.loadUnit
  rw [updTile_nat]
  cases hx : tileAt s a b with
  | none => exact .inr ⟨fun m rows m' h => by simp [mvmuAt, coreAt, hx] at h, rfl⟩
  | some x =>
    dsimp only
    rw [updCore_nat]
    cases ho : x.cores[c]? with
    | none => exact .inr ⟨fun m rows m' h => by simp [mvmuAt, coreAt, hx, ho] at h, rfl⟩
    | some o =>
      dsimp only
      rw [coreObj_load]
      cases w with
      | other => exact .inr ⟨fun m rows m' h h' => (by cases h'), rfl⟩
      | matrix rows =>
        dsimp only
        cases hm : o.core.mvmus[d]? with
        | none => exact .inr ⟨fun m rows m' h => by simp [mvmuAt, coreAt, hx, ho, hm] at h, rfl⟩
        | some m =>
          dsimp only
          cases hw : m.loadWeights rows with
          | error e =>
            refine .inr ⟨fun m1 rows1 m' h h' => ?_, rfl⟩
            simp [mvmuAt, coreAt, hx, ho, hm] at h
            cases h'
            subst h
            rw [hw]
            simp
          | ok m' => exact .inl ⟨x, o, m, rows, m', rfl, ho, hm, rfl, hw, rfl⟩

theorem mvmuAt_set (s : Sim) (a b c d : Nat) (x : TileObj) (o : CoreObj) (m m' : Mvmu)
    (hx : tileAt s a b = some x) (ho : x.cores[c]? = some o) (hm : o.core.mvmus[d]? = some m) (a' b' c' d' : Nat) :
    mvmuAt (setTile s a b (x.setCore c (o.setMvmu d m'))) a' b' c' d'
      = if a = a' ∧ b = b' ∧ c = c' ∧ d = d' then some m' else mvmuAt s a' b' c' d' := by
  unfold mvmuAt
  rw [coreAt_setCore s a b c x _ hx]
  have hco : coreAt s a b c = some o := by unfold coreAt; rw [hx]; exact ho
  by_cases h : a = a' ∧ b = b' ∧ c = c'
  · obtain ⟨rfl, rfl, rfl⟩ := h
    simp only [hco, true_and, if_true, Option.map_some, Option.bind_some, CoreObj.setMvmu]
    have hl := (List.getElem?_eq_some_iff.1 hm).1
    by_cases hd : d = d'
    · subst hd
      simp [hl]
    · simp [hd]
  · rw [if_neg h, if_neg (by tauto)]

def stripMvmus (t : TileObj) : TileObj :=
  { t with cores := t.cores.map fun o => { o with core := { o.core with mvmus := [] } } }

theorem withoutMvmus_eq (s : Sim) : withoutMvmus s = mapTiles stripMvmus s := rfl

theorem stripMvmus_set (x : TileObj) (c d : Nat) (o : CoreObj) (m' : Mvmu) (ho : x.cores[c]? = some o) :
    stripMvmus (x.setCore c (o.setMvmu d m')) = stripMvmus x := by
  simp only [stripMvmus, TileObj.setCore]
  congr 1
  apply List.ext_getElem?
  intro i
  rw [List.getElem?_map, List.getElem?_map, List.getElem?_set]
  by_cases hi : c = i
  · subst hi
    have hl : c < x.cores.length := (List.getElem?_eq_some_iff.1 ho).1
    rw [ho]
    simp [hl, CoreObj.setMvmu]
  · simp [hi]

theorem loadAll_append (uni : Char → Option Nat) (xs ys : List (String × NpzArray)) : ∀ s : Sim,
    s.loadAll uni (xs ++ ys) = match s.loadAll uni xs with
      | (.error e, s') => (.error e, s')
      | (.ok _, s') => s'.loadAll uni ys := by
  induction xs with
  | nil => intro s; rfl
  | cons p xs ih =>
    intro s
    obtain ⟨key, w⟩ := p
    simp only [List.cons_append, Sim.loadAll]
    split
    · exact ih s
    · split
      · rfl
      · exact ih _

theorem rram_reload (cfg : MVMUConfig) (x x' : RRAMXbar) (w w' : List (List (List ℚ)))
    (h : x.loadWeights cfg w = .ok x') : x'.loadWeights cfg w' = x.loadWeights cfg w' := by
  unfold RRAMXbar.loadWeights at h ⊢
  split at h
  · cases h
  · cases h; rfl

theorem sram_reload (cfg : MVMUConfig) (x x' : SRAMCim) (w w' : List (List (List Int)))
    (h : x.loadWeights cfg w = .ok x') : x'.loadWeights cfg w' = x.loadWeights cfg w' := by
  unfold SRAMCim.loadWeights at h ⊢
  split at h
  · cases h
  · cases h; rfl

/-- What was loaded before does not matter. -/
theorem reload (m m' : Mvmu) (w w' : List (List ℚ)) (h : m.loadWeights w = .ok m') :
    m'.loadWeights w' = m.loadWeights w' := by
  unfold Mvmu.loadWeights at h
  split at h
  · cases h
  simp only [bind, Except.bind] at h
  split at h
  · cases h
  rename_i acc hacc
  split at h
  · cases h
  rename_i r hr
  split at h
  · cases h
  rename_i sr hs
  cases h
  unfold Mvmu.loadWeights
  have e1 : ∀ v, ({ m with rram := r, sram := sr } : Mvmu).loadRram v = m.loadRram v := by
    intro v
    unfold Mvmu.loadRram at hr ⊢
    split at hr
    · rename_i hc
      simp only [hc, if_true]
      exact rram_reload _ _ _ _ _ hr
    · rename_i hc
      simp only [hc]
      cases hr
      rfl
  have e2 : ∀ v, ({ m with rram := r, sram := sr } : Mvmu).loadSram v = m.loadSram v := by
    intro v
    unfold Mvmu.loadSram at hs ⊢
    split at hs
    · rename_i hc
      simp only [hc, if_true]
      exact sram_reload _ _ _ _ _ hs
    · rename_i hc
      simp only [hc]
      cases hs
      rfl
  dsimp only
  simp only [e1, e2]
  rfl

end Ramwich
