import Verif.Lemmas.TimedNetStop

/-! # When `add_send_packet` returns -/
namespace Ramwich

open Spec
open Pipeline (upd)

/-- The calls of one router that have not returned. -/
structure AddInv (l now : Nat) (queued returned adds : List Nat) (adding : Nat) : Prop where
  split : queued.map (· + l) = returned ++ adds
  len : adding = adds.length
  ge : ∀ x ∈ adds, now ≤ x
  sorted : queued.Pairwise (· ≤ ·)

def AddsOk (addLat : Int) (now : Nat) (n : Net) (k : NetClock) : Prop :=
  ∀ i, AddInv addLat.toNat now (k.queued i) (k.returned i) (k.adds i) (n.adding i)

theorem addInv_init (addLat : Int) : AddsOk addLat 0 {} {} := by
  intro i; constructor <;> simp

/-- Nothing is overdue if the first call is not. -/
theorem addInv_tick {l now : Nat} {queued returned adds : List Nat} {adding : Nat}
    (h : AddInv l now queued returned adds adding) (hh : adds.head? ≠ some now) : ∀ x ∈ adds, now + 1 ≤ x := by
  have hs : (returned ++ adds).Pairwise (· ≤ ·) := by
    rw [← h.split, List.pairwise_map]
    exact h.sorted.imp (by intro a b; omega)
  have hs2 := (List.pairwise_append.1 hs).2.1
  have hge := h.ge
  cases adds with
  | nil => intro x hx; cases hx
  | cons a as =>
    have ha : now + 1 ≤ a := by
      have := hge a (by simp)
      have : a ≠ now := fun e => hh (by rw [e]; rfl)
      omega
    intro x hx
    rcases List.mem_cons.1 hx with rfl | hx
    · exact ha
    · exact le_trans ha ((List.pairwise_cons.1 hs2).1 x hx)

theorem adds_head {c : NetConfig} {addLat : Int} {now : Nat} {n : Net} {k : NetClock} {i : Nat} (h : NetTimes c now n k)
    (q : NetQuiet c now n k) (ha : AddInv addLat.toNat now (k.queued i) (k.returned i) (k.adds i) (n.adding i)) :
    (k.adds i).head? ≠ some now := by
  intro hh
  by_cases hi : i < c.tiles
  · have h1 := q.adds i hi hh
    have h2 := ha.len
    rw [h1] at h2
    rw [List.eq_nil_of_length_eq_zero h2.symm] at hh
    cases hh
  · have h1 := (h.inv.quiet i hi).2.2.2
    have h2 := (h.router i).lenQ
    simp only [rvOf, h1, List.length_nil] at h2
    have h3 := ha.split
    rw [List.eq_nil_of_length_eq_zero h2] at h3
    have h4 := (List.append_eq_nil_iff.1 h3.symm).2
    rw [h4] at hh
    cases hh

theorem addInv_act {c : NetConfig} {addLat : Int} {n n' : Net} {k k' : NetClock} {now : Nat} {a : NetAct}
    (h : NetTimes c now n k) (ha : AddsOk addLat now n k) (hn : n.act c a = some n')
    (hk : k.step c addLat n now a = some k') : AddsOk addLat now n' k' := by
  obtain ⟨-, hi, hn⟩ := net_act_cases hn
  cases a with
  | send i t data =>
    obtain ⟨rfl, -⟩ := sendIf_send hn
    injection hk with hk
    subst hk
    intro j
    have hj0 := ha j
    by_cases hj : j = i
    · subst hj
      simp only [Net.send, upd_same]
      refine ⟨?_, ?_, ?_, ?_⟩
      · rw [List.map_append, hj0.split]; simp
      · rw [hj0.len]; simp
      · intro x hx
        rcases List.mem_append.1 hx with hx | hx
        · exact hj0.ge x hx
        · rw [List.mem_singleton.1 hx]; omega
      · rw [List.pairwise_append]
        refine ⟨hj0.sorted, by simp, fun a ha b hb => ?_⟩
        rw [List.mem_singleton.1 hb]
        exact (h.router j).leQ a ha
    · simp only [Net.send, upd_ne _ _ _ _ hj]
      exact hj0
  | added i =>
    dsimp only at hn
    unfold Net.added at hn
    dsimp only [NetClock.step] at hk
    split at hn
    · cases hn
    rename_i m hm
    split at hk
    · cases hk
    rename_i d rest hd
    split at hk
    swap
    · cases hk
    rename_i he
    injection hn with hn; injection hk with hk; subst hn; subst hk
    intro j
    have hj0 := ha j
    by_cases hj : j = i
    · subst hj
      dsimp only
      rw [upd_same, upd_same, upd_same]
      refine ⟨?_, ?_, ?_, hj0.sorted⟩
      · rw [hj0.split, hd, he]; simp
      · have := hj0.len; rw [hm, hd] at this; simpa using this
      · intro x hx; exact hj0.ge x (by rw [hd]; simp [hx])
    · dsimp only
      rw [upd_ne _ _ _ _ hj, upd_ne _ _ _ _ hj, upd_ne _ _ _ _ hj]
      exact hj0
  | thread i =>
    have hk' : k'.queued = k.queued ∧ k'.returned = k.returned ∧ k'.adds = k.adds := by
      dsimp only [NetClock.step] at hk
      split at hk
      · injection hk with hk; subst hk; exact ⟨rfl, rfl, rfl⟩
      · injection hk with hk; subst hk; exact ⟨rfl, rfl, rfl⟩
      · split at hk
        · injection hk with hk; subst hk; exact ⟨rfl, rfl, rfl⟩
        · cases hk
      · injection hk with hk; subst hk; exact ⟨rfl, rfl, rfl⟩
      · injection hk with hk; subst hk; exact ⟨rfl, rfl, rfl⟩
      · injection hk with hk; subst hk; exact ⟨rfl, rfl, rfl⟩
    have hn' : n'.adding = n.adding := by
      dsimp only at hn
      unfold Net.thread at hn
      split at hn
      · cases hn
      split at hn
      · split at hn
        · cases hn
        · injection hn with hn; subst hn; rfl
      · split at hn
        · injection hn with hn; subst hn; rfl
        split at hn
        · injection hn with hn; subst hn; rfl
        split at hn <;> injection hn with hn <;> subst hn <;> rfl
      · split at hn <;> injection hn with hn <;> subst hn <;> rfl
      · dsimp only at hn
        split at hn
        · injection hn with hn; subst hn; rfl
        · cases hn
      · injection hn with hn; subst hn; rfl
      · injection hn with hn; subst hn; rfl
    intro j
    rw [hk'.1, hk'.2.1, hk'.2.2, hn']
    exact ha j
  | startRead i src =>
    injection hk with hk
    dsimp only at hn
    unfold Net.startRead at hn
    split at hn
    swap
    · cases hn
    split at hn <;> injection hn with hn <;> subst hn <;> subst hk <;> exact ha
  | take i =>
    dsimp only at hn
    unfold Net.take at hn
    dsimp only [NetClock.step] at hk
    split at hn
    swap
    · cases hn
    rename_i hr
    rw [hr] at hk
    split at hn
    · cases hn
    injection hn with hn; injection hk with hk; subst hn; subst hk; exact ha
  | readDone i =>
    injection hk with hk
    obtain ⟨x, hn⟩ := hn
    unfold Net.readDone at hn
    split at hn
    swap
    · cases hn
    injection hn with hn
    injection hn with hn _
    subst hn; subst hk; exact ha
  | halt i =>
    injection hk with hk
    dsimp only at hn
    unfold Net.halt at hn
    split at hn
    · injection hn with hn; subst hn; subst hk; exact ha
    · cases hn
  | stopStep i =>
    have hk' : k'.queued = k.queued ∧ k'.returned = k.returned ∧ k'.adds = k.adds := by
      dsimp only [NetClock.step] at hk
      split at hk
      · split at hk
        · injection hk with hk; subst hk; exact ⟨rfl, rfl, rfl⟩
        · cases hk
      · split at hk <;> injection hk with hk <;> subst hk <;> exact ⟨rfl, rfl, rfl⟩
      · injection hk with hk; subst hk; exact ⟨rfl, rfl, rfl⟩
      · injection hk with hk; subst hk; exact ⟨rfl, rfl, rfl⟩
    have hn' : n'.adding = n.adding := by
      rcases stopStep_idle h.stop hn with ⟨h3, h4, h5⟩ | ⟨h3, h4, h5⟩ | ⟨h3, h4, h5⟩ <;> subst h5 <;> rfl
    intro j
    rw [hk'.1, hk'.2.1, hk'.2.2, hn']
    exact ha j

theorem addInv_tact {c : NetConfig} {addLat : Int} {s s' : TNet} {a : TNetAct} (h : NetTimes c s.now s.net s.clk)
    (ha : AddsOk addLat s.now s.net s.clk) (hs : s.act c addLat a = some s') : AddsOk addLat s'.now s'.net s'.clk := by
  unfold TNet.act at hs
  split at hs
  · cases hs
  rename_i hc
  have hc0 : s.net.crashed = none := by simpa using hc
  split at hs
  · split at hs
    swap
    · cases hs
    rename_i n k hn hk
    injection hs with hs
    subst hs
    by_cases hcr : n.crashed = none
    · have := addInv_act h ha hn hk
      simpa [hcr] using this
    · obtain ⟨e, rfl⟩ := net_act_crash hn hcr
      have e1 : (s.net.crash e).crashed.isSome = true := rfl
      dsimp only
      rw [if_pos e1]
      exact ha
  · split at hs
    swap
    · cases hs
    rw [Option.map_eq_some_iff] at hs
    obtain ⟨k, hk, rfl⟩ := hs
    unfold NetClock.recheck at hk
    split at hk
    swap
    · cases hk
    split at hk
    swap
    · cases hk
    injection hk with hk
    subst hk
    exact ha
  · rw [Option.map_eq_some_iff] at hs
    obtain ⟨k, hk, rfl⟩ := hs
    unfold NetClock.monitor at hk
    split at hk
    swap
    · cases hk
    injection hk with hk
    subst hk
    exact ha
  · split at hs
    swap
    · cases hs
    rename_i hq
    injection hs with hs
    subst hs
    intro i
    exact ⟨(ha i).split, (ha i).len, addInv_tick (ha i) (adds_head h (netQuiet_of h hc0 hq) (ha i)), (ha i).sorted⟩

theorem addInv_run {c : NetConfig} {addLat : Int} (as : List TNetAct) :
    ∀ {s s' : TNet}, NetTimes c s.now s.net s.clk → AddsOk addLat s.now s.net s.clk → s.run c addLat as = some s' →
      AddsOk addLat s'.now s'.net s'.clk := by
  induction as with
  | nil => intro s s' _ h hs; injection hs with hs; subst hs; exact h
  | cons a as ih =>
    intro s s' h ha hs
    simp only [TNet.run, Option.bind_eq_some_iff] at hs
    obtain ⟨s₁, h1, h2⟩ := hs
    exact ih (netTimes_tact h h1) (addInv_tact h ha h1) h2

end Ramwich
