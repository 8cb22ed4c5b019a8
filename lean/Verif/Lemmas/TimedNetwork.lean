import Verif.Lemmas.TimedNetViews
import Verif.Model.TimedNetwork

/-! # Invariants of the network with the clock -/
namespace Ramwich

open Spec
open Pipeline (upd)

/-- Router `i`. -/
def rvOf (n : Net) (k : NetClock) (i : Nat) : RV where
  sender := n.sender i
  queue := n.queue i
  stopped := n.stopper i = .stopped
  sent := n.sent i
  flight := k.flight i
  queued := k.queued i
  taken := k.taken i
  arrived := k.arrived i
  put := k.put i
  done := k.done i

/-- The stream from `i` to `d`. -/
def svOf (n : Net) (k : NetClock) (d i : Nat) : SV where
  waits := ∃ p b, n.sender i = .putting p b ∧ p.target = (d : Int)
  full := (n.buf d i).length
  asks := n.reader d = .waiting i
  A := timesTo d (n.sent i) (k.arrived i)
  P := timesTo d (n.sent i) (k.put i)
  Q := k.asked d i
  R := k.read d i

/-- Router `i` has not moved if nothing in its view has changed. -/
theorem rvOf_eq {n n' : Net} {k k' : NetClock} {i : Nat} (h1 : n'.sender i = n.sender i) (h2 : n'.queue i = n.queue i)
    (h3 : n'.stopper i = .stopped ↔ n.stopper i = .stopped) (h4 : n'.sent i = n.sent i) (h5 : k'.flight i = k.flight i)
    (h6 : k'.queued i = k.queued i) (h7 : k'.taken i = k.taken i) (h8 : k'.arrived i = k.arrived i)
    (h9 : k'.put i = k.put i) (h10 : k'.done i = k.done i) : rvOf n' k' i = rvOf n k i := by
  unfold rvOf
  rw [h1, h2, h4, h5, h6, h7, h8, h9, h10, propext h3]

theorem svOf_eq {n n' : Net} {k k' : NetClock} {d i : Nat} (h1 : n'.sender i = n.sender i)
    (h2 : n'.buf d i = n.buf d i) (h3 : n'.reader d = .waiting i ↔ n.reader d = .waiting i) (h4 : n'.sent i = n.sent i)
    (h8 : k'.arrived i = k.arrived i) (h9 : k'.put i = k.put i) (h10 : k'.asked d i = k.asked d i)
    (h11 : k'.read d i = k.read d i) : svOf n' k' d i = svOf n k d i := by
  unfold svOf
  rw [h1, h2, h4, h8, h9, h10, h11, propext h3]

/-- What the action of one thread does to its router. -/
theorem router_thread {c : NetConfig} {addLat : Int} {n n' : Net} {k k' : NetClock} {now i : Nat} (hI : NetInv c n)
    (hi : i < c.tiles) (hn : n.thread c i = some n') (hc : n'.crashed = none)
    (hk : k.step c addLat n now (.thread i) = some k') :
    (∀ j, j ≠ i → rvOf n' k' j = rvOf n k j) ∧ RMove c.lat now (rvOf n k i) (rvOf n' k' i) := by
  unfold Net.thread at hn
  split at hn
  · exact absurd hn (by simp)
  rename_i hns
  dsimp only [NetClock.step] at hk
  have hsrc := (hI.src i).2
  split at hn <;> rename_i hs <;> rw [hs] at hk <;> dsimp only at hk
  · split at hn
    · exact absurd hn (by simp)
    rename_i p rest hq
    injection hn with hn; injection hk with hk
    subst hn; subst hk
    refine ⟨fun j hj => rvOf_eq (upd_ne _ _ _ _ hj) (upd_ne _ _ _ _ hj) Iff.rfl rfl rfl rfl (upd_ne _ _ _ _ hj) rfl rfl
      rfl, ?_⟩
    have := RMove.take (lat := c.lat) (now := now) (v := rvOf n k i) p rest hs hns hq
    simpa only [rvOf, upd_same] using this
  · rename_i p
    split at hn
    · injection hn with hn; subst hn; cases hc
    rename_i hr
    simp only [not_not] at hr
    rw [hs] at hsrc
    have hlat := latency_intra c p.src p.target (by rw [hsrc p rfl]; exact hi) hr.1 hr.2
    rw [hlat] at hn hk
    split at hn
    · injection hn with hn; subst hn; cases hc
    rename_i lat inter hl
    split at hn
    · injection hn with hn; subst hn; cases hc
    injection hn with hn; injection hk with hk
    subst hn; subst hk
    refine ⟨fun j hj => rvOf_eq (upd_ne _ _ _ _ hj) rfl Iff.rfl rfl (upd_ne _ _ _ _ hj) rfl rfl rfl rfl rfl, ?_⟩
    have := RMove.fly (lat := c.lat) (now := now) (v := rvOf n k i) p inter hs
    simpa only [rvOf, upd_same, NetConfig.lat] using this
  · rename_i p inter
    split at hk
    swap
    · cases hk
    rename_i hf
    split at hn
    swap
    · injection hn with hn; subst hn; cases hc
    injection hn with hn; injection hk with hk
    subst hn; subst hk
    refine ⟨fun j hj => rvOf_eq (upd_ne _ _ _ _ hj) rfl Iff.rfl rfl rfl rfl rfl (upd_ne _ _ _ _ hj) rfl rfl, ?_⟩
    have := RMove.arrive (lat := c.lat) (now := now) (v := rvOf n k i) p inter hs hf
    simpa only [rvOf, upd_same] using this
  · rename_i p inter
    dsimp only at hn
    split at hn
    swap
    · cases hn
    injection hn with hn; injection hk with hk
    subst hn; subst hk
    refine ⟨fun j hj => rvOf_eq (upd_ne _ _ _ _ hj) rfl Iff.rfl rfl rfl rfl rfl rfl (upd_ne _ _ _ _ hj) rfl, ?_⟩
    have := RMove.put (lat := c.lat) (now := now) (v := rvOf n k i) p inter hs
    simpa only [rvOf, upd_same] using this
  · rename_i p inter
    injection hn with hn; injection hk with hk
    subst hn; subst hk
    refine ⟨fun j hj => rvOf_eq (upd_ne _ _ _ _ hj) rfl Iff.rfl rfl rfl rfl rfl rfl rfl rfl, ?_⟩
    have := RMove.deposit (lat := c.lat) (now := now) (v := rvOf n k i) p inter hs
    simpa only [rvOf, upd_same] using this
  · rename_i p inter
    injection hn with hn; injection hk with hk
    subst hn; subst hk
    refine ⟨fun j hj => rvOf_eq (upd_ne _ _ _ _ hj) rfl Iff.rfl rfl rfl rfl rfl rfl rfl (upd_ne _ _ _ _ hj), ?_⟩
    have := RMove.finish (lat := c.lat) (now := now) (v := rvOf n k i) p inter hs
    simpa only [rvOf, upd_same] using this

/-- The thread is idle when its router is stopped. -/
theorem stopStep_idle {n n' : Net} {i : Nat} (hS : NetStop n) (hn : n.stopStep i = some n') :
    (n.stopper i = .checking ∧ n.queue i = [] ∧ n' = { n with stopper := upd n.stopper i .emptied }) ∨
    (n.stopper i = .emptied ∧ (n.sender i).busy = true ∧
      n' = { n with stopper := upd n.stopper i (.waiting (n.stats i).sent) }) ∨
    ((n.stopper i = .emptied ∧ (n.sender i).busy = false ∨ ∃ m, n.stopper i = .waiting m) ∧ n.sender i = .idle ∧
      n' = { n with stopper := upd n.stopper i .stopped }) := by
  unfold Net.stopStep at hn
  have hs := hS i
  split at hn
  · rename_i he
    split at hn
    · rename_i hq; injection hn with hn; exact .inl ⟨he, hq, hn.symm⟩
    · cases hn
  · rename_i he
    split at hn
    · cases hn
    · rename_i hh
      split at hn
      · rename_i hb; injection hn with hn; exact .inr (.inl ⟨he, hb, hn.symm⟩)
      · rename_i hb
        injection hn with hn
        refine .inr (.inr ⟨.inl ⟨he, by simpa using hb⟩, ?_, hn.symm⟩)
        cases hk : n.sender i <;> simp_all [Sender.busy]
  · rename_i m he
    split at hn
    · rename_i hm
      injection hn with hn
      refine .inr (.inr ⟨.inr ⟨m, he⟩, ?_, hn.symm⟩)
      rw [he] at hs
      rcases hs.2 with h | h
      · omega
      · exact h.1
    · cases hn
  · cases hn
  · cases hn

/-- What an action does to the routers. -/
theorem router_act {c : NetConfig} {addLat : Int} {n n' : Net} {k k' : NetClock} {now : Nat} {a : NetAct}
    (hI : NetInv c n) (hS : NetStop n) (hn : n.act c a = some n') (hc : n'.crashed = none)
    (hk : k.step c addLat n now a = some k') (j : Nat) :
    rvOf n' k' j = rvOf n k j ∨ RMove c.lat now (rvOf n k j) (rvOf n' k' j) := by
  obtain ⟨-, hi, hn⟩ := net_act_cases hn
  cases a with
  | send i t data =>
    obtain ⟨rfl, -⟩ := sendIf_send hn
    injection hk with hk
    subst hk
    by_cases hj : j = i
    · subst hj
      right
      have := RMove.send (lat := c.lat) (now := now) (v := rvOf n k j) ⟨j, t, data⟩
      simpa only [rvOf, Net.send, upd_same] using this
    · left
      exact rvOf_eq rfl (upd_ne _ _ _ _ hj) Iff.rfl (upd_ne _ _ _ _ hj) rfl (upd_ne _ _ _ _ hj) rfl rfl rfl rfl
  | added i =>
    left
    unfold Net.added at hn
    dsimp only [NetClock.step] at hk
    dsimp only at hn
    split at hn
    · cases hn
    split at hk
    · cases hk
    split at hk
    swap
    · cases hk
    injection hn with hn; injection hk with hk; subst hn; subst hk
    rfl
  | thread i =>
    obtain ⟨h1, h2⟩ := router_thread hI hi hn hc hk
    by_cases hj : j = i
    · subst hj; exact .inr h2
    · exact .inl (h1 j hj)
  | startRead i src =>
    left
    injection hk with hk
    subst hk
    dsimp only at hn
    unfold Net.startRead at hn
    split at hn
    swap
    · cases hn
    split at hn <;> injection hn with hn <;> subst hn
    · rfl
    · cases hc
  | take i =>
    left
    dsimp only at hn
    unfold Net.take at hn
    dsimp only [NetClock.step] at hk
    split at hn
    swap
    · cases hn
    rename_i hr
    rw [hr] at hk
    split at hn
    · cases hn
    injection hn with hn; injection hk with hk; subst hn; subst hk
    rfl
  | readDone i =>
    left
    injection hk with hk
    subst hk
    obtain ⟨x, hn⟩ := hn
    unfold Net.readDone at hn
    split at hn
    swap
    · cases hn
    injection hn with hn; injection hn with hn _; subst hn
    rfl
  | halt i =>
    left
    injection hk with hk
    subst hk
    dsimp only at hn
    unfold Net.halt at hn
    split at hn
    swap
    · cases hn
    rename_i hr
    injection hn with hn; subst hn
    refine rvOf_eq rfl rfl ?_ rfl rfl rfl rfl rfl rfl rfl
    by_cases hj : j = i
    · subst hj; simp [upd_same, hr]
    · simp [upd_ne _ _ _ _ hj]
  | stopStep i =>
    have hv : ∀ n₁ : Net, rvOf n₁ k' j = rvOf n₁ k j := by
      intro n₁
      dsimp only [NetClock.step] at hk
      split at hk
      · split at hk
        · injection hk with hk; subst hk; rfl
        · cases hk
      · split at hk <;> injection hk with hk <;> subst hk <;> rfl
      · injection hk with hk; subst hk; rfl
      · injection hk with hk; subst hk; rfl
    rw [hv]
    rcases stopStep_idle hS hn with ⟨h1, h2, rfl⟩ | ⟨h1, h2, rfl⟩ | ⟨h1, h2, rfl⟩
    · left
      refine rvOf_eq rfl rfl ?_ rfl rfl rfl rfl rfl rfl rfl
      by_cases hj : j = i
      · subst hj; simp [upd_same, h1]
      · simp [upd_ne _ _ _ _ hj]
    · left
      refine rvOf_eq rfl rfl ?_ rfl rfl rfl rfl rfl rfl rfl
      by_cases hj : j = i
      · subst hj; simp [upd_same, h1]
      · simp [upd_ne _ _ _ _ hj]
    · by_cases hj : j = i
      · subst hj
        right
        have := RMove.stop (lat := c.lat) (now := now) (v := rvOf n k j) h2
        simpa only [rvOf, upd_same] using this
      · left
        refine rvOf_eq rfl rfl ?_ rfl rfl rfl rfl rfl rfl rfl
        simp [upd_ne _ _ _ _ hj]

/-- The packet that the thread works on is the next one of its history. -/
theorem router_packet {lat now : Nat} {v : RV} (h : RouterInv lat now v) {p : Packet} (hp : v.sender.packet = some p) :
    v.sent[v.done.length]? = some p := by
  have := h.rest
  rw [hp] at this
  have h2 : (v.sent.drop v.done.length)[0]? = some p := by rw [this]; rfl
  rw [List.getElem?_drop] at h2
  simpa using h2

theorem updAt_same {β : Type} (f : Nat → Nat → β) (i j : Nat) (b : β) : updAt f i j b i j = b := by
  unfold updAt; rw [upd_same, upd_same]

theorem updAt_ne {β : Type} (f : Nat → Nat → β) (i j i' j' : Nat) (b : β) (h : ¬(i' = i ∧ j' = j)) :
    updAt f i j b i' j' = f i' j' := by
  unfold updAt
  by_cases h1 : i' = i
  · subst h1
    rw [upd_same, upd_ne _ _ _ _ (fun h2 => h ⟨rfl, h2⟩)]
  · rw [upd_ne _ _ _ _ h1]

/-- What an action does to the streams. -/
theorem stream_act {c : NetConfig} {addLat : Int} {n n' : Net} {k k' : NetClock} {now : Nat} {a : NetAct}
    (hI : NetInv c n) (hR : ∀ i, RouterInv c.lat now (rvOf n k i)) (hn : n.act c a = some n')
    (hc : n'.crashed = none) (hk : k.step c addLat n now a = some k') (d j : Nat) :
    svOf n' k' d j = svOf n k d j ∨ SMove now (svOf n k d j) (svOf n' k' d j) := by
  obtain ⟨-, hi, hn⟩ := net_act_cases hn
  cases a with
  | send i t data =>
    left
    obtain ⟨rfl, -⟩ := sendIf_send hn
    injection hk with hk
    subst hk
    by_cases hj : j = i
    · subst hj
      have hr := hR j
      have hlA : (k.arrived j).length ≤ (n.sent j).length := by
        have := hr.lenA; have := hr.lenT; have := hr.taken.length_le; have := hr.lenQ; have := hr.arrived.length_le
        simp only [rvOf, List.length_zipWith, List.length_map] at *; omega
      have hlP : (k.put j).length ≤ (n.sent j).length := by
        have h1 := hr.lenA; have h2 := hr.lenP
        have : (n.sender j).nPut ≤ (n.sender j).nArrived := by cases n.sender j <;> simp [Sender.nPut, Sender.nArrived]
        simp only [rvOf] at *; omega
      simp only [svOf, Net.send, upd_same, timesTo_sent _ _ _ _ hlA, timesTo_sent _ _ _ _ hlP]
    · exact svOf_eq rfl rfl Iff.rfl (upd_ne _ _ _ _ hj) rfl rfl rfl rfl
  | added i =>
    left
    unfold Net.added at hn
    dsimp only [NetClock.step] at hk
    dsimp only at hn
    split at hn
    · cases hn
    split at hk
    · cases hk
    split at hk
    swap
    · cases hk
    injection hn with hn; injection hk with hk; subst hn; subst hk
    rfl
  | thread i =>
    dsimp only [NetAct.tile] at hi
    dsimp only at hn
    unfold Net.thread at hn
    split at hn
    · exact absurd hn (by simp)
    rename_i hns
    dsimp only [NetClock.step] at hk
    have hsrc := (hI.src i).2
    have hroute := hI.route i
    split at hn <;> rename_i hs <;> rw [hs] at hk <;> dsimp only at hk
    · split at hn
      · exact absurd hn (by simp)
      rename_i p rest hq
      injection hn with hn; injection hk with hk
      subst hn; subst hk
      left
      by_cases hj : j = i
      · subst hj
        simp [svOf, upd_same, hs]
      · exact svOf_eq (upd_ne _ _ _ _ hj) rfl Iff.rfl rfl rfl rfl rfl rfl
    · rename_i p
      left
      have hfl : ∃ b, n' = { n with sender := upd n.sender i (.flying p b) } := by
        split at hn
        · injection hn with hn; subst hn; cases hc
        split at hn
        · injection hn with hn; subst hn; cases hc
        split at hn
        · injection hn with hn; subst hn; cases hc
        injection hn with hn
        exact ⟨_, hn.symm⟩
      obtain ⟨b, rfl⟩ := hfl
      injection hk with hk
      subst hk
      by_cases hj : j = i
      · subst hj
        simp [svOf, upd_same, hs]
      · exact svOf_eq (upd_ne _ _ _ _ hj) rfl Iff.rfl rfl rfl rfl rfl rfl
    · rename_i p inter
      split at hk
      swap
      · cases hk
      rename_i hf
      split at hn
      swap
      · injection hn with hn; subst hn; cases hc
      injection hn with hn; injection hk with hk
      subst hn; subst hk
      by_cases hj : j = i
      · subst hj
        have hr := hR j
        have hp := router_packet hr (p := p) (by simp [rvOf, hs, Sender.packet])
        have hA := hr.lenA
        simp only [rvOf, hs, Sender.nArrived, Nat.add_zero] at hA hp
        rw [← hA] at hp
        by_cases hd : p.target = (d : Int)
        · right
          have := SMove.arrive (now := now) (v := svOf n k d j) (by simp [svOf, hs])
          simp only [svOf, upd_same, timesTo_snoc d _ _ p now hp, hd, if_true] at this ⊢
          have e : (∃ p' b', Sender.putting p inter = .putting p' b' ∧ p'.target = (d : Int)) = True :=
            eq_true ⟨p, inter, rfl, hd⟩
          rw [e]
          exact this
        · left
          have e : (∃ p' b', Sender.putting p inter = .putting p' b' ∧ p'.target = (d : Int)) = False := by
            apply eq_false
            rintro ⟨p', b', h1, h2⟩
            injection h1 with h1; subst h1; exact hd h2
          simp only [svOf, upd_same, timesTo_snoc d _ _ p now hp, hd, if_false, List.append_nil, e]
          simp [hs]
      · left
        exact svOf_eq (upd_ne _ _ _ _ hj) rfl Iff.rfl rfl (upd_ne _ _ _ _ hj) rfl rfl rfl
    · rename_i p inter
      dsimp only at hn
      split at hn
      swap
      · cases hn
      rename_i hlen
      injection hn with hn; injection hk with hk
      subst hn; subst hk
      rw [hs] at hsrc hroute
      have hps := hsrc p rfl
      have hrt := hroute p inter rfl
      have hdn : p.target = (p.target.toNat : Int) := by omega
      by_cases hj : j = i
      · subst hj
        have hr := hR j
        have hp := router_packet hr (p := p) (by simp [rvOf, hs, Sender.packet])
        have hP := hr.lenP
        simp only [rvOf, hs, Sender.nPut, Nat.add_zero] at hP hp
        rw [← hP] at hp
        have e : (∃ p' b', Sender.deposited p inter = .putting p' b' ∧ p'.target = (d : Int)) = False := by
          apply eq_false
          rintro ⟨p', b', h1, h2⟩
          cases h1
        by_cases hd : p.target = (d : Int)
        · right
          have hd' : p.target.toNat = d := by omega
          rw [hd', hps] at hlen
          rw [hd', hps]
          have hl0 : (n.buf d j).length = 0 := by simp only [bufferCapacity] at hlen; omega
          have := SMove.put (now := now) (v := svOf n k d j) ⟨p, inter, hs, hd⟩ hl0
          simp only [svOf, upd_same, timesTo_snoc d _ _ p now hp, hd, if_true, e, List.length_append, hl0,
            List.length_singleton, Nat.zero_add] at this ⊢
          exact this
        · left
          have hb : upd n.buf p.target.toNat (upd (n.buf p.target.toNat) p.src
              (n.buf p.target.toNat p.src ++ [p.data])) d j = n.buf d j := by
            rw [upd_ne]
            omega
          have e2 : (∃ p' b', Sender.putting p inter = .putting p' b' ∧ p'.target = (d : Int)) = False := by
            apply eq_false
            rintro ⟨p', b', h1, h2⟩
            injection h1 with h1; subst h1; exact hd h2
          simp only [svOf, upd_same, timesTo_snoc d _ _ p now hp, hd, if_false, List.append_nil, e, hs, e2, hb]
      · left
        refine svOf_eq (upd_ne _ _ _ _ hj) ?_ Iff.rfl rfl rfl (upd_ne _ _ _ _ hj) rfl rfl
        show upd n.buf p.target.toNat _ d j = _
        by_cases hd : d = p.target.toNat
        · subst hd; rw [upd_same, upd_ne _ _ _ _ (by rw [hps]; exact hj)]
        · rw [upd_ne _ _ _ _ hd]
    · rename_i p inter
      injection hn with hn; injection hk with hk
      subst hn; subst hk
      left
      by_cases hj : j = i
      · subst hj
        simp [svOf, upd_same, hs]
      · exact svOf_eq (upd_ne _ _ _ _ hj) rfl Iff.rfl rfl rfl rfl rfl rfl
    · rename_i p inter
      injection hn with hn; injection hk with hk
      subst hn; subst hk
      left
      by_cases hj : j = i
      · subst hj
        simp [svOf, upd_same, hs]
      · exact svOf_eq (upd_ne _ _ _ _ hj) rfl Iff.rfl rfl rfl rfl rfl rfl
  | startRead i src =>
    injection hk with hk
    subst hk
    dsimp only at hn
    unfold Net.startRead at hn
    split at hn
    swap
    · cases hn
    rename_i hr
    split at hn <;> injection hn with hn <;> subst hn
    swap
    · cases hc
    by_cases hdj : d = i ∧ j = src.toNat
    · obtain ⟨rfl, rfl⟩ := hdj
      right
      have := SMove.ask (now := now) (v := svOf n k d src.toNat) (by simp [svOf, hr])
      simpa only [svOf, upd_same, updAt_same] using this
    · left
      refine svOf_eq rfl rfl ?_ rfl rfl rfl (updAt_ne _ _ _ _ _ _ hdj) rfl
      by_cases hd : d = i
      · subst hd
        have : src.toNat ≠ j := fun h => hdj ⟨rfl, h.symm⟩
        simp [upd_same, hr, this]
      · simp [upd_ne _ _ _ _ hd]
  | take i =>
    dsimp only at hn
    unfold Net.take at hn
    dsimp only [NetClock.step] at hk
    split at hn
    swap
    · cases hn
    rename_i src hr
    rw [hr] at hk
    split at hn
    · cases hn
    rename_i x rest hb
    injection hn with hn; injection hk with hk; subst hn; subst hk
    by_cases hdj : d = i ∧ j = src
    · obtain ⟨rfl, rfl⟩ := hdj
      right
      have hcap := hI.cap d j
      rw [hb] at hcap
      have hrest : rest.length = 0 := by simpa using hcap
      have := SMove.read (now := now) (v := svOf n k d j) hr (by simp [svOf, hb, hrest])
      simpa [svOf, upd_same, updAt_same, hrest] using this
    · left
      refine svOf_eq rfl ?_ ?_ rfl rfl rfl rfl (updAt_ne _ _ _ _ _ _ hdj)
      · exact updAt_ne n.buf i src d j rest hdj
      · by_cases hd : d = i
        · subst hd
          have : src ≠ j := fun h => hdj ⟨rfl, h.symm⟩
          simp [upd_same, hr, this]
        · simp [upd_ne _ _ _ _ hd]
  | readDone i =>
    left
    injection hk with hk
    subst hk
    obtain ⟨x, hn⟩ := hn
    unfold Net.readDone at hn
    split at hn
    swap
    · cases hn
    rename_i hr
    injection hn with hn; injection hn with hn _; subst hn
    refine svOf_eq rfl rfl ?_ rfl rfl rfl rfl rfl
    by_cases hd : d = i
    · subst hd; simp [upd_same, hr]
    · simp [upd_ne _ _ _ _ hd]
  | halt i =>
    left
    injection hk with hk
    subst hk
    dsimp only at hn
    unfold Net.halt at hn
    split at hn
    swap
    · cases hn
    injection hn with hn; subst hn
    rfl
  | stopStep i =>
    left
    have hv : ∀ n₁ : Net, svOf n₁ k' d j = svOf n₁ k d j := by
      intro n₁
      dsimp only [NetClock.step] at hk
      split at hk
      · split at hk
        · injection hk with hk; subst hk; rfl
        · cases hk
      · split at hk <;> injection hk with hk <;> subst hk <;> rfl
      · injection hk with hk; subst hk; rfl
      · injection hk with hk; subst hk; rfl
    rw [hv]
    dsimp only at hn
    unfold Net.stopStep at hn
    split at hn
    · split at hn
      · injection hn with hn; subst hn; rfl
      · cases hn
    · split at hn
      · cases hn
      · split at hn <;> injection hn with hn <;> subst hn <;> rfl
    · split at hn
      · injection hn with hn; subst hn; rfl
      · cases hn
    · cases hn
    · cases hn

end Ramwich
