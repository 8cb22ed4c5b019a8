import Verif.Lemmas.TimedNetwork

/-! # When a router stops; what the monitor sees; the invariant of the network with the clock -/
namespace Ramwich

open Spec
open Pipeline (upd)

/-- The time of the last packet that was delivered was one cycle ago (only without latency). -/
def Late (lat now : Nat) (v : RV) : Prop := lat = 0 ∧ ∃ d, v.done.getLast? = some d ∧ d + 1 = now

/-- `stop_after_all_packets_sent` of one router: its state, the time of its next check, when it was called, when
it has stopped the router. -/
structure StopInv (lat now : Nat) (v : RV) (st : Stopper) (ck : Nat) (h t : Option Nat) : Prop where
  run : st = .running → h = none
  halted : st ≠ .running → ∃ x, h = some x ∧ x ≤ now
  opened : st ≠ .stopped → t = none
  check : st = .checking →
    (ck = now ∧ (h = some now ∨ v.queue ≠ [] ∨ v.sender ≠ .idle ∨ v.done.getLast? = some now ∨ Late lat now v)) ∨
    (ck = now + 1 ∧ (v.queue ≠ [] ∨ (v.taken.getLast? = some now ∧
      (v.sender ≠ .idle ∨ (lat = 0 ∧ v.done.getLast? = some now)))))
  emptied : st = .emptied → h = some now ∨ v.sender ≠ .idle ∨ v.done.getLast? = some now ∨ Late lat now v
  waiting : ∀ m, st = .waiting m → v.sender.busy = true ∨ v.done.getLast? = some now
  stopped : st = .stopped → ∃ x y, h = some x ∧ t = some y ∧ max x (v.done.getLast?.getD 0) ≤ y ∧
    y ≤ max x (v.done.getLast?.getD 0) + (if lat = 0 then 1 else 0) ∧ y ≤ now

/-- A packet delivered in the cycle in which it was taken had no latency. -/
theorem no_latency {lat now : Nat} {v : RV} (h : RouterInv lat now v) {p : Packet} {b : Bool}
    (hs : v.sender = .delivered p b) (ht : v.taken.getLast? = some now) : lat = 0 := by
  have hT := h.lenT
  have hA := h.lenA
  rw [hs] at hT hA
  simp only [Sender.nTaken, Sender.nArrived] at hT hA
  have he : v.arrived = v.taken.map (· + lat) := by
    apply List.IsPrefix.eq_of_length h.arrived
    rw [List.length_map, hT, hA]
  have hl : v.arrived.getLast? = some (now + lat) := by rw [he, List.getLast?_map, ht]; rfl
  have := h.leA _ (List.mem_of_getLast? hl)
  omega

theorem stopInv_move {lat now : Nat} {v v' : RV} {st : Stopper} {ck : Nat} {h t : Option Nat}
    (hr : RouterInv lat now v) (hv : v.stopped ↔ st = .stopped) (hidle : st = .stopped → v.sender = .idle)
    (hv' : v'.stopped ↔ st = .stopped) (hs : StopInv lat now v st ck h t) (mv : RMove lat now v v') :
    StopInv lat now v' st ck h t := by
  have hns : ∀ {k : Sender}, v.sender = k → k ≠ .idle → st ≠ .stopped := fun e hk h => hk (e.symm.trans (hidle h))
  cases mv with
  | send p =>
    refine ⟨hs.run, hs.halted, hs.opened, fun h1 => ?_, hs.emptied, hs.waiting, hs.stopped⟩
    rcases hs.check h1 with ⟨h2, h3⟩ | ⟨h2, h3⟩
    · exact .inl ⟨h2, .inr (.inl (by simp))⟩
    · exact .inr ⟨h2, .inl (by simp)⟩
  | take p rest h1 h2 h3 =>
    refine ⟨hs.run, hs.halted, hs.opened, fun h4 => ?_, fun h4 => .inr (.inl (by simp)), ?_, ?_⟩
    · rcases hs.check h4 with ⟨h5, h6⟩ | ⟨h5, h6⟩
      · exact .inl ⟨h5, .inr (.inr (.inl (by simp)))⟩
      · exact .inr ⟨h5, .inr ⟨last_snoc _ _, .inl (by simp)⟩⟩
    · intro m hm
      rcases hs.waiting m hm with h4 | h4
      · rw [h1] at h4; cases h4
      · exact .inr h4
    · intro h4; exact absurd (hv.2 h4) h2
  | fly p b h1 =>
    have hn := hns h1 (by simp)
    refine ⟨hs.run, hs.halted, hs.opened, fun h4 => ?_, fun h4 => .inr (.inl (by simp)), fun _ _ => .inl rfl,
      fun h4 => absurd h4 hn⟩
    rcases hs.check h4 with ⟨h5, h6⟩ | ⟨h5, h6⟩
    · exact .inl ⟨h5, .inr (.inr (.inl (by simp)))⟩
    · refine .inr ⟨h5, h6.imp id (fun h6 => ⟨h6.1, .inl (by simp)⟩)⟩
  | arrive p b h1 hf =>
    have hn := hns h1 (by simp)
    refine ⟨hs.run, hs.halted, hs.opened, fun h4 => ?_, fun h4 => .inr (.inl (by simp)), fun _ _ => .inl rfl,
      fun h4 => absurd h4 hn⟩
    rcases hs.check h4 with ⟨h5, h6⟩ | ⟨h5, h6⟩
    · exact .inl ⟨h5, .inr (.inr (.inl (by simp)))⟩
    · refine .inr ⟨h5, h6.imp id (fun h6 => ⟨h6.1, .inl (by simp)⟩)⟩
  | put p b h1 =>
    have hn := hns h1 (by simp)
    refine ⟨hs.run, hs.halted, hs.opened, fun h4 => ?_, fun h4 => .inr (.inl (by simp)), fun _ _ => .inl rfl,
      fun h4 => absurd h4 hn⟩
    rcases hs.check h4 with ⟨h5, h6⟩ | ⟨h5, h6⟩
    · exact .inl ⟨h5, .inr (.inr (.inl (by simp)))⟩
    · refine .inr ⟨h5, h6.imp id (fun h6 => ⟨h6.1, .inl (by simp)⟩)⟩
  | deposit p b h1 =>
    have hn := hns h1 (by simp)
    refine ⟨hs.run, hs.halted, hs.opened, fun h4 => ?_, fun h4 => .inr (.inl (by simp)), fun _ _ => .inl rfl,
      fun h4 => absurd h4 hn⟩
    rcases hs.check h4 with ⟨h5, h6⟩ | ⟨h5, h6⟩
    · exact .inl ⟨h5, .inr (.inr (.inl (by simp)))⟩
    · refine .inr ⟨h5, h6.imp id (fun h6 => ⟨h6.1, .inl (by simp)⟩)⟩
  | finish p b h1 =>
    have hn := hns h1 (by simp)
    refine ⟨hs.run, hs.halted, hs.opened, fun h4 => ?_, fun h4 => .inr (.inr (.inl (last_snoc _ _))),
      fun _ _ => .inr (last_snoc _ _), fun h4 => absurd h4 hn⟩
    rcases hs.check h4 with ⟨h5, h6⟩ | ⟨h5, h6⟩
    · exact .inl ⟨h5, .inr (.inr (.inr (.inl (last_snoc _ _))))⟩
    · refine .inr ⟨h5, h6.imp id (fun h6 => ⟨h6.1, .inr ⟨no_latency hr h1 h6.1, last_snoc _ _⟩⟩)⟩
  | stop h1 => exact ⟨hs.run, hs.halted, hs.opened, hs.check, hs.emptied, hs.waiting, hs.stopped⟩

/-- Time passes when neither the thread nor the stopping can do anything. -/
theorem stopInv_tick {lat now : Nat} {v : RV} {st : Stopper} {ck : Nat} {h t : Option Nat}
    (hs : StopInv lat now v st ck h t) (h1 : st = .checking → ck ≠ now) (h2 : st ≠ .emptied)
    (h3 : ∀ m, st = .waiting m → v.sender.busy = true) : StopInv lat (now + 1) v st ck h t := by
  refine ⟨hs.run, ?_, hs.opened, ?_, fun h4 => absurd h4 h2, fun m hm => .inl (h3 m hm), ?_⟩
  · intro h4
    obtain ⟨x, e1, e2⟩ := hs.halted h4
    exact ⟨x, e1, by omega⟩
  · intro h4
    left
    rcases hs.check h4 with ⟨h5, h6⟩ | ⟨h5, h6⟩
    · exact absurd h5 (h1 h4)
    · refine ⟨h5, ?_⟩
      rcases h6 with h6 | ⟨_, h6 | ⟨h6, h7⟩⟩
      · exact .inr (.inl h6)
      · exact .inr (.inr (.inl h6))
      · exact .inr (.inr (.inr (.inr ⟨h6, now, h7, rfl⟩)))
  · intro h4
    obtain ⟨x, y, e1, e2, e3, e4, e5⟩ := hs.stopped h4
    exact ⟨x, y, e1, e2, e3, e4, by omega⟩

/-- The time of the last delivery. -/
theorem stop_now {lat now : Nat} {v : RV} {h : Option Nat} {x : Nat} (hr : RouterInv lat now v) (hx : h = some x)
    (hle : x ≤ now) (hs : v.sender = .idle)
    (hd : h = some now ∨ v.sender ≠ .idle ∨ v.done.getLast? = some now ∨ Late lat now v) :
    max x (v.done.getLast?.getD 0) ≤ now ∧ now ≤ max x (v.done.getLast?.getD 0) + (if lat = 0 then 1 else 0) := by
  have h1 := last_le hr.leD
  refine ⟨by omega, ?_⟩
  rcases hd with h2 | h2 | h2 | ⟨h2, d, h3, h4⟩
  · rw [hx] at h2
    injection h2 with h2
    omega
  · exact absurd hs h2
  · rw [h2]; simp only [Option.getD_some]; omega
  · rw [if_pos h2, h3]; simp only [Option.getD_some]; omega

/-- The lists of times grow by the current time. -/
def Grows (now : Nat) (l l' : List Nat) : Prop := l' = l ∨ l' = l ++ [now]

theorem grows_get {now : Nat} {l l' : List Nat} (h : Grows now l l') {m x : Nat} (hx : l'[m]? = some x) :
    l[m]? = some x ∨ (l[m]? = none ∧ x = now) := by
  rcases h with rfl | rfl
  · exact .inl hx
  · by_cases hm : m < l.length
    · rw [List.getElem?_append_left hm] at hx; exact .inl hx
    · right
      rw [List.getElem?_append_right (by omega)] at hx
      refine ⟨by simp; omega, ?_⟩
      have := List.mem_of_getElem? hx
      exact List.mem_singleton.1 this

theorem grows_keep {now : Nat} {l l' : List Nat} (h : Grows now l l') {m x : Nat} (hx : l[m]? = some x) :
    l'[m]? = some x := by
  rcases h with rfl | rfl
  · exact hx
  · rw [List.getElem?_append_left (List.getElem?_eq_some_iff.1 hx).1]; exact hx

theorem move_grows {lat now : Nat} {v v' : RV} (h : RMove lat now v v') :
    Grows now v.queued v'.queued ∧ Grows now v.taken v'.taken := by
  cases h <;> first | exact ⟨.inl rfl, .inl rfl⟩ | exact ⟨.inr rfl, .inl rfl⟩ | exact ⟨.inl rfl, .inr rfl⟩

/-- What `_monitor_queues` has seen. -/
structure MonInv (tiles now : Nat) (queued taken : Nat → List Nat) (stopAt : Nat → Option Nat) (look busy : Nat)
    (looks : List Bool) : Prop where
  len : looks.length = look
  look : look = now ∨ look = now + 1
  busy : busy = looks.count true
  seen : ∀ x : Nat, looks[x]? = some true → ∃ i, i < tiles ∧ ∃ m q : Nat, (queued i)[m]? = some q ∧ q ≤ x ∧
    (∀ t, (taken i)[m]? = some t → x ≤ t) ∧ ∀ t, stopAt i = some t → x ≤ t
  unseen : ∀ x : Nat, looks[x]? = some false → ∀ i, i < tiles → ∀ m q : Nat, (queued i)[m]? = some q → q < x →
    (∀ t, (taken i)[m]? = some t → x < t) → ∃ t, stopAt i = some t ∧ t ≤ x

theorem monInv_grow {tiles now : Nat} {queued taken queued' taken' : Nat → List Nat} {stopAt stopAt' : Nat → Option Nat}
    {look busy : Nat} {looks : List Bool} (h : MonInv tiles now queued taken stopAt look busy looks)
    (hq : ∀ i, Grows now (queued i) (queued' i)) (ht : ∀ i, Grows now (taken i) (taken' i))
    (hs : ∀ i, stopAt' i = stopAt i ∨ (stopAt i = none ∧ stopAt' i = some now)) :
    MonInv tiles now queued' taken' stopAt' look busy looks := by
  have hle : ∀ {x : Nat} {b : Bool}, looks[x]? = some b → x ≤ now := by
    intro x b hx
    have := (List.getElem?_eq_some_iff.1 hx).1
    have h1 := h.len; have h2 := h.look
    omega
  refine ⟨h.len, h.look, h.busy, ?_, ?_⟩
  · intro x hx
    obtain ⟨i, hi, m, q, h1, h2, h3, h4⟩ := h.seen x hx
    refine ⟨i, hi, m, q, grows_keep (hq i) h1, h2, ?_, ?_⟩
    · intro t e
      rcases grows_get (ht i) e with e | ⟨-, rfl⟩
      · exact h3 t e
      · exact hle hx
    · intro t e
      rcases hs i with e1 | ⟨-, e1⟩
      · exact h4 t (e1 ▸ e)
      · rw [e1] at e; injection e with e; subst e; exact hle hx
  · intro x hx i hi m q h1 h2 h3
    rcases grows_get (hq i) h1 with e | ⟨-, rfl⟩
    · obtain ⟨t, e1, e2⟩ := h.unseen x hx i hi m q e h2 (fun t e => h3 t (grows_keep (ht i) e))
      refine ⟨t, ?_, e2⟩
      rcases hs i with e3 | ⟨e3, -⟩
      · rw [e3]; exact e1
      · rw [e3] at e1; cases e1
    · have := hle hx; omega

theorem monInv_tick {tiles now : Nat} {queued taken : Nat → List Nat} {stopAt : Nat → Option Nat} {look busy : Nat}
    {looks : List Bool} (h : MonInv tiles now queued taken stopAt look busy looks) (hl : look ≠ now) :
    MonInv tiles (now + 1) queued taken stopAt look busy looks :=
  ⟨h.len, .inl (by have := h.look; omega), h.busy, h.seen, h.unseen⟩

/-- The invariant of the network with the clock. -/
structure NetTimes (c : NetConfig) (now : Nat) (n : Net) (k : NetClock) : Prop where
  inv : NetInv c n
  stop : NetStop n
  router : ∀ i, RouterInv c.lat now (rvOf n k i)
  stream : ∀ d i, StreamInv now (svOf n k d i)
  halt : ∀ i, StopInv c.lat now (rvOf n k i) (n.stopper i) (k.check i) (k.haltAt i) (k.stopAt i)
  mon : MonInv c.tiles now k.queued k.taken k.stopAt k.look k.busy k.looks
  far : ∀ i, ¬i < c.tiles → n.stopper i = .running

theorem netTimes_init (c : NetConfig) : NetTimes c 0 {} {} := by
  refine ⟨netInv_init c, fun _ => trivial, fun i => ?_, fun d i => ?_, fun i => ?_, ?_, fun _ _ => rfl⟩
  · constructor <;> simp [rvOf, Sender.packet, Sender.nTaken, Sender.nArrived, Sender.nPut]
  · constructor <;> simp [svOf, timesTo]
  · constructor <;> simp
  · constructor <;> simp

/-- A crash changes nothing else. -/
theorem net_act_crash {c : NetConfig} {n n' : Net} {a : NetAct} (hn : n.act c a = some n') (hc : n'.crashed ≠ none) :
    ∃ e, n' = n.crash e := by
  obtain ⟨h0, -, hn⟩ := net_act_cases hn
  have hne : ∀ {m : Net}, some m = some n' → m.crashed = n.crashed → ∃ e, n' = n.crash e := by
    intro m e hm
    injection e with e
    subst e
    rw [hm] at hc
    exact absurd h0 hc
  cases a with
  | send i t data => obtain ⟨rfl, -⟩ := sendIf_send hn; exact hne rfl rfl
  | added i =>
    dsimp only at hn
    unfold Net.added at hn
    split at hn
    · cases hn
    · exact hne hn rfl
  | thread i =>
    dsimp only at hn
    unfold Net.thread at hn
    split at hn
    · cases hn
    split at hn
    · split at hn
      · cases hn
      · exact hne hn rfl
    · split at hn
      · injection hn with hn; exact ⟨_, hn.symm⟩
      split at hn
      · injection hn with hn; exact ⟨_, hn.symm⟩
      split at hn
      · injection hn with hn; exact ⟨_, hn.symm⟩
      · exact hne hn rfl
    · split at hn
      · exact hne hn rfl
      · injection hn with hn; exact ⟨_, hn.symm⟩
    · dsimp only at hn
      split at hn
      · exact hne hn rfl
      · cases hn
    · exact hne hn rfl
    · exact hne hn rfl
  | startRead i src =>
    dsimp only at hn
    unfold Net.startRead at hn
    split at hn
    swap
    · cases hn
    split at hn
    · exact hne hn rfl
    · injection hn with hn; exact ⟨_, hn.symm⟩
  | take i =>
    dsimp only at hn
    unfold Net.take at hn
    split at hn
    swap
    · cases hn
    split at hn
    · cases hn
    · exact hne hn rfl
  | readDone i =>
    obtain ⟨x, hn⟩ := hn
    unfold Net.readDone at hn
    split at hn
    swap
    · cases hn
    injection hn with hn
    injection hn with hn _
    exact hne (congrArg some hn) rfl
  | halt i =>
    dsimp only at hn
    unfold Net.halt at hn
    split at hn
    · exact hne hn rfl
    · cases hn
  | stopStep i =>
    dsimp only at hn
    unfold Net.stopStep at hn
    split at hn
    · split at hn
      · exact hne hn rfl
      · cases hn
    · split at hn
      · cases hn
      · split at hn <;> exact hne hn rfl
    · split at hn
      · exact hne hn rfl
      · cases hn
    · cases hn
    · cases hn

/-- Actions that do not stop routers leave the stopping alone. -/
theorem stopper_same {c : NetConfig} {addLat : Int} {n n' : Net} {k k' : NetClock} {now : Nat} {a : NetAct}
    (hn : n.act c a = some n') (hk : k.step c addLat n now a = some k') (h1 : ∀ i, a ≠ .halt i)
    (h2 : ∀ i, a ≠ .stopStep i) : n'.stopper = n.stopper ∧ k'.check = k.check ∧ k'.haltAt = k.haltAt ∧
      k'.stopAt = k.stopAt := by
  obtain ⟨-, -, hn⟩ := net_act_cases hn
  cases a with
  | send i t data =>
    obtain ⟨rfl, -⟩ := sendIf_send hn
    injection hk with hk; subst hk; exact ⟨rfl, rfl, rfl, rfl⟩
  | added i =>
    dsimp only at hn
    unfold Net.added at hn
    dsimp only [NetClock.step] at hk
    split at hn
    · cases hn
    split at hk
    · cases hk
    split at hk
    · injection hn with hn; injection hk with hk; subst hn; subst hk; exact ⟨rfl, rfl, rfl, rfl⟩
    · cases hk
  | thread i =>
    have hk' : k'.check = k.check ∧ k'.haltAt = k.haltAt ∧ k'.stopAt = k.stopAt := by
      dsimp only [NetClock.step] at hk
      split at hk
      · injection hk with hk; subst hk; exact ⟨rfl, rfl, rfl⟩
      · injection hk with hk; subst hk; exact ⟨rfl, rfl, rfl⟩
      · split at hk
        · injection hk with hk; subst hk; exact ⟨rfl, rfl, rfl⟩
        · cases hk
      · injection hk with hk; subst hk; exact ⟨rfl, rfl, rfl⟩
      · injection hk with hk; subst hk; exact ⟨rfl, rfl, rfl⟩
      · injection hk with hk; subst hk; exact ⟨rfl, rfl, rfl⟩
    refine ⟨?_, hk'⟩
    dsimp only at hn
    unfold Net.thread at hn
    split at hn
    · cases hn
    split at hn
    · split at hn
      · cases hn
      · injection hn with hn; subst hn; rfl
    · split at hn
      · injection hn with hn; subst hn; rfl
      split at hn
      · injection hn with hn; subst hn; rfl
      split at hn <;> injection hn with hn <;> subst hn <;> rfl
    · split at hn <;> injection hn with hn <;> subst hn <;> rfl
    · dsimp only at hn
      split at hn
      · injection hn with hn; subst hn; rfl
      · cases hn
    · injection hn with hn; subst hn; rfl
    · injection hn with hn; subst hn; rfl
  | startRead i src =>
    injection hk with hk
    dsimp only at hn
    unfold Net.startRead at hn
    split at hn
    swap
    · cases hn
    split at hn <;> injection hn with hn <;> subst hn <;> subst hk <;> exact ⟨rfl, rfl, rfl, rfl⟩
  | take i =>
    dsimp only at hn
    unfold Net.take at hn
    dsimp only [NetClock.step] at hk
    split at hn
    swap
    · cases hn
    rename_i hr
    rw [hr] at hk
    split at hn
    · cases hn
    injection hn with hn; injection hk with hk; subst hn; subst hk; exact ⟨rfl, rfl, rfl, rfl⟩
  | readDone i =>
    injection hk with hk
    obtain ⟨x, hn⟩ := hn
    unfold Net.readDone at hn
    split at hn
    swap
    · cases hn
    injection hn with hn
    injection hn with hn _
    subst hn; subst hk; exact ⟨rfl, rfl, rfl, rfl⟩
  | halt i => exact absurd rfl (h1 i)
  | stopStep i => exact absurd rfl (h2 i)

theorem stopInv_stopped {lat now : Nat} {v v' : RV} {st : Stopper} {ck : Nat} {h t : Option Nat}
    (hs : StopInv lat now v st ck h t) (e1 : v'.queue = v.queue) (e2 : v'.sender = v.sender) (e3 : v'.done = v.done)
    (e4 : v'.taken = v.taken) : StopInv lat now v' st ck h t := by
  have hl : Late lat now v' ↔ Late lat now v := by unfold Late; rw [e3]
  refine ⟨hs.run, hs.halted, hs.opened, ?_, ?_, ?_, ?_⟩
  · rw [e1, e2, e3, e4, hl]; exact hs.check
  · rw [e2, e3, hl]; exact hs.emptied
  · rw [e2, e3]; exact hs.waiting
  · rw [e3]; exact hs.stopped

/-- One action of the routers. -/
theorem netTimes_act {c : NetConfig} {addLat : Int} {n n' : Net} {k k' : NetClock} {now : Nat} {a : NetAct}
    (h : NetTimes c now n k) (hn : n.act c a = some n') (hc : n'.crashed = none)
    (hk : k.step c addLat n now a = some k') : NetTimes c now n' k' := by
  have hR := fun j => router_act h.inv h.stop hn hc hk j
  have hS' := netStop_act c n n' a h.stop hn
  have hgrow : ∀ i, Grows now (k.queued i) (k'.queued i) ∧ Grows now (k.taken i) (k'.taken i) := by
    intro i
    rcases hR i with e | mv
    · have h1 : k'.queued i = k.queued i := congrArg RV.queued e
      have h2 : k'.taken i = k.taken i := congrArg RV.taken e
      exact ⟨.inl h1, .inl h2⟩
    · exact move_grows mv
  have hmon : k'.look = k.look ∧ k'.busy = k.busy ∧ k'.looks = k.looks := by
    clear * - hk
    cases a <;> dsimp only [NetClock.step] at hk
    case send => injection hk with hk; subst hk; exact ⟨rfl, rfl, rfl⟩
    case added => split at hk; · cases hk
                  split at hk
                  · injection hk with hk; subst hk; exact ⟨rfl, rfl, rfl⟩
                  · cases hk
    case thread =>
      split at hk
      · injection hk with hk; subst hk; exact ⟨rfl, rfl, rfl⟩
      · injection hk with hk; subst hk; exact ⟨rfl, rfl, rfl⟩
      · split at hk
        · injection hk with hk; subst hk; exact ⟨rfl, rfl, rfl⟩
        · cases hk
      · injection hk with hk; subst hk; exact ⟨rfl, rfl, rfl⟩
      · injection hk with hk; subst hk; exact ⟨rfl, rfl, rfl⟩
      · injection hk with hk; subst hk; exact ⟨rfl, rfl, rfl⟩
    case startRead => injection hk with hk; subst hk; exact ⟨rfl, rfl, rfl⟩
    case take => split at hk <;> injection hk with hk <;> subst hk <;> exact ⟨rfl, rfl, rfl⟩
    case readDone => injection hk with hk; subst hk; exact ⟨rfl, rfl, rfl⟩
    case halt => injection hk with hk; subst hk; exact ⟨rfl, rfl, rfl⟩
    case stopStep =>
      split at hk
      · split at hk
        · injection hk with hk; subst hk; exact ⟨rfl, rfl, rfl⟩
        · cases hk
      · split at hk <;> injection hk with hk <;> subst hk <;> exact ⟨rfl, rfl, rfl⟩
      · injection hk with hk; subst hk; exact ⟨rfl, rfl, rfl⟩
      · injection hk with hk; subst hk; exact ⟨rfl, rfl, rfl⟩
  have hrouter : ∀ i, RouterInv c.lat now (rvOf n' k' i) := by
    intro i
    rcases hR i with e | mv
    · rw [e]; exact h.router i
    · exact routerInv_move (h.router i) mv
  have hstream : ∀ d i, StreamInv now (svOf n' k' d i) := by
    intro d i
    rcases stream_act h.inv h.router hn hc hk d i with e | mv
    · rw [e]; exact h.stream d i
    · exact streamInv_move (h.stream d i) mv
  have hidle : ∀ i, n.stopper i = .stopped → n.sender i = .idle := by
    intro i hi
    have := h.stop i
    rw [hi] at this
    exact this
  have hfin : (∀ i, StopInv c.lat now (rvOf n' k' i) (n'.stopper i) (k'.check i) (k'.haltAt i) (k'.stopAt i)) ∧
      ∀ i, k'.stopAt i = k.stopAt i ∨ (k.stopAt i = none ∧ k'.stopAt i = some now) := by
    by_cases h1 : ∃ i, a = .halt i
    · obtain ⟨i, rfl⟩ := h1
      obtain ⟨-, -, hn1⟩ := net_act_cases hn
      injection hk with hk
      dsimp only at hn1
      unfold Net.halt at hn1
      split at hn1
      swap
      · cases hn1
      rename_i hr
      injection hn1 with hn1
      subst hn1; subst hk
      refine ⟨fun j => ?_, fun j => .inl rfl⟩
      by_cases hj : j = i
      · subst hj
        have ho := (h.halt j).opened (by rw [hr]; simp)
        dsimp only
        rw [upd_same, upd_same, upd_same, ho]
        refine ⟨by simp, fun _ => ⟨now, rfl, Nat.le_refl _⟩, fun _ => rfl, fun _ => .inl ⟨rfl, .inl rfl⟩, by simp, by simp,
          by simp⟩
      · dsimp only
        rw [upd_ne _ _ _ _ hj, upd_ne _ _ _ _ hj, upd_ne _ _ _ _ hj]
        exact stopInv_stopped (h.halt j) rfl rfl rfl rfl
    by_cases h2 : ∃ i, a = .stopStep i
    · obtain ⟨i, rfl⟩ := h2
      obtain ⟨-, -, hn1⟩ := net_act_cases hn
      dsimp only [NetClock.step] at hk
      have hne : ∀ st, n' = { n with stopper := upd n.stopper i st } → (∀ j, j ≠ i → k'.stopAt j = k.stopAt j) →
          k'.check = k.check → k'.haltAt = k.haltAt → k'.queued = k.queued → k'.taken = k.taken → k'.done = k.done →
          StopInv c.lat now (rvOf n k i) st (k.check i) (k.haltAt i) (k'.stopAt i) → 
          (k'.stopAt i = k.stopAt i ∨ (k.stopAt i = none ∧ k'.stopAt i = some now)) →
          (∀ i, StopInv c.lat now (rvOf n' k' i) (n'.stopper i) (k'.check i) (k'.haltAt i) (k'.stopAt i)) ∧
          ∀ i, k'.stopAt i = k.stopAt i ∨ (k.stopAt i = none ∧ k'.stopAt i = some now) := by
        intro st hst hsa hck hha hqd htk hdn hinv hst2
        subst hst
        refine ⟨fun j => ?_, fun j => ?_⟩
        · rw [hck, hha]
          by_cases hj : j = i
          · subst hj
            dsimp only
            rw [upd_same]
            exact stopInv_stopped hinv rfl rfl (congrFun hdn j) (congrFun htk j)
          · dsimp only
            rw [upd_ne _ _ _ _ hj, hsa j hj]
            exact stopInv_stopped (h.halt j) rfl rfl (congrFun hdn j) (congrFun htk j)
        · by_cases hj : j = i
          · subst hj; exact hst2
          · exact .inl (hsa j hj)
      have hi := h.halt i
      rcases stopStep_idle h.stop hn1 with ⟨h3, h4, h5⟩ | ⟨h3, h4, h5⟩ | ⟨h3, h4, h5⟩
      · rw [h3] at hk
        dsimp only at hk
        split at hk
        swap
        · cases hk
        rename_i hck
        injection hk with hk
        subst hk
        rw [h3] at hi
        refine hne _ h5 (fun _ _ => rfl) rfl rfl rfl rfl rfl ?_ (.inl rfl)
        refine ⟨by simp, fun _ => hi.halted (by simp), fun _ => hi.opened (by simp), by simp, fun _ => ?_, by simp, by simp⟩
        rcases hi.check rfl with ⟨-, h6⟩ | ⟨h6, -⟩
        · rcases h6 with h6 | h6 | h6 | h6 | h6
          · exact .inl h6
          · exact absurd h4 h6
          · exact .inr (.inl h6)
          · exact .inr (.inr (.inl h6))
          · exact .inr (.inr (.inr h6))
        · omega
      · rw [h3] at hk
        dsimp only at hk
        rw [h4] at hk
        simp only [if_true, Option.some.injEq] at hk
        subst hk
        rw [h3] at hi
        refine hne _ h5 (fun _ _ => rfl) rfl rfl rfl rfl rfl ?_ (.inl rfl)
        exact ⟨by simp, fun _ => hi.halted (by simp), fun _ => hi.opened (by simp), by simp, by simp,
          fun _ _ => .inl h4, by simp⟩
      · have hk2 : k' = { k with stopAt := upd k.stopAt i (some now) } := by
          rcases h3 with ⟨h3, h6⟩ | ⟨m, h3⟩
          · rw [h3] at hk
            dsimp only at hk
            rw [h6] at hk
            simpa using hk.symm
          · rw [h3] at hk
            simpa using hk.symm
        have hns : n.stopper i ≠ .stopped := by
          rcases h3 with ⟨h3, h6⟩ | ⟨m, h3⟩ <;> rw [h3] <;> simp
        have hnr : n.stopper i ≠ .running := by
          rcases h3 with ⟨h3, h6⟩ | ⟨m, h3⟩ <;> rw [h3] <;> simp
        subst hk2
        obtain ⟨x, e1, e2⟩ := hi.halted hnr
        have hd : k.haltAt i = some now ∨ (rvOf n k i).sender ≠ .idle ∨ (rvOf n k i).done.getLast? = some now ∨
            Late c.lat now (rvOf n k i) := by
          rcases h3 with ⟨h3, h6⟩ | ⟨m, h3⟩
          · exact hi.emptied h3
          · rcases hi.waiting m h3 with h6 | h6
            · have h4' : (rvOf n k i).sender = .idle := h4
              rw [h4'] at h6; cases h6
            · exact .inr (.inr (.inl h6))
        obtain ⟨h7, h8⟩ := stop_now (h.router i) e1 e2 h4 hd
        refine hne _ h5 (fun j hj => upd_ne _ _ _ _ hj) rfl rfl rfl rfl rfl ?_
          (.inr ⟨hi.opened hns, upd_same _ _ _⟩)
        refine ⟨by simp, fun _ => ⟨x, e1, e2⟩, by simp, by simp, by simp, by simp, fun _ => ?_⟩
        exact ⟨x, now, e1, upd_same _ _ _, h7, h8, Nat.le_refl _⟩
    · obtain ⟨e1, e2, e3, e4⟩ := stopper_same hn hk (fun i e => h1 ⟨i, e⟩) (fun i e => h2 ⟨i, e⟩)
      rw [e1, e2, e3, e4]
      refine ⟨fun j => ?_, fun j => .inl rfl⟩
      rcases hR j with e | mv
      · rw [e]; exact h.halt j
      · exact stopInv_move (h.router j) Iff.rfl (hidle j) (by simp [rvOf, e1]) (h.halt j) mv
  obtain ⟨m1, m2, m3⟩ := hmon
  refine ⟨netInv_act c n n' a h.inv hn, hS', hrouter, hstream, hfin.1, ?_, fun j hj => ?_⟩
  · rw [m1, m2, m3]
    exact monInv_grow h.mon (fun i => (hgrow i).1) (fun i => (hgrow i).2) hfin.2
  · rw [← h.far j hj]
    have hi := (net_act_cases hn).2.1
    have hji : j ≠ a.tile := fun e => hj (e ▸ hi)
    by_cases h1 : ∃ i, a = .halt i
    · obtain ⟨i, rfl⟩ := h1
      obtain ⟨-, -, hn1⟩ := net_act_cases hn
      dsimp only at hn1
      unfold Net.halt at hn1
      split at hn1
      swap
      · cases hn1
      injection hn1 with hn1
      subst hn1
      exact upd_ne _ _ _ _ hji
    by_cases h2 : ∃ i, a = .stopStep i
    · obtain ⟨i, rfl⟩ := h2
      obtain ⟨-, -, hn1⟩ := net_act_cases hn
      rcases stopStep_idle h.stop hn1 with ⟨h3, h4, h5⟩ | ⟨h3, h4, h5⟩ | ⟨h3, h4, h5⟩ <;> subst h5 <;>
        exact upd_ne _ _ _ _ hji
    · rw [(stopper_same hn hk (fun i e => h1 ⟨i, e⟩) (fun i e => h2 ⟨i, e⟩)).1]

/-- What is true when nothing is left to do at the current time. -/
structure NetQuiet (c : NetConfig) (now : Nat) (n : Net) (k : NetClock) : Prop where
  handed : ∀ i p, n.sender i ≠ .handed p
  flying : ∀ i p b, n.sender i = .flying p b → k.flight i ≠ now
  put : ∀ i, (n.sender i).nPut = 0
  idle : ∀ i, n.sender i = .idle → n.queue i = [] ∨ n.stopper i = .stopped
  waits : ∀ d i, (svOf n k d i).waits → (svOf n k d i).full ≠ 0
  asks : ∀ d i, (svOf n k d i).asks → (svOf n k d i).full = 0
  check : ∀ i, n.stopper i = .checking → k.check i ≠ now
  emptied : ∀ i, n.stopper i ≠ .emptied
  waiting : ∀ i m, n.stopper i = .waiting m → (n.sender i).busy = true
  got : ∀ i s x, n.reader i ≠ .got s x
  adds : ∀ i, i < c.tiles → (k.adds i).head? = some now → n.adding i = 0
  look : k.look ≠ now

theorem netQuiet_of {c : NetConfig} {addLat : Int} {now : Nat} {n : Net} {k : NetClock} (h : NetTimes c now n k)
    (hc : n.crashed = none) (hq : k.quiet c addLat n now = true) : NetQuiet c now n k := by
  unfold NetClock.quiet at hq
  rw [Bool.and_eq_true] at hq
  obtain ⟨hl, hq⟩ := hq
  rw [List.all_eq_true] at hq
  have hR : ∀ i, i < c.tiles → k.routerQuiet c addLat n now i = true := fun i hi => hq i (List.mem_range.2 hi)
  have hact : ∀ a : NetAct, a.tile < c.tiles → n.act c a = (match a with
      | .send i target data => n.sendIf i target data
      | .added i => n.added i
      | .thread i => n.thread c i
      | .startRead i source => n.startRead c i source
      | .take i => n.take i
      | .readDone i => (n.readDone i).map Prod.fst
      | .halt i => n.halt i
      | .stopStep i => n.stopStep i) := by
    intro a ha
    unfold Net.act
    rw [if_neg (by simp [hc, ha])]
    cases a <;> rfl
  have hthread : ∀ i, n.stopper i ≠ .stopped → i < c.tiles → n.thread c i = none ∨
      k.step c addLat n now (.thread i) = none := by
    intro i _ hi
    have := hR i hi
    unfold NetClock.routerQuiet NetClock.ready at this
    simp only [Bool.and_eq_true, Bool.not_eq_true', Bool.and_eq_false_iff] at this
    have h1 := this.1.1.1.1.2
    rw [hact (.thread i) hi] at h1
    simpa using h1
  have hstop : ∀ i, i < c.tiles → n.stopStep i = none ∨ k.step c addLat n now (.stopStep i) = none := by
    intro i hi
    have := hR i hi
    unfold NetClock.routerQuiet NetClock.ready at this
    simp only [Bool.and_eq_true, Bool.not_eq_true', Bool.and_eq_false_iff] at this
    have h1 := this.1.2
    rw [hact (.stopStep i) hi] at h1
    simpa using h1
  have hrec : ∀ i, i < c.tiles → k.recheck n now i = none := by
    intro i hi
    have := hR i hi
    unfold NetClock.routerQuiet NetClock.ready at this
    simp only [Bool.and_eq_true, Bool.not_eq_true', Bool.and_eq_false_iff] at this
    simpa using this.2
  have htake : ∀ i, i < c.tiles → n.take i = none ∨ k.step c addLat n now (.take i) = none := by
    intro i hi
    have := hR i hi
    unfold NetClock.routerQuiet NetClock.ready at this
    simp only [Bool.and_eq_true, Bool.not_eq_true', Bool.and_eq_false_iff] at this
    have h1 := this.1.1.1.2
    rw [hact (.take i) hi] at h1
    simpa using h1
  have hread : ∀ i, i < c.tiles → n.readDone i = none := by
    intro i hi
    have := hR i hi
    unfold NetClock.routerQuiet NetClock.ready at this
    simp only [Bool.and_eq_true, Bool.not_eq_true', Bool.and_eq_false_iff] at this
    have h1 := this.1.1.2
    rw [hact (.readDone i) hi] at h1
    simpa [NetClock.step] using h1
  have hadd : ∀ i, i < c.tiles → n.added i = none ∨ k.step c addLat n now (.added i) = none := by
    intro i hi
    have := hR i hi
    unfold NetClock.routerQuiet NetClock.ready at this
    simp only [Bool.and_eq_true, Bool.not_eq_true', Bool.and_eq_false_iff] at this
    have h1 := this.1.1.1.1.1
    rw [hact (.added i) hi] at h1
    simpa using h1
  have hns : ∀ i, n.sender i ≠ .idle → n.stopper i ≠ .stopped ∧ i < c.tiles := by
    intro i hi
    constructor
    · intro hs
      have := h.stop i
      rw [hs] at this
      exact hi this
    · by_contra hc
      exact hi (h.inv.quiet i hc).2.1
  refine ⟨?_, ?_, ?_, ?_, ?_, ?_, ?_, ?_, ?_, ?_, ?_, ?_⟩
  · intro i p hs
    obtain ⟨h1, h2⟩ := hns i (by rw [hs]; simp)
    rcases hthread i h1 h2 with h3 | h3
    · unfold Net.thread at h3
      rw [if_neg h1, hs] at h3
      dsimp only at h3
      split at h3
      · cases h3
      split at h3
      · cases h3
      split at h3 <;> cases h3
    · dsimp only [NetClock.step] at h3
      rw [hs] at h3
      cases h3
  · intro i p b hs hf
    obtain ⟨h1, h2⟩ := hns i (by rw [hs]; simp)
    rcases hthread i h1 h2 with h3 | h3
    · unfold Net.thread at h3
      rw [if_neg h1, hs] at h3
      dsimp only at h3
      split at h3 <;> cases h3
    · dsimp only [NetClock.step] at h3
      rw [hs] at h3
      simp [hf] at h3
  · intro i
    cases hs : n.sender i with
    | idle => rfl
    | handed p => rfl
    | flying p b => rfl
    | putting p b => rfl
    | deposited p b =>
      obtain ⟨h1, h2⟩ := hns i (by rw [hs]; simp)
      rcases hthread i h1 h2 with h3 | h3
      · unfold Net.thread at h3
        rw [if_neg h1, hs] at h3
        cases h3
      · dsimp only [NetClock.step] at h3
        rw [hs] at h3
        cases h3
    | delivered p b =>
      obtain ⟨h1, h2⟩ := hns i (by rw [hs]; simp)
      rcases hthread i h1 h2 with h3 | h3
      · unfold Net.thread at h3
        rw [if_neg h1, hs] at h3
        cases h3
      · dsimp only [NetClock.step] at h3
        rw [hs] at h3
        cases h3
  · intro i hs
    by_cases h1 : n.stopper i = .stopped
    · exact .inr h1
    left
    by_cases h2 : i < c.tiles
    swap
    · exact (h.inv.quiet i h2).1
    rcases hthread i h1 h2 with h3 | h3
    · unfold Net.thread at h3
      rw [if_neg h1, hs] at h3
      dsimp only at h3
      split at h3
      · assumption
      · cases h3
    · dsimp only [NetClock.step] at h3
      rw [hs] at h3
      cases h3
  · rintro d i ⟨p, b, hs, hd⟩ hf
    obtain ⟨h1, h2⟩ := hns i (by rw [hs]; simp)
    have hps := (h.inv.src i).2 p (by rw [hs]; rfl)
    have hf' : (n.buf d i).length = 0 := hf
    rcases hthread i h1 h2 with h3 | h3
    · unfold Net.thread at h3
      rw [if_neg h1, hs] at h3
      dsimp only at h3
      rw [hps, show p.target.toNat = d by omega, hf', if_pos (by decide)] at h3
      cases h3
    · dsimp only [NetClock.step] at h3
      rw [hs] at h3
      cases h3
  · intro d i hs
    by_contra hf
    have hs' : n.reader d = .waiting i := hs
    have hf' : (n.buf d i).length ≠ 0 := hf
    have h2 : d < c.tiles := by
      by_contra hc
      have := (h.inv.quiet d hc).2.2.1
      rw [this] at hs'
      cases hs'
    rcases htake d h2 with h3 | h3
    · unfold Net.take at h3
      rw [hs'] at h3
      dsimp only at h3
      split at h3
      · rename_i hb; rw [hb] at hf'; exact hf' rfl
      · cases h3
    · dsimp only [NetClock.step] at h3
      rw [hs'] at h3
      cases h3
  · intro i hs hck
    have h2 : i < c.tiles := by
      by_contra hc
      rw [h.far i hc] at hs
      cases hs
    have h4 := hrec i h2
    unfold NetClock.recheck at h4
    rw [hs] at h4
    simp only [hck, true_and] at h4
    rcases hstop i h2 with h3 | h3
    · unfold Net.stopStep at h3
      rw [hs] at h3
      dsimp only at h3
      split at h3
      · cases h3
      · rename_i hq; simp [hq] at h4
    · dsimp only [NetClock.step] at h3
      rw [hs] at h3
      simp [hck] at h3
  · intro i hs
    have h2 : i < c.tiles := by
      by_contra hc
      rw [h.far i hc] at hs
      cases hs
    have hh : ∀ p, n.sender i ≠ .handed p := by
      intro p hsd
      obtain ⟨h1, h2⟩ := hns i (by rw [hsd]; simp)
      rcases hthread i h1 h2 with h3 | h3
      · unfold Net.thread at h3
        rw [if_neg h1, hsd] at h3
        dsimp only at h3
        split at h3
        · cases h3
        split at h3
        · cases h3
        split at h3 <;> cases h3
      · dsimp only [NetClock.step] at h3
        rw [hsd] at h3
        cases h3
    rcases hstop i h2 with h3 | h3
    · unfold Net.stopStep at h3
      rw [hs] at h3
      dsimp only at h3
      split at h3
      · rename_i hk; exact hh _ hk
      · split at h3 <;> cases h3
    · dsimp only [NetClock.step] at h3
      rw [hs] at h3
      dsimp only at h3
      split at h3 <;> cases h3
  · intro i m hs
    have h2 : i < c.tiles := by
      by_contra hc
      rw [h.far i hc] at hs
      cases hs
    have hst := h.stop i
    rw [hs] at hst
    rcases hst.2 with h4 | h4
    · exact h4.1
    · exfalso
      rcases hstop i h2 with h3 | h3
      · unfold Net.stopStep at h3
        rw [hs] at h3
        dsimp only at h3
        rw [if_pos (by omega)] at h3
        cases h3
      · dsimp only [NetClock.step] at h3
        rw [hs] at h3
        cases h3
  · intro i s x hs
    have h2 : i < c.tiles := by
      by_contra hc
      rw [(h.inv.quiet i hc).2.2.1] at hs
      cases hs
    have h3 := hread i h2
    unfold Net.readDone at h3
    rw [hs] at h3
    cases h3
  · intro i h2 hh
    rcases hadd i h2 with h3 | h3
    · unfold Net.added at h3
      split at h3
      · assumption
      · cases h3
    · dsimp only [NetClock.step] at h3
      split at h3
      · rename_i e; rw [e] at hh; cases hh
      · rename_i e
        rw [e] at hh
        simp only [List.head?_cons, Option.some.injEq] at hh
        rw [if_pos hh] at h3
        cases h3
  · intro hk
    unfold NetClock.monitor at hl
    rw [if_pos hk] at hl
    cases hl

/-- Time passes. -/
theorem netTimes_tick {c : NetConfig} {now : Nat} {n : Net} {k : NetClock} (h : NetTimes c now n k)
    (q : NetQuiet c now n k) : NetTimes c (now + 1) n k :=
  ⟨h.inv, h.stop, fun i => routerInv_tick (h.router i) (q.handed i) (q.flying i) (q.put i) (q.idle i),
    fun d i => streamInv_tick (h.stream d i) (q.waits d i) (q.asks d i),
    fun i => stopInv_tick (h.halt i) (q.check i) (q.emptied i) (q.waiting i),
    monInv_tick h.mon q.look, h.far⟩

/-- A check that finds packets. -/
theorem netTimes_recheck {c : NetConfig} {now : Nat} {n : Net} {k k' : NetClock} (h : NetTimes c now n k) {i : Nat}
    (hk : k.recheck n now i = some k') : NetTimes c now n k' := by
  unfold NetClock.recheck at hk
  split at hk
  swap
  · cases hk
  rename_i hs
  split at hk
  swap
  · cases hk
  rename_i hq
  injection hk with hk
  subst hk
  refine ⟨h.inv, h.stop, h.router, h.stream, fun j => ?_, h.mon, h.far⟩
  by_cases hj : j = i
  · subst hj
    have hi := h.halt j
    dsimp only
    rw [upd_same]
    exact ⟨hi.run, hi.halted, hi.opened, fun _ => .inr ⟨rfl, .inl hq.2⟩, hi.emptied, hi.waiting, hi.stopped⟩
  · dsimp only
    rw [upd_ne _ _ _ _ hj]
    exact h.halt j

/-- The packets after those taken are in the queue. -/
theorem queue_index {lat now : Nat} {v : RV} (h : RouterInv lat now v) : v.sent.length = v.taken.length + v.queue.length := by
  have h1 := congrArg List.length h.rest
  rw [List.length_drop, List.length_append] at h1
  have h2 := h.lenT
  have h3 := h.le
  have : v.sender.packet.toList.length = v.sender.nTaken := by cases v.sender <;> rfl
  omega

/-- One round of the monitor. -/
theorem netTimes_monitor {c : NetConfig} {now : Nat} {n : Net} {k k' : NetClock} (h : NetTimes c now n k)
    (hk : k.monitor c n now = some k') : NetTimes c now n k' := by
  unfold NetClock.monitor at hk
  split at hk
  swap
  · cases hk
  rename_i hl
  injection hk with hk
  subst hk
  refine ⟨h.inv, h.stop, h.router, h.stream, h.halt, ?_, h.far⟩
  have hm := h.mon
  have hlen := hm.len
  rw [hl] at hlen
  refine ⟨by simp [hlen], .inr rfl, ?_, ?_, ?_⟩
  · dsimp only
    rw [List.count_append, ← hm.busy]
    cases n.anyQueued c <;> simp
  · intro x hx
    by_cases hxl : x < k.looks.length
    · dsimp only at hx
      rw [List.getElem?_append_left hxl] at hx
      exact hm.seen x hx
    · have hxn : x = now := by
        have := (List.getElem?_eq_some_iff.1 hx).1
        simp only [List.length_append, List.length_singleton] at this
        omega
      subst hxn
      dsimp only at hx
      rw [List.getElem?_append_right (by omega), hlen] at hx
      simp only [Nat.sub_self, List.getElem?_cons_zero, Option.some.injEq] at hx
      unfold Net.anyQueued at hx
      rw [List.any_eq_true] at hx
      obtain ⟨i, hi, hx⟩ := hx
      simp only [ne_eq, Bool.and_eq_true, decide_eq_true_eq, Bool.not_eq_true', List.isEmpty_eq_false_iff] at hx
      have hr := h.router i
      have hql := queue_index hr
      have hq0 : 0 < (n.queue i).length := List.length_pos_iff.2 hx.2
      have hQ := hr.lenQ
      simp only [rvOf] at hql hQ
      have hlt : (k.taken i).length < (k.queued i).length := by omega
      refine ⟨i, List.mem_range.1 hi, (k.taken i).length, _, List.getElem?_eq_getElem hlt, ?_, ?_, ?_⟩
      · exact hr.leQ _ (List.getElem_mem hlt)
      · intro t ht; simp at ht
      · intro t ht
        have := (h.halt i).opened hx.1
        rw [this] at ht; cases ht
  · intro x hx i hi m q h1 h2 h3
    by_cases hxl : x < k.looks.length
    · dsimp only at hx
      rw [List.getElem?_append_left hxl] at hx
      exact hm.unseen x hx i hi m q h1 h2 h3
    · have hxn : x = now := by
        have := (List.getElem?_eq_some_iff.1 hx).1
        simp only [List.length_append, List.length_singleton] at this
        omega
      subst hxn
      dsimp only at hx h1 h2 h3
      rw [List.getElem?_append_right (by omega), hlen] at hx
      simp only [Nat.sub_self, List.getElem?_cons_zero, Option.some.injEq] at hx
      unfold Net.anyQueued at hx
      rw [List.any_eq_false] at hx
      have hxi := hx i (List.mem_range.2 hi)
      simp only [ne_eq, Bool.and_eq_true, decide_eq_true_eq, Bool.not_eq_true', List.isEmpty_eq_false_iff, not_and,
        not_not] at hxi
      by_cases hs : n.stopper i = .stopped
      · obtain ⟨a, b, e1, e2, e3, e4, e5⟩ := (h.halt i).stopped hs
        exact ⟨b, e2, e5⟩
      · have hq := hxi hs
        have hr := h.router i
        have hql := queue_index hr
        have hQ := hr.lenQ
        simp only [rvOf] at hql hQ
        rw [hq] at hql
        have hml := (List.getElem?_eq_some_iff.1 h1).1
        have hmt : m < (k.taken i).length := by simp only [List.length_nil] at hql; omega
        have := h3 _ (List.getElem?_eq_getElem hmt)
        have := hr.leT _ (List.getElem_mem hmt)
        omega

/-- The invariant holds in every state of a run. -/
theorem netTimes_tact {c : NetConfig} {addLat : Int} {s s' : TNet} {a : TNetAct} (h : NetTimes c s.now s.net s.clk)
    (hs : s.act c addLat a = some s') : NetTimes c s'.now s'.net s'.clk := by
  unfold TNet.act at hs
  split at hs
  · cases hs
  rename_i hc
  have hc0 : s.net.crashed = none := by simpa using hc
  split at hs
  · split at hs
    swap
    · cases hs
    rename_i n k hn hk
    injection hs with hs
    subst hs
    by_cases hcr : n.crashed = none
    · have := netTimes_act h hn hcr hk
      simpa [hcr] using this
    · obtain ⟨e, rfl⟩ := net_act_crash hn hcr
      have e1 : (s.net.crash e).crashed.isSome = true := rfl
      dsimp only
      rw [if_pos e1]
      exact ⟨netInv_crash c _ h.inv e, h.stop, h.router, h.stream, h.halt, h.mon, h.far⟩
  · split at hs
    swap
    · cases hs
    rw [Option.map_eq_some_iff] at hs
    obtain ⟨k, hk, rfl⟩ := hs
    exact netTimes_recheck h hk
  · rw [Option.map_eq_some_iff] at hs
    obtain ⟨k, hk, rfl⟩ := hs
    exact netTimes_monitor h hk
  · split at hs
    swap
    · cases hs
    rename_i hq
    injection hs with hs
    subst hs
    exact netTimes_tick h (netQuiet_of h hc0 hq)

theorem netTimes_run {c : NetConfig} {addLat : Int} (as : List TNetAct) :
    ∀ {s s' : TNet}, NetTimes c s.now s.net s.clk → s.run c addLat as = some s' → NetTimes c s'.now s'.net s'.clk := by
  induction as with
  | nil => intro s s' h hs; injection hs with hs; subst hs; exact h
  | cons a as ih =>
    intro s s' h hs
    simp only [TNet.run, Option.bind_eq_some_iff] at hs
    obtain ⟨s₁, h1, h2⟩ := hs
    exact ih (netTimes_tact h h1) h2

end Ramwich
