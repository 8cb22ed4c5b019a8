import Verif.Lemmas.Network
import Verif.Spec.TimedNetwork

/-! # One send thread and one stream of packets with times -/
namespace Ramwich

open Spec

theorem prefix_snoc {α : Type} {l L : List α} {x : α} (h : l <+: L) (hx : L[l.length]? = some x) : l ++ [x] <+: L := by
  obtain ⟨r, rfl⟩ := h
  cases r with
  | nil => simp at hx
  | cons y ys =>
    simp only [List.getElem?_append_right (Nat.le_refl _), Nat.sub_self, List.getElem?_cons_zero, Option.some.injEq] at hx
    subst hx
    exact ⟨ys, by simp⟩

theorem zipWith_prefix {α β γ : Type} (f : α → β → γ) {a a' : List α} {b b' : List β} (ha : a <+: a') (hb : b <+: b') :
    List.zipWith f a b <+: List.zipWith f a' b' := by
  induction a generalizing a' b b' with
  | nil => simp
  | cons x a ih =>
    cases b with
    | nil => simp
    | cons y b =>
      obtain ⟨r, rfl⟩ := ha
      obtain ⟨t, rfl⟩ := hb
      simp only [List.cons_append, List.zipWith_cons_cons, List.cons_prefix_cons, true_and]
      exact ih ⟨r, rfl⟩ ⟨t, rfl⟩

theorem prefix_append' {α : Type} (l m : List α) : l <+: l ++ m := ⟨m, rfl⟩

theorem getElem?_zipWith_some {α β γ : Type} (f : α → β → γ) {a : List α} {b : List β} {n : Nat} {x : α} {y : β}
    (ha : a[n]? = some x) (hb : b[n]? = some y) : (List.zipWith f a b)[n]? = some (f x y) := by
  rw [List.getElem?_zipWith, ha, hb]

theorem cons_last (l : List Nat) : (0 :: l)[l.length]? = some (l.getLast?.getD 0) := by
  rcases List.eq_nil_or_concat l with rfl | ⟨m, x, rfl⟩
  · rfl
  · simp

theorem last_snoc {α : Type} (l : List α) (x : α) : (l ++ [x]).getLast? = some x := by simp

/-- 1 if the thread has taken a packet. -/
def Sender.nTaken : Sender → Nat
  | .idle => 0
  | _ => 1
/-- 1 if the packet has arrived. -/
def Sender.nArrived : Sender → Nat
  | .putting .. => 1
  | .deposited .. => 1
  | .delivered .. => 1
  | _ => 0
/-- 1 if the packet is in the buffer of its target. -/
def Sender.nPut : Sender → Nat
  | .deposited .. => 1
  | .delivered .. => 1
  | _ => 0

/-- One router as its send thread sees it. -/
structure RV where
  sender : Sender
  queue : List Packet
  stopped : Prop
  sent : List Packet
  flight : Nat
  queued : List Nat
  taken : List Nat
  arrived : List Nat
  put : List Nat
  done : List Nat

structure RouterInv (lat now : Nat) (v : RV) : Prop where
  rest : v.sent.drop v.done.length = v.sender.packet.toList ++ v.queue
  le : v.done.length ≤ v.sent.length
  lenQ : v.queued.length = v.sent.length
  lenT : v.taken.length = v.done.length + v.sender.nTaken
  lenA : v.arrived.length = v.done.length + v.sender.nArrived
  lenP : v.put.length = v.done.length + v.sender.nPut
  taken : v.taken <+: List.zipWith max v.queued (0 :: v.done)
  arrived : v.arrived <+: v.taken.map (· + lat)
  done : v.done <+: v.put
  apart : ∀ m a b : Nat, v.arrived[m]? = some a → v.put[m]? = some b → a ≤ b
  leQ : ∀ x ∈ v.queued, x ≤ now
  leT : ∀ x ∈ v.taken, x ≤ now
  leA : ∀ x ∈ v.arrived, x ≤ now
  leP : ∀ x ∈ v.put, x ≤ now
  leD : ∀ x ∈ v.done, x ≤ now
  handed : ∀ p, v.sender = .handed p → v.taken.getLast? = some now
  flying : ∀ p b, v.sender = .flying p b → ∃ t, v.taken.getLast? = some t ∧ v.flight = t + lat ∧ now ≤ v.flight
  putNow : v.sender.nPut = 1 → v.put.getLast? = some now
  idle : v.sender = .idle → v.queue ≠ [] → ¬v.stopped → v.queued[v.done.length]? = some now ∨ v.done.getLast? = some now

/-- What can happen to a router. -/
inductive RMove (lat now : Nat) (v : RV) : RV → Prop
  | send (p : Packet) : RMove lat now v { v with
      queue := v.queue ++ [p], sent := v.sent ++ [p], queued := v.queued ++ [now] }
  | take (p : Packet) (rest : List Packet) (h : v.sender = .idle) (hs : ¬v.stopped) (hq : v.queue = p :: rest) :
      RMove lat now v { v with sender := .handed p, queue := rest, taken := v.taken ++ [now] }
  | fly (p : Packet) (b : Bool) (h : v.sender = .handed p) :
      RMove lat now v { v with sender := .flying p b, flight := now + lat }
  | arrive (p : Packet) (b : Bool) (h : v.sender = .flying p b) (hf : v.flight = now) :
      RMove lat now v { v with sender := .putting p b, arrived := v.arrived ++ [now] }
  | put (p : Packet) (b : Bool) (h : v.sender = .putting p b) :
      RMove lat now v { v with sender := .deposited p b, put := v.put ++ [now] }
  | deposit (p : Packet) (b : Bool) (h : v.sender = .deposited p b) :
      RMove lat now v { v with sender := .delivered p b }
  | finish (p : Packet) (b : Bool) (h : v.sender = .delivered p b) :
      RMove lat now v { v with sender := .idle, done := v.done ++ [now] }
  | stop (h : v.sender = .idle) : RMove lat now v { v with stopped := True }

theorem mem_snoc {l : List Nat} {now : Nat} (h : ∀ x ∈ l, x ≤ now) : ∀ x ∈ l ++ [now], x ≤ now := by
  intro x hx
  rcases List.mem_append.1 hx with hx | hx
  · exact h x hx
  · rw [List.mem_singleton.1 hx]

theorem routerInv_move {lat now : Nat} {v v' : RV} (h : RouterInv lat now v) (st : RMove lat now v v') :
    RouterInv lat now v' := by
  cases st with
  | send p =>
    refine ⟨?_, ?_, ?_, h.lenT, h.lenA, h.lenP, ?_, h.arrived, h.done, h.apart, mem_snoc h.leQ, h.leT, h.leA, h.leP, h.leD,
      h.handed, h.flying, h.putNow, ?_⟩
    · show (v.sent ++ [p]).drop v.done.length = v.sender.packet.toList ++ (v.queue ++ [p])
      rw [List.drop_append_of_le_length h.le, h.rest, List.append_assoc]
    · exact le_trans h.le (by simp)
    · simp [h.lenQ]
    · exact h.taken.trans (zipWith_prefix _ (prefix_append' _ _) (List.prefix_refl _))
    · intro hs _ hn
      dsimp only at hs
      by_cases hq : v.queue = []
      · left
        have hr := h.rest
        rw [hs, hq] at hr
        simp only [Sender.packet, Option.toList_none, List.append_nil, List.drop_eq_nil_iff] at hr
        have : v.done.length = v.queued.length := by rw [h.lenQ]; exact le_antisymm h.le hr
        show (v.queued ++ [now])[v.done.length]? = some now
        rw [this]; simp
      · rcases h.idle hs hq hn with h1 | h1
        · left
          show (v.queued ++ [now])[v.done.length]? = some now
          rw [List.getElem?_append_left]
          · exact h1
          · exact (List.getElem?_eq_some_iff.1 h1).1
        · exact .inr h1
  | take p rest hs hn hq =>
    have hr := h.rest
    rw [hs, hq] at hr
    simp only [Sender.packet, Option.toList_none, List.nil_append] at hr
    have hlt : v.done.length < v.sent.length := by
      by_contra hc
      rw [List.drop_eq_nil_of_le (Nat.le_of_not_lt hc)] at hr
      cases hr
    have hT : v.taken.length = v.done.length := by rw [h.lenT, hs]; rfl
    have hqn : v.queued[v.done.length]? = some (v.queued[v.done.length]'(by rw [h.lenQ]; exact hlt)) :=
      List.getElem?_eq_getElem _
    have hmax : max (v.queued[v.done.length]'(by rw [h.lenQ]; exact hlt)) (v.done.getLast?.getD 0) = now := by
      have h1 : v.queued[v.done.length]'(by rw [h.lenQ]; exact hlt) ≤ now := h.leQ _ (List.getElem_mem _)
      have h2 : v.done.getLast?.getD 0 ≤ now := by
        cases hg : v.done.getLast? with
        | none => simp
        | some x => exact h.leD x (List.mem_of_getLast? hg)
      rcases h.idle hs (by rw [hq]; simp) hn with h3 | h3
      · rw [hqn] at h3
        injection h3 with h3
        omega
      · rw [h3] at h2 ⊢
        simp only [Option.getD_some]
        omega
    refine ⟨?_, h.le, h.lenQ, ?_, ?_, ?_, ?_, ?_, h.done, h.apart, h.leQ, mem_snoc h.leT, h.leA, h.leP, h.leD, ?_, ?_, ?_, ?_⟩
    · show v.sent.drop v.done.length = [p] ++ rest
      rw [hr]; rfl
    · simp [Sender.nTaken, hT]
    · have := h.lenA; rw [hs] at this; exact this
    · have := h.lenP; rw [hs] at this; exact this
    · refine prefix_snoc h.taken ?_
      rw [hT, getElem?_zipWith_some max hqn (cons_last v.done), hmax]
    · exact h.arrived.trans (by simp)
    · intro p' hp; exact last_snoc _ _
    · intro p' b hp; cases hp
    · intro hp; cases hp
    · intro hp; cases hp
  | fly p b hs =>
    refine ⟨?_, h.le, h.lenQ, ?_, ?_, ?_, h.taken, h.arrived, h.done, h.apart, h.leQ, h.leT, h.leA, h.leP, h.leD, ?_, ?_, ?_, ?_⟩
    · have := h.rest; rw [hs] at this; exact this
    · have := h.lenT; rw [hs] at this; exact this
    · have := h.lenA; rw [hs] at this; exact this
    · have := h.lenP; rw [hs] at this; exact this
    · intro p' hp; cases hp
    · intro p' b' hp; exact ⟨now, h.handed p hs, rfl, Nat.le_add_right _ _⟩
    · intro hp; cases hp
    · intro hp; cases hp
  | arrive p b hs hf =>
    obtain ⟨t, h1, h2, h3⟩ := h.flying p b hs
    have hT : v.taken.length = v.done.length + 1 := by rw [h.lenT, hs]; rfl
    have hA : v.arrived.length = v.done.length := by rw [h.lenA, hs]; rfl
    refine ⟨?_, h.le, h.lenQ, ?_, ?_, ?_, h.taken, ?_, h.done, ?_, h.leQ, h.leT, mem_snoc h.leA, h.leP, h.leD,
      ?_, ?_, ?_, ?_⟩
    · have := h.rest; rw [hs] at this; exact this
    · have := h.lenT; rw [hs] at this; exact this
    · simp [hA, Sender.nArrived]
    · have := h.lenP; rw [hs] at this; exact this
    · refine prefix_snoc h.arrived ?_
      rw [hA, List.getElem?_map]
      rw [List.getLast?_eq_getElem?, hT] at h1
      simp only [Nat.add_sub_cancel] at h1
      rw [h1, Option.map_some, ← h2, hf]
    · intro m a b h4 h5
      have hP : v.put.length = v.done.length := by rw [h.lenP, hs]; rfl
      have := (List.getElem?_eq_some_iff.1 h5).1
      refine h.apart m a b ?_ h5
      dsimp only at h4 this
      rwa [List.getElem?_append_left (by omega)] at h4
    · intro p' hp; cases hp
    · intro p' b' hp; cases hp
    · intro hp; cases hp
    · intro hp; cases hp
  | put p b hs =>
    have hP : v.put.length = v.done.length := by rw [h.lenP, hs]; rfl
    refine ⟨?_, h.le, h.lenQ, ?_, ?_, ?_, h.taken, h.arrived, ?_, ?_, h.leQ, h.leT, h.leA, mem_snoc h.leP,
      h.leD, ?_, ?_, ?_, ?_⟩
    · have := h.rest; rw [hs] at this; exact this
    · have := h.lenT; rw [hs] at this; exact this
    · have := h.lenA; rw [hs] at this; exact this
    · simp [hP, Sender.nPut]
    · exact h.done.trans (prefix_append' _ _)
    · intro m a b h4 h5
      by_cases hm : m < v.put.length
      · dsimp only at h5
        rw [List.getElem?_append_left hm] at h5
        exact h.apart m a b h4 h5
      · dsimp only at h5
        rw [List.getElem?_append_right (by omega)] at h5
        rw [List.mem_singleton.1 (List.mem_of_getElem? h5)]
        exact h.leA _ (List.mem_of_getElem? h4)
    · intro p' hp; cases hp
    · intro p' b' hp; cases hp
    · intro _; exact last_snoc _ _
    · intro hp; cases hp
  | deposit p b hs =>
    refine ⟨?_, h.le, h.lenQ, ?_, ?_, ?_, h.taken, h.arrived, h.done, h.apart, h.leQ, h.leT, h.leA, h.leP, h.leD, ?_, ?_, ?_, ?_⟩
    · have := h.rest; rw [hs] at this; exact this
    · have := h.lenT; rw [hs] at this; exact this
    · have := h.lenA; rw [hs] at this; exact this
    · have := h.lenP; rw [hs] at this; exact this
    · intro p' hp; cases hp
    · intro p' b' hp; cases hp
    · intro _; exact h.putNow (by rw [hs]; rfl)
    · intro hp; cases hp
  | finish p b hs =>
    have hP : v.put.length = v.done.length + 1 := by rw [h.lenP, hs]; rfl
    have hr := h.rest
    rw [hs] at hr
    simp only [Sender.packet, Option.toList_some, List.singleton_append] at hr
    have hlt : v.done.length < v.sent.length := by
      by_contra hc
      rw [List.drop_eq_nil_of_le (Nat.le_of_not_lt hc)] at hr
      cases hr
    refine ⟨?_, ?_, h.lenQ, ?_, ?_, ?_, ?_, h.arrived, ?_, h.apart, h.leQ, h.leT, h.leA, h.leP, mem_snoc h.leD, ?_, ?_, ?_, ?_⟩
    · show v.sent.drop (v.done ++ [now]).length = v.queue
      rw [List.length_append, List.length_singleton, ← List.drop_drop, hr]
      rfl
    · simpa [Nat.succ_le_iff] using hlt
    · have := h.lenT; rw [hs] at this; simpa [Sender.nTaken] using this
    · have := h.lenA; rw [hs] at this; simpa [Sender.nArrived] using this
    · have := h.lenP; rw [hs] at this; simpa [Sender.nPut] using this
    · exact h.taken.trans (zipWith_prefix _ (List.prefix_refl _) (by
        rw [List.cons_prefix_cons]; exact ⟨rfl, prefix_append' _ _⟩))
    · refine prefix_snoc h.done ?_
      have := h.putNow (by rw [hs]; rfl)
      rw [List.getLast?_eq_getElem?, hP, Nat.add_sub_cancel] at this
      exact this
    · intro p' hp; cases hp
    · intro p' b' hp; cases hp
    · intro hp; cases hp
    · intro _ _ _; exact .inr (last_snoc _ _)
  | stop hs =>
    exact ⟨h.rest, h.le, h.lenQ, h.lenT, h.lenA, h.lenP, h.taken, h.arrived, h.done, h.apart, h.leQ, h.leT, h.leA, h.leP, h.leD,
      h.handed, h.flying, h.putNow, fun _ _ hn => absurd trivial hn⟩

/-- Time passes when the thread has nothing to do. -/
theorem routerInv_tick {lat now : Nat} {v : RV} (h : RouterInv lat now v) (h1 : ∀ p, v.sender ≠ .handed p)
    (h2 : ∀ p b, v.sender = .flying p b → v.flight ≠ now) (h3 : v.sender.nPut = 0)
    (h4 : v.sender = .idle → v.queue = [] ∨ v.stopped) : RouterInv lat (now + 1) v := by
  refine ⟨h.rest, h.le, h.lenQ, h.lenT, h.lenA, h.lenP, h.taken, h.arrived, h.done, h.apart, ?_, ?_, ?_, ?_, ?_, ?_, ?_, ?_, ?_⟩
  · exact fun x hx => Nat.le_succ_of_le (h.leQ x hx)
  · exact fun x hx => Nat.le_succ_of_le (h.leT x hx)
  · exact fun x hx => Nat.le_succ_of_le (h.leA x hx)
  · exact fun x hx => Nat.le_succ_of_le (h.leP x hx)
  · exact fun x hx => Nat.le_succ_of_le (h.leD x hx)
  · exact fun p hp => absurd hp (h1 p)
  · intro p b hp
    obtain ⟨t, e1, e2, e3⟩ := h.flying p b hp
    have := h2 p b hp
    exact ⟨t, e1, e2, by omega⟩
  · intro hp; omega
  · intro hs hq hn
    rcases h4 hs with h5 | h5
    · exact absurd h5 hq
    · exact absurd h5 hn

/-- The stream of packets from one tile to another: whether a packet waits to be put into the buffer, the number
of packets in the buffer, whether a reader waits; the times of arrivals, of puts, of read calls, of reads. -/
structure SV where
  waits : Prop
  full : Nat
  asks : Prop
  A : List Nat
  P : List Nat
  Q : List Nat
  R : List Nat

open Classical in
structure StreamInv (now : Nat) (v : SV) : Prop where
  lenA : v.A.length = v.P.length + if v.waits then 1 else 0
  lenP : v.P.length = v.R.length + v.full
  lenQ : v.Q.length = v.R.length + if v.asks then 1 else 0
  cap : v.full ≤ 1
  put : v.P <+: List.zipWith max v.A (0 :: v.R)
  read : v.R <+: List.zipWith max v.P v.Q
  leA : ∀ x ∈ v.A, x ≤ now
  leP : ∀ x ∈ v.P, x ≤ now
  leQ : ∀ x ∈ v.Q, x ≤ now
  leR : ∀ x ∈ v.R, x ≤ now
  putNow : v.waits → v.full = 0 → v.A.getLast? = some now ∨ v.R.getLast? = some now
  readNow : v.asks → v.full ≠ 0 → v.P.getLast? = some now ∨ v.Q.getLast? = some now

/-- What can happen to a stream. -/
inductive SMove (now : Nat) (v : SV) : SV → Prop
  | arrive (h : ¬v.waits) : SMove now v { v with waits := True, A := v.A ++ [now] }
  | put (h : v.waits) (hf : v.full = 0) : SMove now v { v with waits := False, full := 1, P := v.P ++ [now] }
  | ask (h : ¬v.asks) : SMove now v { v with asks := True, Q := v.Q ++ [now] }
  | read (h : v.asks) (hf : v.full = 1) : SMove now v { v with asks := False, full := 0, R := v.R ++ [now] }

theorem last_le {l : List Nat} {now : Nat} (h : ∀ x ∈ l, x ≤ now) : l.getLast?.getD 0 ≤ now := by
  cases hg : l.getLast? with
  | none => simp
  | some x => exact h x (List.mem_of_getLast? hg)

theorem last_index {l : List Nat} {n : Nat} (h : l.length = n + 1) : l[n]? = some (l.getLast?.getD 0) := by
  rcases List.eq_nil_or_concat l with rfl | ⟨m, x, rfl⟩
  · simp at h
  · simp at h; subst h; simp

theorem streamInv_move {now : Nat} {v v' : SV} (h : StreamInv now v) (st : SMove now v v') : StreamInv now v' := by
  cases st with
  | arrive hw =>
    refine ⟨?_, h.lenP, h.lenQ, h.cap, ?_, h.read, mem_snoc h.leA, h.leP, h.leQ, h.leR, ?_, h.readNow⟩
    · have := h.lenA
      rw [if_neg hw] at this
      simp [this]
    · exact h.put.trans (zipWith_prefix _ (prefix_append' _ _) (List.prefix_refl _))
    · exact fun _ _ => .inl (last_snoc _ _)
  | put hw hf =>
    have hA := h.lenA
    rw [if_pos hw] at hA
    have hP := h.lenP
    rw [hf] at hP
    refine ⟨?_, ?_, h.lenQ, Nat.le_refl _, ?_, ?_, h.leA, mem_snoc h.leP, h.leQ, h.leR, ?_, ?_⟩
    · simp [hA]
    · simp [hP]
    · refine prefix_snoc h.put ?_
      have h1 := last_index hA
      have h2 := cons_last v.R
      rw [← hP.trans (Nat.add_zero _)] at h2
      rw [getElem?_zipWith_some max h1 h2]
      have h3 := last_le h.leA
      have h4 := last_le h.leR
      congr 1
      rcases h.putNow hw hf with h5 | h5 <;> simp only [h5, Option.getD_some] at h3 h4 ⊢ <;> omega
    · exact h.read.trans (zipWith_prefix _ (prefix_append' _ _) (List.prefix_refl _))
    · exact fun hw' => absurd hw' id
    · exact fun _ _ => .inl (last_snoc _ _)
  | ask ha =>
    refine ⟨h.lenA, h.lenP, ?_, h.cap, h.put, ?_, h.leA, h.leP, mem_snoc h.leQ, h.leR, h.putNow, ?_⟩
    · have := h.lenQ
      rw [if_neg ha] at this
      simp [this]
    · exact h.read.trans (zipWith_prefix _ (List.prefix_refl _) (prefix_append' _ _))
    · exact fun _ _ => .inr (last_snoc _ _)
  | read ha hf =>
    have hQ := h.lenQ
    rw [if_pos ha] at hQ
    have hP := h.lenP
    rw [hf] at hP
    refine ⟨h.lenA, ?_, ?_, Nat.zero_le _, ?_, ?_, h.leA, h.leP, h.leQ, mem_snoc h.leR, ?_, ?_⟩
    · simp [hP]
    · simp [hQ]
    · exact h.put.trans (zipWith_prefix _ (List.prefix_refl _) (by
        rw [List.cons_prefix_cons]; exact ⟨rfl, prefix_append' _ _⟩))
    · refine prefix_snoc h.read ?_
      rw [getElem?_zipWith_some max (last_index hP) (last_index hQ)]
      have h3 := last_le h.leP
      have h4 := last_le h.leQ
      congr 1
      rcases h.readNow ha (by rw [hf]; decide) with h5 | h5 <;> simp only [h5, Option.getD_some] at h3 h4 ⊢ <;> omega
    · exact fun _ _ => .inr (last_snoc _ _)
    · exact fun ha' => absurd ha' id

theorem streamInv_tick {now : Nat} {v : SV} (h : StreamInv now v) (h1 : v.waits → v.full ≠ 0) (h2 : v.asks → v.full = 0) :
    StreamInv (now + 1) v := by
  refine ⟨h.lenA, h.lenP, h.lenQ, h.cap, h.put, h.read, ?_, ?_, ?_, ?_, ?_, ?_⟩
  · exact fun x hx => Nat.le_succ_of_le (h.leA x hx)
  · exact fun x hx => Nat.le_succ_of_le (h.leP x hx)
  · exact fun x hx => Nat.le_succ_of_le (h.leQ x hx)
  · exact fun x hx => Nat.le_succ_of_le (h.leR x hx)
  · exact fun hw hf => absurd hf (h1 hw)
  · exact fun ha hf => absurd (h2 ha) hf

theorem timesTo_sent (d : Nat) (ps qs : List Packet) (ts : List Nat) (h : ts.length ≤ ps.length) :
    timesTo d (ps ++ qs) ts = timesTo d ps ts := by
  unfold timesTo
  congr 2
  induction ps generalizing ts with
  | nil => simp at h; subst h; simp
  | cons p ps ih =>
    cases ts with
    | nil => simp
    | cons t ts => simp only [List.cons_append, List.zip_cons_cons, ih ts (by simpa using h)]

theorem timesTo_snoc (d : Nat) (ps : List Packet) (ts : List Nat) (p : Packet) (x : Nat) (h : ps[ts.length]? = some p) :
    timesTo d ps (ts ++ [x]) = timesTo d ps ts ++ if p.target = (d : Int) then [x] else [] := by
  unfold timesTo
  induction ps generalizing ts with
  | nil => simp at h
  | cons q ps ih =>
    cases ts with
    | nil =>
      simp only [List.length_nil, List.getElem?_cons_zero, Option.some.injEq] at h
      subst h
      by_cases ht : q.target = (d : Int) <;> simp [ht]
    | cons t ts =>
      simp only [List.length_cons, List.getElem?_cons_succ] at h
      simp only [List.cons_append, List.zip_cons_cons, List.filter_cons]
      split
      · rw [List.map_cons, ih ts h]; rfl
      · exact ih ts h

end Ramwich
