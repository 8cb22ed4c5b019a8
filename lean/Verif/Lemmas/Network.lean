import Verif.Spec.Network
import Mathlib.Algebra.BigOperators.Group.Finset.Basic
import Mathlib.Algebra.Order.BigOperators.Group.Finset
import Mathlib.Data.Finset.Range

/-! # Invariants of the network -/
namespace Ramwich

open Spec
open Pipeline (upd)

theorem upd_same {β : Type} (f : Nat → β) (i : Nat) (b : β) : upd f i b i = b := if_pos rfl
theorem upd_ne {β : Type} (f : Nat → β) (i j : Nat) (b : β) (h : j ≠ i) : upd f i b j = f j := if_neg h

theorem upd_apply {β : Type} (f : Nat → β) (i j : Nat) (b : β) :
    upd f i b j = if j = i then b else f j := rfl

/-- The packet a send thread works on. -/
def Sender.packet : Sender → Option Packet
  | .idle => none
  | .handed p => some p
  | .flying p _ => some p
  | .putting p _ => some p
  | .deposited p _ => some p
  | .delivered p _ => some p

/-- The thread is past the lookup of the target. -/
def Sender.enRoute : Sender → Option (Packet × Bool)
  | .flying p b => some (p, b)
  | .putting p b => some (p, b)
  | .deposited p b => some (p, b)
  | .delivered p b => some (p, b)
  | _ => none

/-- The thread is past the lookup of the buffer. -/
def Sender.atTarget : Sender → Option Packet
  | .putting p _ => some p
  | .deposited p _ => some p
  | .delivered p _ => some p
  | _ => none

/-- The packet was put into the buffer, the send not yet counted. -/
def Sender.finishing : Sender → Nat
  | .deposited _ _ => 1
  | .delivered _ _ => 1
  | _ => 0

/-- The packet was put into the buffer of `d`, the reception not yet counted. -/
def Sender.uncounted (d : Nat) : Sender → Nat
  | .deposited p _ => if p.target = d then 1 else 0
  | _ => 0

/-- Data taken from a buffer, the read not yet counted. -/
def Reader.uncounted : Reader → Nat
  | .got _ _ => 1
  | _ => 0

/-- What the states of `stop_after_all_packets_sent` guarantee. -/
def StopOk : Stopper → List Packet → Sender → Nat → Prop
  | .running, _, _, _ => True
  | .checking, _, _, _ => True
  | .emptied, q, _, _ => q = []
  | .waiting k, q, t, n => q = [] ∧ ((t.busy = true ∧ n = k) ∨ (t = .idle ∧ n = k + 1))
  | .stopped, _, t, _ => t = .idle

structure NetInv (c : NetConfig) (s : Net) : Prop where
  src : ∀ i, (∀ p ∈ s.queue i, p.src = i) ∧ ∀ p, (s.sender i).packet = some p → p.src = i
  route : ∀ i p b, (s.sender i).enRoute = some (p, b) → 0 ≤ p.target ∧ p.target < c.tiles ∧
    c.latency p.src p.target = (c.intraLat, false) ∧ b = false
  atTarget : ∀ i p, (s.sender i).atTarget = some p → p.target ≠ p.src
  quiet : ∀ i, ¬i < c.tiles → s.queue i = [] ∧ s.sender i = .idle ∧ s.reader i = .idle ∧ s.sent i = []
  stream : ∀ i d : Nat, dataTo d (s.sent i) = s.readLog d i ++ takenFrom i (s.reader d) ++ s.buf d i
    ++ dataTo d (s.sender i).held.toList ++ dataTo d (s.queue i)
  cap : ∀ d i, (s.buf d i).length ≤ 1
  self : ∀ i, s.buf i i = []
  far : ∀ d i, ¬i < c.tiles → s.buf d i = []
  split : ∀ i, (s.stats i).sent = (s.stats i).sentInter + (s.stats i).sentIntra ∧ (s.stats i).sentInter = 0
  created : ∀ i, (s.stats i).created + s.adding i = (s.sent i).length
  sentCount : ∀ i, (s.stats i).sent + (s.sender i).finishing + (s.sender i).held.toList.length
    + (s.queue i).length = (s.sent i).length
  received : ∀ d, (s.stats d).received + ∑ i ∈ Finset.range c.tiles, (s.sender i).uncounted d
    = (s.stats d).read + (s.reader d).uncounted + ∑ i ∈ Finset.range c.tiles, (s.buf d i).length

theorem sum_upd {β : Type} (n : Nat) (f : Nat → β) (g : β → Nat) (i : Nat) (b : β) (hi : i < n) :
    (∑ j ∈ Finset.range n, g (upd f i b j)) + g (f i) = (∑ j ∈ Finset.range n, g (f j)) + g b := by
  induction n with
  | zero => omega
  | succ n ih =>
    rw [Finset.sum_range_succ, Finset.sum_range_succ]
    by_cases h : i = n
    · subst h
      rw [upd_same]
      have : ∑ j ∈ Finset.range i, g (upd f i b j) = ∑ j ∈ Finset.range i, g (f j) := by
        apply Finset.sum_congr rfl
        intro j hj
        rw [upd_ne _ _ _ _ (by have := Finset.mem_range.1 hj; omega)]
      omega
    · rw [upd_ne _ _ _ _ (fun h' => h h'.symm)]
      have := ih (by omega)
      omega

theorem dataTo_append (d : Nat) (xs ys : List Packet) : dataTo d (xs ++ ys) = dataTo d xs ++ dataTo d ys := by
  simp [dataTo]

theorem dataTo_cons (d : Nat) (x : Packet) (xs : List Packet) :
    dataTo d (x :: xs) = dataTo d [x] ++ dataTo d xs := dataTo_append d [x] xs

theorem netInv_init (c : NetConfig) : NetInv c {} := by
  refine ⟨?_, ?_, ?_, ?_, ?_, ?_, ?_, ?_, ?_, ?_, ?_, ?_⟩ <;>
    simp [Sender.packet, Sender.enRoute, Sender.atTarget, dataTo, takenFrom, Sender.held,
      Sender.finishing, Sender.uncounted, Reader.uncounted]

theorem latency_intra (c : NetConfig) (i : Nat) (t : Int) (hi : i < c.tiles) (h0 : 0 ≤ t)
    (h1 : t < c.tiles) : c.latency i t = (c.intraLat, false) := by
  have : (i : Int) / c.tiles = t / c.tiles := by
    rw [Int.ediv_eq_zero_of_lt (by omega) (by omega), Int.ediv_eq_zero_of_lt h0 h1]
  unfold NetConfig.latency
  rw [if_pos (Or.inr (Or.inr this))]

theorem netInv_send (c : NetConfig) (s : Net) (h : NetInv c s) (i : Nat) (hi : i < c.tiles) (t : Int)
    (data : List I32) : NetInv c (s.send i t data) := by
  unfold Net.send
  refine ⟨?_, h.route, h.atTarget, ?_, ?_, h.cap, h.self, h.far, h.split, ?_, ?_, h.received⟩
  · intro j
    refine ⟨?_, (h.src j).2⟩
    dsimp only
    by_cases hj : j = i
    · subst hj
      rw [upd_same]
      intro p hp
      rcases List.mem_append.1 hp with hp | hp
      · exact (h.src j).1 p hp
      · rw [List.mem_singleton.1 hp]
    · rw [upd_ne _ _ _ _ hj]; exact (h.src j).1
  · intro j hj
    have hne : j ≠ i := by rintro rfl; exact hj hi
    dsimp only
    rw [upd_ne _ _ _ _ hne, upd_ne _ _ _ _ hne]
    exact h.quiet j hj
  · intro j d
    dsimp only
    by_cases hj : j = i
    · subst hj
      rw [upd_same, upd_same, dataTo_append, dataTo_append, h.stream j d]
      simp only [List.append_assoc]
    · rw [upd_ne _ _ _ _ hj, upd_ne _ _ _ _ hj]; exact h.stream j d
  · intro j
    dsimp only
    by_cases hj : j = i
    · subst hj
      rw [upd_same, upd_same]
      have := h.created j
      simp only [List.length_append, List.length_singleton]
      omega
    · rw [upd_ne _ _ _ _ hj, upd_ne _ _ _ _ hj]; exact h.created j
  · intro j
    dsimp only
    by_cases hj : j = i
    · subst hj
      rw [upd_same, upd_same]
      have := h.sentCount j
      simp only [List.length_append, List.length_singleton]
      omega
    · rw [upd_ne _ _ _ _ hj, upd_ne _ _ _ _ hj]; exact h.sentCount j

theorem netInv_crash (c : NetConfig) (s : Net) (h : NetInv c s) (e : PyErr) : NetInv c (s.crash e) :=
  ⟨h.1, h.2, h.3, h.4, h.5, h.6, h.7, h.8, h.9, h.10, h.11, h.12⟩

theorem netInv_added (c : NetConfig) (s s' : Net) (h : NetInv c s) (i : Nat)
    (hs : s.added i = some s') : NetInv c s' := by
  unfold Net.added at hs
  split at hs
  · exact absurd hs (by simp)
  rename_i k hk
  injection hs with hs
  subst hs
  have hst : ∀ j, (upd s.stats i { s.stats i with created := (s.stats i).created + 1 } j).sent = (s.stats j).sent ∧
      (upd s.stats i { s.stats i with created := (s.stats i).created + 1 } j).sentInter = (s.stats j).sentInter ∧
      (upd s.stats i { s.stats i with created := (s.stats i).created + 1 } j).sentIntra = (s.stats j).sentIntra ∧
      (upd s.stats i { s.stats i with created := (s.stats i).created + 1 } j).received = (s.stats j).received ∧
      (upd s.stats i { s.stats i with created := (s.stats i).created + 1 } j).read = (s.stats j).read := by
    intro j
    by_cases hj : j = i
    · subst hj; rw [upd_same]; simp
    · rw [upd_ne _ _ _ _ hj]; simp
  refine ⟨h.src, h.route, h.atTarget, h.quiet, h.stream, h.cap, h.self, h.far, ?_, ?_, ?_, ?_⟩
  · intro j; dsimp only
    rw [(hst j).1, (hst j).2.1, (hst j).2.2.1]; exact h.split j
  · intro j; dsimp only
    by_cases hj : j = i
    · subst hj
      rw [upd_same, upd_same]
      have := h.created j
      dsimp only
      omega
    · rw [upd_ne _ _ _ _ hj, upd_ne _ _ _ _ hj]; exact h.created j
  · intro j; dsimp only; rw [(hst j).1]; exact h.sentCount j
  · intro j; dsimp only; rw [(hst j).2.2.2.1, (hst j).2.2.2.2]; exact h.received j

/-- Replacing the state of one send thread when nothing else that the invariant speaks about changes
but the queue of that tile. -/
theorem netInv_sender (c : NetConfig) (s : Net) (h : NetInv c s) (i : Nat) (hi : i < c.tiles)
    (k : Sender) (q : List Packet)
    (hp : ∀ p, k.packet = some p → p.src = i) (hq : ∀ p ∈ q, p.src = i)
    (hroute : ∀ p b, k.enRoute = some (p, b) → 0 ≤ p.target ∧ p.target < c.tiles ∧
      c.latency p.src p.target = (c.intraLat, false) ∧ b = false)
    (hat : ∀ p, k.atTarget = some p → p.target ≠ p.src)
    (hheld : k.held.toList ++ q = (s.sender i).held.toList ++ s.queue i)
    (hfin : k.finishing = (s.sender i).finishing)
    (hunc : ∀ d, k.uncounted d = (s.sender i).uncounted d) :
    NetInv c { s with queue := upd s.queue i q, sender := upd s.sender i k } := by
  refine ⟨?_, ?_, ?_, ?_, ?_, h.cap, h.self, h.far, h.split, h.created, ?_, ?_⟩
  · intro j
    by_cases hj : j = i
    · subst hj; simp only [upd_same]; exact ⟨hq, hp⟩
    · simp only [upd_ne _ _ _ _ hj]; exact h.src j
  · intro j
    by_cases hj : j = i
    · subst hj; simp only [upd_same]; exact hroute
    · simp only [upd_ne _ _ _ _ hj]; exact h.route j
  · intro j
    by_cases hj : j = i
    · subst hj; simp only [upd_same]; exact hat
    · simp only [upd_ne _ _ _ _ hj]; exact h.atTarget j
  · intro j hj
    have hne : j ≠ i := by rintro rfl; exact hj hi
    simp only [upd_ne _ _ _ _ hne]
    exact h.quiet j hj
  · intro j d
    by_cases hj : j = i
    · subst hj
      simp only [upd_same]
      rw [List.append_assoc _ (dataTo d k.held.toList), ← dataTo_append, hheld, dataTo_append,
        ← List.append_assoc]
      exact h.stream j d
    · simp only [upd_ne _ _ _ _ hj]; exact h.stream j d
  · intro j
    by_cases hj : j = i
    · subst hj
      simp only [upd_same]
      have := h.sentCount j
      have := congrArg List.length hheld
      simp only [List.length_append] at this
      omega
    · simp only [upd_ne _ _ _ _ hj]; exact h.sentCount j
  · intro d
    dsimp only
    have e : ∑ j ∈ Finset.range c.tiles, (upd s.sender i k j).uncounted d
        = ∑ j ∈ Finset.range c.tiles, (s.sender j).uncounted d := by
      apply Finset.sum_congr rfl
      intro j _
      by_cases hj : j = i
      · subst hj; rw [upd_same, hunc]
      · rw [upd_ne _ _ _ _ hj]
    rw [e]
    exact h.received d

theorem upd_self {β : Type} (f : Nat → β) (i : Nat) : upd f i (f i) = f := by
  funext j
  by_cases h : j = i
  · subst h; exact upd_same _ _ _
  · exact upd_ne _ _ _ _ h

/-- Same, with the queue unchanged. -/
theorem netInv_sender' (c : NetConfig) (s : Net) (h : NetInv c s) (i : Nat) (hi : i < c.tiles)
    (k : Sender)
    (hp : ∀ p, k.packet = some p → p.src = i)
    (hroute : ∀ p b, k.enRoute = some (p, b) → 0 ≤ p.target ∧ p.target < c.tiles ∧
      c.latency p.src p.target = (c.intraLat, false) ∧ b = false)
    (hat : ∀ p, k.atTarget = some p → p.target ≠ p.src)
    (hheld : k.held = (s.sender i).held)
    (hfin : k.finishing = (s.sender i).finishing)
    (hunc : ∀ d, k.uncounted d = (s.sender i).uncounted d) :
    NetInv c { s with sender := upd s.sender i k } := by
  have := netInv_sender c s h i hi k (s.queue i) hp (h.src i).1 hroute hat (by rw [hheld]) hfin hunc
  rw [upd_self] at this
  exact this

theorem netInv_thread (c : NetConfig) (s s' : Net) (h : NetInv c s) (i : Nat) (hi : i < c.tiles)
    (hs : s.thread c i = some s') : NetInv c s' := by
  unfold Net.thread at hs
  split at hs
  · exact absurd hs (by simp)
  have hsrc := (h.src i).2
  have hroute := h.route i
  have hat := h.atTarget i
  split at hs
  · -- idle
    rename_i hk
    split at hs
    · exact absurd hs (by simp)
    · rename_i p rest hq
      injection hs with hs
      subst hs
      have hpq := (h.src i).1
      rw [hq] at hpq
      refine netInv_sender c s h i hi (.handed p) rest ?_ ?_ ?_ ?_ ?_ ?_ ?_
      · intro p' hp'
        simp only [Sender.packet, Option.some.injEq] at hp'
        subst hp'
        exact hpq p (by simp)
      · intro p' hp'; exact hpq p' (by simp [hp'])
      · intro p' b hb; simp [Sender.enRoute] at hb
      · intro p' hb; simp [Sender.atTarget] at hb
      · rw [hk, hq]; simp [Sender.held]
      · rw [hk]; rfl
      · intro d; rw [hk]; rfl
  · -- handed
    rename_i p hk
    rw [hk] at hsrc
    split at hs
    · injection hs with hs; subst hs; exact netInv_crash c s h _
    rename_i hr
    have hps := hsrc p rfl
    simp only [not_not] at hr
    have hlat := latency_intra c p.src p.target (by rw [hps]; exact hi) hr.1 hr.2
    rw [hlat] at hs
    split at hs
    · injection hs with hs; subst hs; exact netInv_crash c s h _
    · rename_i lat inter hl
      split at hs
      · injection hs with hs; subst hs; exact netInv_crash c s h _
      · injection hs with hs
        subst hs
        injection hl with hl1 hl2
        refine netInv_sender' c s h i hi (.flying p inter) ?_ ?_ ?_ ?_ ?_ ?_
        · intro p' hp'; exact hsrc p' hp'
        · intro p' b hb
          simp only [Sender.enRoute, Option.some.injEq, Prod.mk.injEq] at hb
          obtain ⟨rfl, rfl⟩ := hb
          exact ⟨hr.1, hr.2, hlat, hl2.symm⟩
        · intro p' hb; simp [Sender.atTarget] at hb
        · rw [hk]; rfl
        · rw [hk]; rfl
        · intro d; rw [hk]; rfl
  · -- flying
    rename_i p inter hk
    rw [hk] at hsrc hroute
    split at hs
    · rename_i hb
      injection hs with hs
      subst hs
      have hr := hroute p inter rfl
      refine netInv_sender' c s h i hi (.putting p inter) ?_ ?_ ?_ ?_ ?_ ?_
      · intro p' hp'; exact hsrc p' hp'
      · intro p' b hb; exact hroute p' b hb
      · intro p' hp'
        simp only [Sender.atTarget, Option.some.injEq] at hp'
        subst hp'
        unfold NetConfig.hasBuffer at hb
        simp only [Bool.and_eq_true, decide_eq_true_eq] at hb
        have := hb.2
        omega
      · rw [hk]; rfl
      · rw [hk]; rfl
      · intro d; rw [hk]; rfl
    · injection hs with hs; subst hs; exact netInv_crash c s h _
  · -- putting
    rename_i p inter hk
    rw [hk] at hsrc hroute hat
    dsimp only at hs
    split at hs
    · rename_i hlen
      injection hs with hs
      subst hs
      have hr := hroute p inter rfl
      have hne := hat p rfl
      have hps := hsrc p rfl
      have hd : p.target = (p.target.toNat : Int) := by omega
      generalize hdn : p.target.toNat = d at hlen hd ⊢
      have hbuf : s.buf d p.src = [] := by
        unfold bufferCapacity at hlen
        exact List.eq_nil_of_length_eq_zero (by omega)
      have hbv : ∀ d' i', upd s.buf d (upd (s.buf d) p.src (s.buf d p.src ++ [p.data])) d' i'
          = if d' = d ∧ i' = i then [p.data] else s.buf d' i' := by
        intro d' i'
        by_cases h1 : d' = d
        · subst h1
          rw [upd_same]
          by_cases h2 : i' = i
          · subst h2; rw [hps, upd_same, if_pos ⟨rfl, rfl⟩, ← hps, hbuf]; rfl
          · rw [upd_ne _ _ _ _ (by rw [hps]; exact h2), if_neg (fun hx => h2 hx.2)]
        · rw [upd_ne _ _ _ _ h1, if_neg (fun hx => h1 hx.1)]
      have hne' : d ≠ i := by
        rintro rfl
        apply hne
        rw [hd, hps]
      refine ⟨?_, ?_, ?_, ?_, ?_, ?_, ?_, ?_, h.split, h.created, ?_, ?_⟩
      · intro j
        refine ⟨(h.src j).1, ?_⟩
        dsimp only
        by_cases hj : j = i
        · subst hj; rw [upd_same]; exact hsrc
        · rw [upd_ne _ _ _ _ hj]; exact (h.src j).2
      · intro j
        dsimp only
        by_cases hj : j = i
        · subst hj; rw [upd_same]; exact hroute
        · rw [upd_ne _ _ _ _ hj]; exact h.route j
      · intro j
        dsimp only
        by_cases hj : j = i
        · subst hj; rw [upd_same]; exact hat
        · rw [upd_ne _ _ _ _ hj]; exact h.atTarget j
      · intro j hj
        have hji : j ≠ i := by rintro rfl; exact hj hi
        dsimp only
        rw [upd_ne _ _ _ _ hji]
        exact h.quiet j hj
      · intro j d'
        dsimp only
        rw [hbv]
        have hst := h.stream j d'
        by_cases hj : j = i
        · subst hj
          rw [upd_same]
          rw [hk] at hst
          by_cases hd' : d' = d
          · subst hd'
            rw [if_pos ⟨rfl, rfl⟩, hst]
            rw [show s.buf d' j = [] by rw [← hps]; exact hbuf]
            simp [Sender.held, dataTo, hd]
          · rw [if_neg (fun hx => hd' hx.1), hst]
            have : ¬p.target = (d' : Int) := by omega
            simp [Sender.held, dataTo, this]
        · rw [upd_ne _ _ _ _ hj, if_neg (fun hx => hj hx.2)]; exact hst
      · intro d' j
        dsimp only
        rw [hbv]
        split
        · simp
        · exact h.cap d' j
      · intro j
        dsimp only
        rw [hbv, if_neg (by rintro ⟨h1, h2⟩; omega)]
        exact h.self j
      · intro d' j hj
        dsimp only
        rw [hbv, if_neg (by rintro ⟨h1, h2⟩; omega)]
        exact h.far d' j hj
      · intro j
        dsimp only
        have hc := h.sentCount j
        by_cases hj : j = i
        · subst hj
          rw [upd_same]
          rw [hk] at hc
          simp only [Sender.finishing, Sender.held, Option.toList_some, Option.toList_none,
            List.length_singleton, List.length_nil] at hc ⊢
          omega
        · rw [upd_ne _ _ _ _ hj]; exact hc
      · intro d'
        dsimp only
        have hc := h.received d'
        have h1 := sum_upd c.tiles s.sender (fun k => k.uncounted d') i (.deposited p inter) hi
        have h2 : (∑ j ∈ Finset.range c.tiles,
            (upd s.buf d (upd (s.buf d) p.src (s.buf d p.src ++ [p.data])) d' j).length)
            = (∑ j ∈ Finset.range c.tiles, (s.buf d' j).length) + if d' = d then 1 else 0 := by
          by_cases hd' : d' = d
          · subst hd'
            have := sum_upd c.tiles (s.buf d') List.length i [p.data] hi
            rw [show s.buf d' i = [] by rw [← hps]; exact hbuf] at this
            rw [if_pos rfl]
            have this' : (∑ j ∈ Finset.range c.tiles, (upd (s.buf d') i [p.data] j).length)
                = (∑ j ∈ Finset.range c.tiles, (s.buf d' j).length) + 1 := by simpa using this
            rw [← this']
            apply Finset.sum_congr rfl
            intro j _
            rw [hbv]
            by_cases hj : j = i
            · subst hj; rw [if_pos ⟨rfl, rfl⟩, upd_same]
            · rw [if_neg (fun hx => hj hx.2), upd_ne _ _ _ _ hj]
          · rw [if_neg hd', Nat.add_zero]
            apply Finset.sum_congr rfl
            intro j _
            rw [hbv, if_neg (fun hx => hd' hx.1)]
        rw [h2]
        rw [hk] at h1
        have e1 : (Sender.putting p inter).uncounted d' = 0 := rfl
        have e2 : (Sender.deposited p inter).uncounted d' = if d' = d then 1 else 0 := by
          simp only [Sender.uncounted]
          by_cases hd' : d' = d
          · subst hd'; rw [if_pos hd, if_pos rfl]
          · rw [if_neg (by omega), if_neg hd']
        rw [e1, e2] at h1
        omega
    · exact absurd hs (by simp)
  · -- deposited
    rename_i p inter hk
    rw [hk] at hsrc hroute hat
    injection hs with hs
    subst hs
    have hr := hroute p inter rfl
    have hd : p.target = (p.target.toNat : Int) := by omega
    generalize hdn : p.target.toNat = d at hd ⊢
    have hdt : d < c.tiles := by omega
    have hst : ∀ j, (upd s.stats d { s.stats d with received := (s.stats d).received + 1 } j).sent = (s.stats j).sent ∧
        (upd s.stats d { s.stats d with received := (s.stats d).received + 1 } j).sentInter = (s.stats j).sentInter ∧
        (upd s.stats d { s.stats d with received := (s.stats d).received + 1 } j).sentIntra = (s.stats j).sentIntra ∧
        (upd s.stats d { s.stats d with received := (s.stats d).received + 1 } j).created = (s.stats j).created ∧
        (upd s.stats d { s.stats d with received := (s.stats d).received + 1 } j).read = (s.stats j).read ∧
        (upd s.stats d { s.stats d with received := (s.stats d).received + 1 } j).received
          = (s.stats j).received + if j = d then 1 else 0 := by
      intro j
      by_cases hj : j = d
      · subst hj; rw [upd_same]; simp
      · rw [upd_ne _ _ _ _ hj]; simp [hj]
    refine ⟨?_, ?_, ?_, ?_, ?_, h.cap, h.self, h.far, ?_, ?_, ?_, ?_⟩
    · intro j
      refine ⟨(h.src j).1, ?_⟩
      dsimp only
      by_cases hj : j = i
      · subst hj; rw [upd_same]; exact hsrc
      · rw [upd_ne _ _ _ _ hj]; exact (h.src j).2
    · intro j
      dsimp only
      by_cases hj : j = i
      · subst hj; rw [upd_same]; exact hroute
      · rw [upd_ne _ _ _ _ hj]; exact h.route j
    · intro j
      dsimp only
      by_cases hj : j = i
      · subst hj; rw [upd_same]; exact hat
      · rw [upd_ne _ _ _ _ hj]; exact h.atTarget j
    · intro j hj
      have hji : j ≠ i := by rintro rfl; exact hj hi
      dsimp only
      rw [upd_ne _ _ _ _ hji]
      exact h.quiet j hj
    · intro j d'
      dsimp only
      have hst' := h.stream j d'
      by_cases hj : j = i
      · subst hj
        rw [upd_same]
        rw [hk] at hst'
        exact hst'
      · rw [upd_ne _ _ _ _ hj]; exact hst'
    · intro j; dsimp only; rw [(hst j).1, (hst j).2.1, (hst j).2.2.1]; exact h.split j
    · intro j; dsimp only; rw [(hst j).2.2.2.1]; exact h.created j
    · intro j
      dsimp only
      rw [(hst j).1]
      have hc := h.sentCount j
      by_cases hj : j = i
      · subst hj; rw [upd_same]; rw [hk] at hc; exact hc
      · rw [upd_ne _ _ _ _ hj]; exact hc
    · intro d'
      dsimp only
      rw [(hst d').2.2.2.2.1, (hst d').2.2.2.2.2]
      have hc := h.received d'
      have h1 := sum_upd c.tiles s.sender (fun k => k.uncounted d') i (.delivered p inter) hi
      rw [hk] at h1
      have e1 : (Sender.delivered p inter).uncounted d' = 0 := rfl
      have e2 : (Sender.deposited p inter).uncounted d' = if d' = d then 1 else 0 := by
        simp only [Sender.uncounted]
        by_cases hd' : d' = d
        · subst hd'; rw [if_pos hd, if_pos rfl]
        · rw [if_neg (by omega), if_neg hd']
      rw [e1, e2] at h1
      omega
  · -- delivered
    rename_i p inter hk
    rw [hk] at hsrc hroute hat
    injection hs with hs
    subst hs
    obtain ⟨-, -, -, rfl⟩ := hroute p inter rfl
    have hst : ∀ j, (upd s.stats i ((s.stats i).addSent false) j).sent
          = (s.stats j).sent + (if j = i then 1 else 0) ∧
        (upd s.stats i ((s.stats i).addSent false) j).sentInter = (s.stats j).sentInter ∧
        (upd s.stats i ((s.stats i).addSent false) j).sentIntra
          = (s.stats j).sentIntra + (if j = i then 1 else 0) ∧
        (upd s.stats i ((s.stats i).addSent false) j).created = (s.stats j).created ∧
        (upd s.stats i ((s.stats i).addSent false) j).read = (s.stats j).read ∧
        (upd s.stats i ((s.stats i).addSent false) j).received = (s.stats j).received := by
      intro j
      by_cases hj : j = i
      · subst hj; rw [upd_same]; simp [RouterStats.addSent]
      · rw [upd_ne _ _ _ _ hj]; simp [hj]
    refine ⟨?_, ?_, ?_, ?_, ?_, h.cap, h.self, h.far, ?_, ?_, ?_, ?_⟩
    · intro j
      refine ⟨(h.src j).1, ?_⟩
      dsimp only
      by_cases hj : j = i
      · subst hj; rw [upd_same]; intro p' hp'; simp [Sender.packet] at hp'
      · rw [upd_ne _ _ _ _ hj]; exact (h.src j).2
    · intro j
      dsimp only
      by_cases hj : j = i
      · subst hj; rw [upd_same]; intro p' b hp'; simp [Sender.enRoute] at hp'
      · rw [upd_ne _ _ _ _ hj]; exact h.route j
    · intro j
      dsimp only
      by_cases hj : j = i
      · subst hj; rw [upd_same]; intro p' hp'; simp [Sender.atTarget] at hp'
      · rw [upd_ne _ _ _ _ hj]; exact h.atTarget j
    · intro j hj
      have hji : j ≠ i := by rintro rfl; exact hj hi
      dsimp only
      rw [upd_ne _ _ _ _ hji]
      exact h.quiet j hj
    · intro j d'
      dsimp only
      have hst' := h.stream j d'
      by_cases hj : j = i
      · subst hj
        rw [upd_same]
        rw [hk] at hst'
        exact hst'
      · rw [upd_ne _ _ _ _ hj]; exact hst'
    · intro j
      dsimp only
      rw [(hst j).1, (hst j).2.1, (hst j).2.2.1]
      have := h.split j
      omega
    · intro j; dsimp only; rw [(hst j).2.2.2.1]; exact h.created j
    · intro j
      dsimp only
      rw [(hst j).1]
      have hc := h.sentCount j
      by_cases hj : j = i
      · subst hj; rw [upd_same, if_pos rfl]; rw [hk] at hc
        simp only [Sender.finishing, Sender.held, Option.toList_none, List.length_nil] at hc ⊢
        omega
      · rw [upd_ne _ _ _ _ hj, if_neg hj]; exact hc
    · intro d'
      dsimp only
      rw [(hst d').2.2.2.2.1, (hst d').2.2.2.2.2]
      have hc := h.received d'
      have h1 := sum_upd c.tiles s.sender (fun k => k.uncounted d') i .idle hi
      rw [hk] at h1
      have e1 : (Sender.delivered p false).uncounted d' = 0 := rfl
      have e2 : Sender.idle.uncounted d' = 0 := rfl
      rw [e1, e2] at h1
      omega

theorem netInv_startRead (c : NetConfig) (s s' : Net) (h : NetInv c s) (i : Nat) (hi : i < c.tiles)
    (src : Int) (hs : s.startRead c i src = some s') : NetInv c s' := by
  unfold Net.startRead at hs
  split at hs
  · rename_i hk
    split at hs
    · injection hs with hs
      subst hs
      refine ⟨h.src, h.route, h.atTarget, ?_, ?_, h.cap, h.self, h.far, h.split, h.created, h.sentCount, ?_⟩
      · intro j hj
        have hji : j ≠ i := by rintro rfl; exact hj hi
        dsimp only
        rw [upd_ne _ _ _ _ hji]
        exact h.quiet j hj
      · intro j d
        dsimp only
        have hst := h.stream j d
        by_cases hd : d = i
        · subst hd
          rw [upd_same]
          rw [hk] at hst
          exact hst
        · rw [upd_ne _ _ _ _ hd]; exact hst
      · intro d
        dsimp only
        have hc := h.received d
        by_cases hd : d = i
        · subst hd; rw [upd_same]; rw [hk] at hc; exact hc
        · rw [upd_ne _ _ _ _ hd]; exact hc
    · injection hs with hs; subst hs; exact netInv_crash c s h _
  · exact absurd hs (by simp)

theorem netInv_take (c : NetConfig) (s s' : Net) (h : NetInv c s) (i : Nat) (hi : i < c.tiles)
    (hs : s.take i = some s') : NetInv c s' := by
  unfold Net.take at hs
  split at hs
  · rename_i src hk
    split at hs
    · exact absurd hs (by simp)
    rename_i x rest hb
    injection hs with hs
    subst hs
    have hsrcLt : src < c.tiles := by
      by_contra hcon
      rw [h.far i src hcon] at hb
      cases hb
    have hbv : ∀ d j, upd s.buf i (upd (s.buf i) src rest) d j
        = if d = i ∧ j = src then rest else s.buf d j := by
      intro d j
      by_cases h1 : d = i
      · subst h1
        rw [upd_same]
        by_cases h2 : j = src
        · subst h2; rw [upd_same, if_pos ⟨rfl, rfl⟩]
        · rw [upd_ne _ _ _ _ h2, if_neg (fun hx => h2 hx.2)]
      · rw [upd_ne _ _ _ _ h1, if_neg (fun hx => h1 hx.1)]
    refine ⟨h.src, h.route, h.atTarget, ?_, ?_, ?_, ?_, ?_, h.split, h.created, h.sentCount, ?_⟩
    · intro j hj
      have hji : j ≠ i := by rintro rfl; exact hj hi
      dsimp only
      rw [upd_ne _ _ _ _ hji]
      exact h.quiet j hj
    · intro j d
      dsimp only
      rw [hbv]
      have hst := h.stream j d
      by_cases hd : d = i
      · subst hd
        rw [upd_same]
        rw [hk] at hst
        by_cases hj : j = src
        · subst hj
          rw [if_pos ⟨rfl, rfl⟩, hst, hb]
          simp [takenFrom]
        · rw [if_neg (fun hx => hj hx.2), hst]
          simp [takenFrom, Ne.symm hj]
      · rw [upd_ne _ _ _ _ hd, if_neg (fun hx => hd hx.1)]; exact hst
    · intro d j
      dsimp only
      rw [hbv]
      split
      · rename_i hx
        have := h.cap i src
        rw [hb] at this
        simp only [List.length_cons] at this
        omega
      · exact h.cap d j
    · intro j
      dsimp only
      rw [hbv]
      split
      · rename_i hx
        have := h.self i
        rw [hx.1.symm.trans hx.2] at this
        have hb' := hb
        rw [hx.1.symm.trans hx.2, this] at hb'
        cases hb'
      · exact h.self j
    · intro d j hj
      dsimp only
      rw [hbv, if_neg (by rintro ⟨h1, h2⟩; omega)]
      exact h.far d j hj
    · intro d
      dsimp only
      have hc := h.received d
      by_cases hd : d = i
      · subst hd
        rw [upd_same]
        rw [hk] at hc
        have h2 := sum_upd c.tiles (s.buf d) List.length src rest hsrcLt
        rw [hb, List.length_cons] at h2
        have h3 : (∑ j ∈ Finset.range c.tiles, (upd s.buf d (upd (s.buf d) src rest) d j).length)
            = ∑ j ∈ Finset.range c.tiles, (upd (s.buf d) src rest j).length := by
          rw [upd_same]
        rw [h3]
        simp only [Reader.uncounted] at hc ⊢
        omega
      · rw [upd_ne _ _ _ _ hd, upd_ne _ _ _ _ hd]; exact hc
  · exact absurd hs (by simp)

theorem netInv_readDone (c : NetConfig) (s s' : Net) (x : List I32) (h : NetInv c s) (i : Nat)
    (hi : i < c.tiles) (hs : s.readDone i = some (s', x)) : NetInv c s' := by
  unfold Net.readDone at hs
  split at hs
  · rename_i src y hk
    simp only [Option.some.injEq, Prod.mk.injEq] at hs
    obtain ⟨hs, rfl⟩ := hs
    subst hs
    have hst : ∀ j, (upd s.stats i { s.stats i with read := (s.stats i).read + 1 } j).sent = (s.stats j).sent ∧
        (upd s.stats i { s.stats i with read := (s.stats i).read + 1 } j).sentInter = (s.stats j).sentInter ∧
        (upd s.stats i { s.stats i with read := (s.stats i).read + 1 } j).sentIntra = (s.stats j).sentIntra ∧
        (upd s.stats i { s.stats i with read := (s.stats i).read + 1 } j).created = (s.stats j).created ∧
        (upd s.stats i { s.stats i with read := (s.stats i).read + 1 } j).received = (s.stats j).received ∧
        (upd s.stats i { s.stats i with read := (s.stats i).read + 1 } j).read
          = (s.stats j).read + if j = i then 1 else 0 := by
      intro j
      by_cases hj : j = i
      · subst hj; rw [upd_same]; simp
      · rw [upd_ne _ _ _ _ hj]; simp [hj]
    refine ⟨h.src, h.route, h.atTarget, ?_, ?_, h.cap, h.self, h.far, ?_, ?_, ?_, ?_⟩
    · intro j hj
      have hji : j ≠ i := by rintro rfl; exact hj hi
      dsimp only
      rw [upd_ne _ _ _ _ hji]
      exact h.quiet j hj
    · intro j d
      dsimp only
      have hst' := h.stream j d
      by_cases hd : d = i
      · subst hd
        rw [upd_same, upd_same]
        rw [hk] at hst'
        by_cases hj : j = src
        · subst hj
          rw [upd_same, hst']
          simp [takenFrom]
        · rw [upd_ne _ _ _ _ hj, hst']
          simp [takenFrom, Ne.symm hj]
      · rw [upd_ne _ _ _ _ hd, upd_ne _ _ _ _ hd]; exact hst'
    · intro j; dsimp only; rw [(hst j).1, (hst j).2.1, (hst j).2.2.1]; exact h.split j
    · intro j; dsimp only; rw [(hst j).2.2.2.1]; exact h.created j
    · intro j; dsimp only; rw [(hst j).1]; exact h.sentCount j
    · intro d
      dsimp only
      rw [(hst d).2.2.2.2.1, (hst d).2.2.2.2.2]
      have hc := h.received d
      by_cases hd : d = i
      · subst hd
        rw [upd_same, if_pos rfl]
        rw [hk] at hc
        simp only [Reader.uncounted] at hc ⊢
        omega
      · rw [upd_ne _ _ _ _ hd, if_neg hd]; exact hc
  · exact absurd hs (by simp)

theorem netInv_stopper (c : NetConfig) (s : Net) (h : NetInv c s) (f : Nat → Stopper) :
    NetInv c { s with stopper := f } :=
  ⟨h.1, h.2, h.3, h.4, h.5, h.6, h.7, h.8, h.9, h.10, h.11, h.12⟩

theorem netInv_halt (c : NetConfig) (s s' : Net) (h : NetInv c s) (i : Nat)
    (hs : s.halt i = some s') : NetInv c s' := by
  unfold Net.halt at hs
  split at hs
  · injection hs with hs; subst hs; exact netInv_stopper c s h _
  · exact absurd hs (by simp)

theorem netInv_stopStep (c : NetConfig) (s s' : Net) (h : NetInv c s) (i : Nat)
    (hs : s.stopStep i = some s') : NetInv c s' := by
  unfold Net.stopStep at hs
  repeat' split at hs
  all_goals first
      | (injection hs with hs; subst hs; exact netInv_stopper c s h _)
      | cases hs

/-- What an action that happens means. -/
theorem net_act_cases {c : NetConfig} {s s' : Net} {a : NetAct} (h : s.act c a = some s') :
    s.crashed = none ∧ a.tile < c.tiles ∧
    match a with
    | .send i target data => s.sendIf i target data = some s'
    | .added i => s.added i = some s'
    | .thread i => s.thread c i = some s'
    | .startRead i source => s.startRead c i source = some s'
    | .take i => s.take i = some s'
    | .readDone i => ∃ x, s.readDone i = some (s', x)
    | .halt i => s.halt i = some s'
    | .stopStep i => s.stopStep i = some s' := by
  unfold Net.act at h
  split at h
  · exact absurd h (by simp)
  rename_i hc
  push Not at hc
  refine ⟨by simpa using hc.1, hc.2, ?_⟩
  cases a <;> try exact h
  simp only [Option.map_eq_some_iff, Prod.exists] at h
  obtain ⟨a, b, h1, rfl⟩ := h
  exact ⟨b, h1⟩

theorem sendIf_send {s s' : Net} {i : Nat} {t : Int} {data : List I32}
    (h : s.sendIf i t data = some s') : s' = s.send i t data ∧
      (s.stopper i = .running ∨ s.stopper i = .stopped) := by
  unfold Net.sendIf at h
  split at h
  · rename_i hk; injection h with h; exact ⟨h.symm, Or.inl hk⟩
  · rename_i hk; injection h with h; exact ⟨h.symm, Or.inr hk⟩
  · exact absurd h (by simp)

theorem netInv_act (c : NetConfig) (s s' : Net) (a : NetAct) (h : NetInv c s)
    (hs : s.act c a = some s') : NetInv c s' := by
  obtain ⟨-, hi, hs⟩ := net_act_cases hs
  cases a <;> dsimp only [NetAct.tile] at hi hs
  · obtain ⟨rfl, -⟩ := sendIf_send hs; exact netInv_send c s h _ hi _ _
  · exact netInv_added c s s' h _ hs
  · exact netInv_thread c s s' h _ hi hs
  · exact netInv_startRead c s s' h _ hi _ hs
  · exact netInv_take c s s' h _ hi hs
  · obtain ⟨x, hs⟩ := hs; exact netInv_readDone c s s' x h _ hi hs
  · exact netInv_halt c s s' h _ hs
  · exact netInv_stopStep c s s' h _ hs

/-- Properties kept by every action hold after every run. -/
theorem net_run_induction {c : NetConfig} {P : Net → Prop}
    (hstep : ∀ s s' a, P s → s.act c a = some s' → P s') :
    ∀ (as : List NetAct) (s s' : Net), P s → s.run c as = some s' → P s' := by
  intro as
  induction as with
  | nil => intro s s' h hs; simp only [Net.run, Option.some.injEq] at hs; exact hs ▸ h
  | cons a as ih =>
    intro s s' h hs
    simp only [Net.run, Option.bind_eq_some_iff] at hs
    obtain ⟨s1, h1, h2⟩ := hs
    exact ih s1 s' (hstep s s1 a h h1) h2

theorem netInv_run (c : NetConfig) (as : List NetAct) (s : Net) (hs : Net.run c {} as = some s) :
    NetInv c s := net_run_induction (fun s s' a h => netInv_act c s s' a h) as {} s (netInv_init c) hs

/-- The invariant of stopping. -/
def NetStop (s : Net) : Prop := ∀ i, StopOk (s.stopper i) (s.queue i) (s.sender i) (s.stats i).sent

theorem netStop_frame {s s' : Net} (h : NetStop s) (hst : s'.stopper = s.stopper)
    (hq : s'.queue = s.queue) (hk : s'.sender = s.sender)
    (hn : ∀ j, (s'.stats j).sent = (s.stats j).sent) : NetStop s' := by
  intro j
  rw [hst, hq, hk, hn]
  exact h j

theorem stats_upd_sent (s : Net) (i j : Nat) (r : RouterStats) (hr : r.sent = (s.stats i).sent) :
    (upd s.stats i r j).sent = (s.stats j).sent := by
  by_cases hj : j = i
  · subst hj; rw [upd_same]; exact hr
  · rw [upd_ne _ _ _ _ hj]

/-- Only tile `i` changes. -/
theorem netStop_local {s s' : Net} (h : NetStop s) (i : Nat) (hst : ∀ j, j ≠ i → s'.stopper j = s.stopper j)
    (hq : ∀ j, j ≠ i → s'.queue j = s.queue j) (hk : ∀ j, j ≠ i → s'.sender j = s.sender j)
    (hn : ∀ j, j ≠ i → (s'.stats j).sent = (s.stats j).sent)
    (hi : StopOk (s'.stopper i) (s'.queue i) (s'.sender i) (s'.stats i).sent) : NetStop s' := by
  intro j
  by_cases hj : j = i
  · subst hj; exact hi
  · rw [hst j hj, hq j hj, hk j hj, hn j hj]; exact h j

theorem netStop_thread (c : NetConfig) (s s' : Net) (h : NetStop s) (i : Nat)
    (hs : s.thread c i = some s') : NetStop s' := by
  unfold Net.thread at hs
  split at hs
  · exact absurd hs (by simp)
  rename_i hns
  have hi := h i
  cases hk : s.sender i with
  | idle =>
    rw [hk] at hs hi
    dsimp only at hs
    split at hs
    · exact absurd hs (by simp)
    rename_i p rest hq
    injection hs with hs
    subst hs
    refine netStop_local h i (fun _ _ => rfl) (fun j hj => upd_ne _ _ _ _ hj) (fun j hj => upd_ne _ _ _ _ hj)
      (fun _ _ => rfl) ?_
    dsimp only
    rw [upd_same, upd_same]
    rw [hq] at hi
    cases hst : s.stopper i <;> rw [hst] at hi <;> simp_all [StopOk]
  | handed p =>
    rw [hk] at hs hi
    dsimp only at hs
    split at hs
    · injection hs with hs; subst hs; exact h
    split at hs
    · injection hs with hs; subst hs; exact h
    split at hs
    · injection hs with hs; subst hs; exact h
    injection hs with hs
    subst hs
    refine netStop_local h i (fun _ _ => rfl) (fun j hj => rfl) (fun j hj => upd_ne _ _ _ _ hj)
      (fun _ _ => rfl) ?_
    dsimp only
    rw [upd_same]
    cases hst : s.stopper i <;> rw [hst] at hi <;> simp_all [StopOk, Sender.busy]
  | flying p inter =>
    rw [hk] at hs hi
    dsimp only at hs
    split at hs
    · injection hs with hs
      subst hs
      refine netStop_local h i (fun _ _ => rfl) (fun j hj => rfl) (fun j hj => upd_ne _ _ _ _ hj)
        (fun _ _ => rfl) ?_
      dsimp only
      rw [upd_same]
      cases hst : s.stopper i <;> rw [hst] at hi <;> simp_all [StopOk, Sender.busy]
    · injection hs with hs; subst hs; exact h
  | putting p inter =>
    rw [hk] at hs hi
    dsimp only at hs
    split at hs
    · injection hs with hs
      subst hs
      refine netStop_local h i (fun _ _ => rfl) (fun j hj => rfl) (fun j hj => upd_ne _ _ _ _ hj)
        (fun _ _ => rfl) ?_
      dsimp only
      rw [upd_same]
      cases hst : s.stopper i <;> rw [hst] at hi <;> simp_all [StopOk, Sender.busy]
    · exact absurd hs (by simp)
  | deposited p inter =>
    rw [hk] at hs hi
    injection hs with hs
    subst hs
    refine netStop_local h i (fun _ _ => rfl) (fun j hj => rfl) (fun j hj => upd_ne _ _ _ _ hj)
      (fun j _ => stats_upd_sent s _ j _ rfl) ?_
    dsimp only
    rw [upd_same, stats_upd_sent s p.target.toNat i
      { s.stats p.target.toNat with received := (s.stats p.target.toNat).received + 1 } rfl]
    cases hst : s.stopper i <;> rw [hst] at hi <;> simp_all [StopOk, Sender.busy]
  | delivered p inter =>
    rw [hk] at hs hi
    injection hs with hs
    subst hs
    refine netStop_local h i (fun _ _ => rfl) (fun j hj => rfl) (fun j hj => upd_ne _ _ _ _ hj)
      (fun j hj => by dsimp only; rw [upd_ne _ _ _ _ hj]) ?_
    dsimp only
    rw [upd_same, upd_same]
    have e : ((s.stats i).addSent inter).sent = (s.stats i).sent + 1 := by cases inter <;> rfl
    rw [e]
    cases hst : s.stopper i <;> rw [hst] at hi <;> simp_all [StopOk, Sender.busy]

theorem netStop_act (c : NetConfig) (s s' : Net) (a : NetAct) (h : NetStop s)
    (hs : s.act c a = some s') : NetStop s' := by
  obtain ⟨-, -, hs⟩ := net_act_cases hs
  cases a with
  | send i t data =>
    obtain ⟨rfl, hst⟩ := sendIf_send hs
    refine netStop_local h i (fun _ _ => rfl) (fun j hj => upd_ne _ _ _ _ hj) (fun _ _ => rfl) (fun _ _ => rfl) ?_
    have hi := h i
    show StopOk (s.stopper i) _ (s.sender i) (s.stats i).sent
    rcases hst with hst | hst <;> rw [hst] at hi ⊢
    · trivial
    · exact hi
  | added i =>
    unfold Net.added at hs
    dsimp only at hs
    split at hs
    · exact absurd hs (by simp)
    injection hs with hs
    subst hs
    exact netStop_frame h rfl rfl rfl fun j => stats_upd_sent s _ j _ rfl
  | thread i => exact netStop_thread c s s' h i hs
  | startRead i src =>
    unfold Net.startRead at hs
    dsimp only at hs
    repeat' split at hs
    all_goals first
      | (injection hs with hs; subst hs; exact netStop_frame h rfl rfl rfl fun _ => rfl)
      | cases hs
  | take i =>
    unfold Net.take at hs
    dsimp only at hs
    repeat' split at hs
    all_goals first
      | (injection hs with hs; subst hs; exact netStop_frame h rfl rfl rfl fun _ => rfl)
      | cases hs
  | readDone i =>
    obtain ⟨x, hs⟩ := hs
    unfold Net.readDone at hs
    dsimp only at hs
    split at hs
    · simp only [Option.some.injEq, Prod.mk.injEq] at hs
      obtain ⟨hs, -⟩ := hs
      subst hs
      exact netStop_frame h rfl rfl rfl fun j => stats_upd_sent s _ j _ rfl
    · exact absurd hs (by simp)
  | halt i =>
    unfold Net.halt at hs
    dsimp only at hs
    split at hs
    · injection hs with hs
      subst hs
      refine netStop_local h i (fun j hj => upd_ne _ _ _ _ hj) (fun _ _ => rfl) (fun _ _ => rfl) (fun _ _ => rfl) ?_
      dsimp only
      rw [upd_same]
      trivial
    · exact absurd hs (by simp)
  | stopStep i =>
    have hi := h i
    unfold Net.stopStep at hs
    dsimp only at hs
    cases hst : s.stopper i with
    | running => rw [hst] at hs; exact absurd hs (by simp)
    | stopped => rw [hst] at hs; exact absurd hs (by simp)
    | checking =>
      rw [hst] at hs
      dsimp only at hs
      split at hs
      · rename_i hq
        injection hs with hs
        subst hs
        refine netStop_local h i (fun j hj => upd_ne _ _ _ _ hj) (fun _ _ => rfl) (fun _ _ => rfl) (fun _ _ => rfl) ?_
        dsimp only
        rw [upd_same]
        exact hq
      · exact absurd hs (by simp)
    | emptied =>
      rw [hst] at hs hi
      dsimp only at hs
      cases hk : s.sender i <;> rw [hk] at hs hi <;> simp [Sender.busy] at hs
      all_goals
        subst hs
        refine netStop_local h i (fun j hj => upd_ne _ _ _ _ hj) (fun _ _ => rfl) (fun _ _ => rfl) (fun _ _ => rfl) ?_
        dsimp only
        rw [upd_same, hk]
        simp_all [StopOk, Sender.busy]
    | waiting k =>
      rw [hst] at hs hi
      dsimp only at hs
      split at hs
      · rename_i hlt
        injection hs with hs
        subst hs
        refine netStop_local h i (fun j hj => upd_ne _ _ _ _ hj) (fun _ _ => rfl) (fun _ _ => rfl) (fun _ _ => rfl) ?_
        dsimp only
        rw [upd_same]
        rcases hi.2 with ⟨_, h2⟩ | ⟨h1, _⟩
        · omega
        · exact h1
      · exact absurd hs (by simp)

theorem netStop_run (c : NetConfig) (as : List NetAct) (s : Net) (hs : Net.run c {} as = some s) :
    NetStop s := net_run_induction (fun s s' a h => netStop_act c s s' a h) as {} s (fun _ => trivial) hs

end Ramwich
