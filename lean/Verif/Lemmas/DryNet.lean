import Verif.Spec.StaticCheck
import Verif.Lemmas.SysErrors

/-! # Routers that transfer one row at a time -/
namespace Ramwich

open Pipeline (upd)
open Spec

/-- Nothing is on its way: all packets are in the send queues, with targets and lengths as in `outs`. -/
structure NetRest (tiles : Nat) (outs : Nat → List (Nat × Nat)) (ups : Nat → Bool) (n : Net) : Prop where
  crashed : n.crashed = none
  sender : ∀ t, n.sender t = .idle
  reader : ∀ t, n.reader t = .idle
  adding : ∀ t, n.adding t = 0
  buf : ∀ t u, n.buf t u = []
  stopper : ∀ t, n.stopper t = if ups t = true then .running else .stopped
  queue : ∀ t, (n.queue t).map (fun p => (p.target.toNat, p.data.length)) = outs t
  packets : ∀ t, ∀ p ∈ n.queue t, p.src = t ∧ 0 ≤ p.target ∧ p.target < tiles ∧ p.target ≠ t

/-- Latencies are 0. -/
structure Instant (cfg : SysCfg) : Prop where
  edram : cfg.edramLat = 0
  data : cfg.dataMemLat = 0
  exec : ∀ op, cfg.execLat op = .ok 0
  nodes : cfg.net.nodes = 1
  intra : cfg.net.intraLat = some 0
  inter : cfg.net.interLat = some 0

theorem net_send {cfg : SysCfg} {outs : Nat → List (Nat × Nat)} {ups : Nat → Bool} {n : Net}
    (h : NetRest cfg.net.tiles outs ups n) {t : Nat} (ht : t < cfg.net.tiles) (hu : ups t = true) {target : Int}
    (h1 : 0 ≤ target) (h2 : target < cfg.net.tiles) (h3 : target ≠ t) (row : List I32) :
    ∃ n1 n2, n.act cfg.net (.send t target row) = some n1 ∧ n1.crashed = none ∧
      n1.act cfg.net (.added t) = some n2 ∧
      NetRest cfg.net.tiles (upd outs t (outs t ++ [(target.toNat, row.length)])) ups n2 := by
  refine ⟨n.send t target row, { n.send t target row with
      adding := upd (n.send t target row).adding t 0
      stats := upd (n.send t target row).stats t { n.stats t with created := (n.stats t).created + 1 } }, ?_, h.crashed, ?_, ?_⟩
  · rw [net_act_alive h.crashed _ (by exact ht)]
    dsimp only
    unfold Net.sendIf
    rw [h.stopper t, hu]
    rfl
  · rw [net_act_alive (n := n.send t target row) h.crashed _ (by exact ht)]
    dsimp only
    unfold Net.added
    have : (n.send t target row).adding t = 0 + 1 := by
      unfold Net.send
      dsimp only
      rw [upd_same, h.adding]
    rw [this]
    rfl
  · refine ⟨h.crashed, h.sender, h.reader, ?_, h.buf, h.stopper, ?_, ?_⟩
    · intro u
      show upd (upd n.adding t _) t 0 u = 0
      by_cases hu : u = t
      · subst hu; rw [upd_same]
      · rw [upd_ne _ _ _ _ hu, upd_ne _ _ _ _ hu, h.adding]
    · intro u
      show (upd n.queue t (n.queue t ++ [⟨t, target, row⟩]) u).map _ = _
      by_cases hu : u = t
      · subst hu; rw [upd_same, upd_same, List.map_append, h.queue]; rfl
      · rw [upd_ne _ _ _ _ hu, upd_ne _ _ _ _ hu, h.queue]
    · intro u
      show ∀ p ∈ upd n.queue t (n.queue t ++ [⟨t, target, row⟩]) u, _
      by_cases hu : u = t
      · subst hu
        rw [upd_same]
        intro p hp
        rcases List.mem_append.1 hp with hp | hp
        · exact h.packets _ p hp
        · rw [List.mem_singleton.1 hp]
          exact ⟨rfl, h1, h2, h3⟩
      · rw [upd_ne _ _ _ _ hu]; exact h.packets u

theorem upd_noop {β : Type} {f : Nat → β} {i : Nat} {b : β} (h : f i = b) : upd f i b = f := by
  rw [← h, upd_self]

theorem latency_zero {cfg : SysCfg} (hi : Instant cfg) (a : Nat) (b : Int) : ∃ c, cfg.net.latency a b = (some 0, c) := by
  unfold NetConfig.latency
  split
  · exact ⟨_, by rw [hi.intra]⟩
  · exact ⟨true, by rw [hi.intra, hi.inter]; rfl⟩

/-- A row goes from `src` to `t`. -/
theorem net_recv {cfg : SysCfg} (hi : Instant cfg) {outs : Nat → List (Nat × Nat)} {ups : Nat → Bool} {n : Net}
    (h : NetRest cfg.net.tiles outs ups n) {t src : Nat} (ht : t < cfg.net.tiles) (hs : src < cfg.net.tiles)
    (hne : src ≠ t) (hu : ups src = true) {w : Nat} {rest : List (Nat × Nat)} (ho : outs src = (t, w) :: rest) :
    ∃ n1 n2 n3 data, n.act cfg.net (.startRead t src) = some n1 ∧ n1.crashed = none ∧
      (∃ as : List NetAct, (∀ a ∈ as, a = .thread src ∨ a = .take t) ∧ n1.run cfg.net as = some n2) ∧
      n2.crashed = none ∧ n2.reader t = .got src data ∧ data.length = w ∧ n2.act cfg.net (.readDone t) = some n3 ∧
      NetRest cfg.net.tiles (upd outs src rest) ups n3 := by
  have hq := h.queue src
  rw [ho] at hq
  obtain ⟨p, q, hpq⟩ : ∃ p q, n.queue src = p :: q := by
    cases hn : n.queue src with
    | nil => rw [hn] at hq; cases hq
    | cons p q => exact ⟨p, q, rfl⟩
  rw [hpq] at hq
  simp only [List.map_cons, List.cons.injEq, Prod.mk.injEq] at hq
  obtain ⟨⟨hpt, hpw⟩, hq⟩ := hq
  obtain ⟨hp1, hp2, hp3, hp4⟩ := h.packets src p (by rw [hpq]; exact List.mem_cons_self ..)
  obtain ⟨inter, hlat⟩ := latency_zero hi p.src p.target
  have hbuf : cfg.net.hasBuffer t src = true := by
    unfold NetConfig.hasBuffer
    rw [hi.nodes]
    simp
    omega
  have hst : n.stopper src ≠ .stopped := by rw [h.stopper, hu]; simp
  have hbuf' : cfg.net.hasBuffer p.target.toNat p.src = true := by
    unfold NetConfig.hasBuffer
    rw [hi.nodes, hp1, hpt]
    simp
    omega
  have hu1 : ∀ (f : Nat → Sender) (a b : Sender), upd (upd f src a) src b = upd f src b := by
    intro f a b
    funext j
    by_cases hj : j = src
    · subst hj; rw [upd_same, upd_same]
    · rw [upd_ne _ _ _ _ hj, upd_ne _ _ _ _ hj, upd_ne _ _ _ _ hj]
  -- the states
  let n1 : Net := { n with reader := upd n.reader t (.waiting src) }
  let n2a : Net := { n1 with queue := upd n.queue src q, sender := upd n.sender src (.handed p) }
  let n2b : Net := { n1 with queue := upd n.queue src q, sender := upd n.sender src (.flying p inter) }
  let n2c : Net := { n1 with queue := upd n.queue src q, sender := upd n.sender src (.putting p inter) }
  let b1 := upd n.buf t (upd (n.buf t) src [p.data])
  let n2d : Net := { n1 with queue := upd n.queue src q, sender := upd n.sender src (.deposited p inter), buf := b1 }
  let st1 := upd n.stats t { n.stats t with received := (n.stats t).received + 1 }
  let n2e : Net := { n1 with queue := upd n.queue src q, sender := upd n.sender src (.delivered p inter), buf := b1, stats := st1 }
  let st2 := upd st1 src ((st1 src).addSent inter)
  let n2f : Net := { n1 with queue := upd n.queue src q, sender := upd n.sender src .idle, buf := b1, stats := st2 }
  let b2 := upd b1 t (upd (b1 t) src [])
  let n2 : Net := { n with queue := upd n.queue src q, sender := upd n.sender src .idle, buf := b2, stats := st2, reader := upd n1.reader t (.got src p.data) }
  let n3 : Net := { n2 with
      reader := upd n2.reader t .idle
      stats := upd st2 t { st2 t with read := (st2 t).read + 1 }
      readLog := upd n.readLog t (upd (n.readLog t) src (n.readLog t src ++ [p.data])) }
  have a1 : n.act cfg.net (.startRead t src) = some n1 := by
    rw [net_act_alive h.crashed _ (by exact ht)]
    dsimp only
    unfold Net.startRead
    rw [h.reader t]
    dsimp only
    rw [if_pos hbuf, Int.toNat_natCast]
  have hthread : ∀ m : Net, m.crashed = none → m.act cfg.net (.thread src) = m.thread cfg.net src :=
    fun m hm => net_act_alive hm _ (by exact hs)
  have a2 : n1.act cfg.net (.thread src) = some n2a := by
    rw [hthread n1 h.crashed]
    unfold Net.thread
    rw [if_neg hst, show n1.sender src = .idle from h.sender src]
    dsimp only
    rw [show n1.queue src = p :: q from hpq]
  have a3 : n2a.act cfg.net (.thread src) = some n2b := by
    rw [hthread n2a h.crashed]
    unfold Net.thread
    rw [if_neg hst, show n2a.sender src = .handed p from upd_same _ _ _]
    dsimp only
    rw [if_neg (by push Not; exact ⟨hp2, hp3⟩), hlat]
    dsimp only
    rw [if_neg (by omega)]
    show some { n2a with sender := upd (upd n.sender src (.handed p)) src (.flying p inter) } = some n2b
    rw [hu1]
  have a4 : n2b.act cfg.net (.thread src) = some n2c := by
    rw [hthread n2b h.crashed]
    unfold Net.thread
    rw [if_neg hst, show n2b.sender src = .flying p inter from upd_same _ _ _]
    dsimp only
    rw [if_pos hbuf']
    show some { n2b with sender := upd (upd n.sender src (.flying p inter)) src (.putting p inter) } = some n2c
    rw [hu1]
  have a5 : n2c.act cfg.net (.thread src) = some n2d := by
    rw [hthread n2c h.crashed]
    unfold Net.thread
    rw [if_neg hst, show n2c.sender src = .putting p inter from upd_same _ _ _]
    dsimp only
    rw [if_pos (by show (n.buf _ _).length < _; rw [h.buf]; decide)]
    show some { n2c with
      buf := upd n.buf p.target.toNat (upd (n.buf p.target.toNat) p.src (n.buf p.target.toNat p.src ++ [p.data]))
      sender := upd (upd n.sender src (.putting p inter)) src (.deposited p inter) } = some n2d
    rw [hu1, hpt, hp1, h.buf, List.nil_append]
  have a6 : n2d.act cfg.net (.thread src) = some n2e := by
    rw [hthread n2d h.crashed]
    unfold Net.thread
    rw [if_neg hst, show n2d.sender src = .deposited p inter from upd_same _ _ _]
    dsimp only
    show some { n2d with
      sender := upd (upd n.sender src (.deposited p inter)) src (.delivered p inter)
      stats := upd n.stats p.target.toNat
        { n.stats p.target.toNat with received := (n.stats p.target.toNat).received + 1 } } = some n2e
    rw [hu1, hpt]
  have a7 : n2e.act cfg.net (.thread src) = some n2f := by
    rw [hthread n2e h.crashed]
    unfold Net.thread
    rw [if_neg hst, show n2e.sender src = .delivered p inter from upd_same _ _ _]
    dsimp only
    show some { n2e with
      sender := upd (upd n.sender src (.delivered p inter)) src .idle
      stats := upd st1 src ((st1 src).addSent inter) } = some n2f
    rw [hu1]
  have hb1 : b1 t src = [p.data] := by
    show upd n.buf t _ t src = _
    rw [upd_same, upd_same]
  have a8 : n2f.act cfg.net (.take t) = some n2 := by
    rw [net_act_alive (n := n2f) h.crashed _ (by exact ht)]
    dsimp only
    unfold Net.take
    rw [show n2f.reader t = .waiting src from upd_same _ _ _]
    dsimp only
    rw [show n2f.buf t src = [p.data] from hb1]
  have a9 : n2.act cfg.net (.readDone t) = some n3 := by
    rw [net_act_alive (n := n2) h.crashed _ (by exact ht)]
    dsimp only
    unfold Net.readDone
    rw [show n2.reader t = .got src p.data from upd_same _ _ _]
    rfl
  refine ⟨n1, n2, n3, p.data, a1, h.crashed, ⟨[.thread src, .thread src, .thread src, .thread src, .thread src,
    .thread src, .take t], ?_, ?_⟩, h.crashed, upd_same _ _ _, hpw, a9, ?_⟩
  · intro a ha
    simp only [List.mem_cons, List.not_mem_nil, or_false] at ha
    tauto
  · simp only [Net.run, a2, a3, a4, a5, a6, a7, a8, Option.bind_some]
  · refine ⟨h.crashed, ?_, ?_, h.adding, ?_, h.stopper, ?_, ?_⟩
    · intro u
      show upd n.sender src .idle u = .idle
      rw [upd_noop (h.sender src), h.sender]
    · intro u
      show upd (upd (upd n.reader t (.waiting src)) t (.got src p.data)) t .idle u = .idle
      by_cases hu : u = t
      · subst hu; rw [upd_same]
      · rw [upd_ne _ _ _ _ hu, upd_ne _ _ _ _ hu, upd_ne _ _ _ _ hu, h.reader]
    · intro u v
      show upd b1 t (upd (b1 t) src []) u v = []
      by_cases hu : u = t
      · subst hu
        rw [upd_same]
        by_cases hv : v = src
        · subst hv; rw [upd_same]
        · rw [upd_ne _ _ _ _ hv]
          show upd n.buf u _ u v = []
          rw [upd_same, upd_ne _ _ _ _ hv, h.buf]
      · rw [upd_ne _ _ _ _ hu]
        show upd n.buf t _ u v = []
        rw [upd_ne _ _ _ _ hu, h.buf]
    · intro u
      show (upd n.queue src q u).map _ = _
      by_cases hu : u = src
      · subst hu; rw [upd_same, upd_same]; exact hq
      · rw [upd_ne _ _ _ _ hu, upd_ne _ _ _ _ hu, h.queue]
    · intro u
      show ∀ p ∈ upd n.queue src q u, _
      by_cases hu : u = src
      · subst hu
        rw [upd_same]
        intro p' hp'
        exact h.packets _ p' (by rw [hpq]; exact List.mem_cons_of_mem _ hp')
      · rw [upd_ne _ _ _ _ hu]; exact h.packets u

/-- A router with an empty queue is stopped. -/
theorem net_halt {cfg : SysCfg} {outs : Nat → List (Nat × Nat)} {ups : Nat → Bool} {n : Net}
    (h : NetRest cfg.net.tiles outs ups n) {t : Nat} (ht : t < cfg.net.tiles) (hu : ups t = true) (ho : outs t = []) :
    ∃ n1 n2 n3, n.act cfg.net (.halt t) = some n1 ∧ n1.crashed = none ∧ n1.stopper t ≠ .stopped ∧
      n1.act cfg.net (.stopStep t) = some n2 ∧ n2.crashed = none ∧ n2.stopper t ≠ .stopped ∧
      n2.act cfg.net (.stopStep t) = some n3 ∧ n3.stopper t = .stopped ∧
      NetRest cfg.net.tiles outs (upd ups t false) n3 := by
  have hq : n.queue t = [] := by
    have := h.queue t
    rw [ho] at this
    exact List.map_eq_nil_iff.1 this
  have hu1 : ∀ (f : Nat → Stopper) (a b : Stopper), upd (upd f t a) t b = upd f t b := by
    intro f a b
    funext j
    by_cases hj : j = t
    · subst hj; rw [upd_same, upd_same]
    · rw [upd_ne _ _ _ _ hj, upd_ne _ _ _ _ hj, upd_ne _ _ _ _ hj]
  let n1 : Net := { n with stopper := upd n.stopper t .checking }
  let n2 : Net := { n with stopper := upd n.stopper t .emptied }
  let n3 : Net := { n with stopper := upd n.stopper t .stopped }
  have s1 : n1.stopper t = .checking := upd_same _ _ _
  have s2 : n2.stopper t = .emptied := upd_same _ _ _
  have s3 : n3.stopper t = .stopped := upd_same _ _ _
  refine ⟨n1, n2, n3, ?_, h.crashed, by rw [s1]; simp, ?_, h.crashed, by rw [s2]; simp, ?_, s3, ?_⟩
  · rw [net_act_alive h.crashed _ (by exact ht)]
    dsimp only
    unfold Net.halt
    rw [h.stopper, hu]
    rfl
  · rw [net_act_alive (n := n1) h.crashed _ (by exact ht)]
    dsimp only
    unfold Net.stopStep
    rw [s1]
    dsimp only
    rw [if_pos (show n1.queue t = [] from hq)]
    show some { n with stopper := upd (upd n.stopper t .checking) t .emptied } = _
    rw [hu1]
  · rw [net_act_alive (n := n2) h.crashed _ (by exact ht)]
    dsimp only
    unfold Net.stopStep
    rw [s2]
    dsimp only
    rw [show n2.sender t = .idle from h.sender t]
    dsimp only [Sender.busy]
    show some { n with stopper := upd (upd n.stopper t .emptied) t .stopped } = _
    rw [hu1]
  · refine ⟨h.crashed, h.sender, h.reader, h.adding, h.buf, ?_, h.queue, h.packets⟩
    intro u
    show upd n.stopper t .stopped u = _
    by_cases hu : u = t
    · subst hu; rw [upd_same, upd_same]; rfl
    · rw [upd_ne _ _ _ _ hu, upd_ne _ _ _ _ hu, h.stopper]

end Ramwich
