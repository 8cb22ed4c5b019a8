import Verif.Lemmas.ClockedLeftTile
import Verif.Lemmas.ClockedDead

/-! # The time that passes is time that was needed, or nothing will happen any more -/
namespace Ramwich

open Spec Pipeline

theorem sum_range_mono {n : Nat} {g g' : Nat → Nat} (h : ∀ k, k < n → g' k ≤ g k) :
    ((List.range n).map g').sum ≤ ((List.range n).map g).sum ∧
    (((List.range n).map g).sum ≤ ((List.range n).map g').sum → ∀ k, k < n → g' k = g k) := by
  induction n with
  | zero => exact ⟨le_refl _, fun _ k hk => absurd hk (by omega)⟩
  | succ n ih =>
    obtain ⟨h1, h2⟩ := ih fun k hk => h k (by omega)
    have h3 := h n (by omega)
    simp only [List.range_succ, List.map_append, List.sum_append, List.map_cons, List.map_nil, List.sum_cons, List.sum_nil]
    refine ⟨by omega, fun hle k hk => ?_⟩
    by_cases hkn : k = n
    · subst hkn; omega
    · exact h2 (by omega) k (by omega)

theorem ctrlLeft_later {lat : Int} (c : Ctrl) {m : Nat} (hm : c.now ≤ m) :
    ctrlLeft lat { c with now := m } ≤ ctrlLeft lat c ∧
    (ctrlLeft lat { c with now := m } = ctrlLeft lat c → c.now < m → c.bus ≠ [] → ∀ d, c.deadline = some d → ¬ m ≤ d) := by
  unfold ctrlLeft
  dsimp only
  cases hb : c.bus with
  | nil => simp [busLeft]
  | cons r rest =>
    cases hd : c.deadline with
    | none => simp [busLeft]
    | some d =>
      simp only [busLeft]
      refine ⟨by omega, fun h1 h2 _ d' hd' => ?_⟩
      injection hd' with hd'
      omega

theorem stageRem_later (p : Timed CoreOp) {m : Nat} (hm : p.now ≤ m) (j : Nat) :
    stageRem { p with now := m } j ≤ stageRem p j ∧
    (stageRem { p with now := m } j = stageRem p j → p.now < m → ∀ op d, p.st.ctl j = .busy op → p.deadline j = some d → ¬ m ≤ d) := by
  unfold stageRem
  dsimp only
  constructor
  · split <;> omega
  · intro h1 h2 op d h3 h4
    rw [h3, h4] at h1
    dsimp only at h1
    omega

theorem phaseLeft_later {cfg : SysCfg} {now m : Nat} (hm : now ≤ m) (ph : CorePhase) (due : Option Nat) :
    phaseLeft cfg m ph due ≤ phaseLeft cfg now ph due ∧
    (phaseLeft cfg m ph due = phaseLeft cfg now ph due → now < m →
      (ph = .timing ∨ ph = .halting ∨ (∃ a b, ph = .loadGot a b) ∨ ∃ a b c, ph = .storeDelay a b c) →
      ∀ d, due = some d → ¬ m ≤ d) := by
  constructor
  · unfold phaseLeft
    split <;> omega
  · intro h1 h2 h3 d hd
    subst hd
    rcases h3 with rfl | rfl | ⟨a, b, rfl⟩ | ⟨a, b, c, rfl⟩ <;> simp only [phaseLeft, Option.getD_some] at h1 <;> omega

theorem coreLeft_later {cfg : SysCfg} {l : StageLat} {prog : List CoreOp} (p : Timed CoreOp) {m : Nat} (hm : p.now ≤ m)
    (ph : CorePhase) (due : Option Nat) :
    coreLeft cfg l prog { p with now := m } ph due ≤ coreLeft cfg l prog p ph due ∧
    (coreLeft cfg l prog { p with now := m } ph due = coreLeft cfg l prog p ph due →
      (∀ j, j < 2 → stageRem { p with now := m } j = stageRem p j) ∧ phaseLeft cfg m ph due = phaseLeft cfg p.now ph due) := by
  have h0 := (stageRem_later p hm 0).1
  have h1 := (stageRem_later p hm 1).1
  have h2 := (phaseLeft_later (cfg := cfg) hm ph due).1
  have e : ∀ j, toStart prog { p with now := m } j = toStart prog p j := fun _ => rfl
  unfold coreLeft
  rw [e, e, e]
  dsimp only
  refine ⟨by omega, fun h => ⟨fun j hj => ?_, by omega⟩⟩
  rcases Nat.lt_or_ge j 1 with hj' | hj'
  · obtain rfl : j = 0 := by omega
    omega
  · obtain rfl : j = 1 := by omega
    omega

theorem adds_later {now m : Nat} (hm : now ≤ m) (adds : List Nat) :
    (adds.map fun d => d - m).sum ≤ (adds.map fun d => d - now).sum ∧
    ((adds.map fun d => d - m).sum = (adds.map fun d => d - now).sum → now < m → ∀ d ∈ adds, ¬ m ≤ d) := by
  induction adds with
  | nil => exact ⟨le_refl _, fun _ _ d hd => absurd hd (by simp)⟩
  | cons x adds ih =>
    simp only [List.map_cons, List.sum_cons]
    refine ⟨by omega, fun h1 h2 d hd => ?_⟩
    rcases List.mem_cons.1 hd with rfl | hd
    · omega
    · exact ih.2 (by omega) h2 d hd

theorem senderLeft_later {lat now m : Nat} (hm : now ≤ m) (sd : Sender) (fl : Nat) :
    senderLeft lat m sd fl ≤ senderLeft lat now sd fl ∧
    (senderLeft lat m sd fl = senderLeft lat now sd fl → now < m → ∀ p b, sd = .flying p b → ¬ m ≤ fl) := by
  constructor
  · unfold senderLeft
    split <;> omega
  · rintro h1 h2 p b rfl
    simp only [senderLeft] at h1
    omega

theorem stopLeft_later {now m : Nat} (hm : now ≤ m) (st : Stopper) (q : List Packet) (ck : Nat) :
    stopLeft m st q ck ≤ stopLeft now st q ck ∧
    (stopLeft m st q ck = stopLeft now st q ck → now < m → st = .checking → q = [] → ¬ m ≤ ck) := by
  constructor
  · unfold stopLeft
    split
    · split <;> omega
    · omega
  · rintro h1 h2 rfl rfl
    simp only [stopLeft] at h1
    simp only [if_true] at h1
    omega

/-- An operation that is running waits for a `timeout` or for the DRAM. -/
theorem running_due {cfg : SysCfg} {k : Nat} {c : Ctrl} {op : CoreOp} {ph : CorePhase} {st : Nat} {due : Option Nat}
    {now : Nat} (h : Running cfg k c op ph st due now) :
    (∃ d, due = some d ∧ now ≤ d ∧
      (ph = .timing ∨ ph = .halting ∨ (∃ a b, ph = .loadGot a b) ∨ ∃ a b c, ph = .storeDelay a b c)) ∨
    (∃ id addr dest read width vec, ph = .loadWait id addr dest read width vec) ∨ ∃ id, ph = .storeWait id := by
  unfold Running at h
  split at h
  · rcases h with ⟨id, addr, r, h, -⟩ | ⟨data, r, tm, h, -, -, -, -, -, h1, h2⟩
    · exact .inr (.inl ⟨_, _, _, _, _, _, h⟩)
    · exact .inl ⟨_, h1, h2, .inr (.inr (.inl ⟨_, _, h⟩))⟩
  · rcases h with ⟨addr, data, h, -, h1, h2⟩ | ⟨id, r, data, h, -⟩
    · exact .inl ⟨_, h1, h2, .inr (.inr (.inr ⟨_, _, _, h⟩))⟩
    · exact .inr (.inr ⟨_, h⟩)
  · obtain ⟨h, d, -, -, h1, h2⟩ := h
    refine .inl ⟨_, h1, h2, ?_⟩
    split at h
    · exact .inr (.inl h)
    · exact .inl h

section
variable {cfg : SysCfg} {l : StageLat} {i : SysInit} {f f' : FSys}

/-- When time passes, nothing else can happen but looking at the queues. -/
theorem tick_none (h0 : ∀ t, GoodStart (i.mem t) (i.valid t)) (h : FInv cfg l i f) (ha : f.act cfg l (.t .tick) = some f') :
    ∀ a, idleAct a = false → f.act cfg l a = none := by
  have hc := fact_alive ha
  unfold FSys.act at ha
  rw [if_neg (by rw [hc]; simp)] at ha
  dsimp only at ha
  split at ha
  swap
  · cases ha
  rename_i hq
  rw [Option.map_eq_some_iff] at ha
  obtain ⟨ts, ha, -⟩ := ha
  unfold TSys.act at ha
  rw [if_neg (by rw [hc]; simp)] at ha
  dsimp only at ha
  unfold TSys.tick at ha
  split at ha
  swap
  · cases ha
  rename_i htq
  clear ha
  obtain ⟨hI, hV⟩ := h.both h0
  rw [List.all_eq_true] at htq
  have htile : ∀ t, t < cfg.net.tiles → f.ts.tileQuiet cfg l t = true := fun t ht => htq t (List.mem_range.2 ht)
  have hctrl : ∀ t, t < cfg.net.tiles → (f.ts.sys.tile t).ctrl.quiescent = true := by
    intro t ht
    have := htile t ht
    unfold TSys.tileQuiet at this
    rw [Bool.and_eq_true] at this
    exact this.1
  have hcore : ∀ t k, cfg.hasCore t k = true → f.ts.coreQuiet cfg l t k = true := by
    intro t k hk
    have := htile t (hasCore_tile hk)
    unfold TSys.tileQuiet at this
    rw [Bool.and_eq_true, List.all_eq_true] at this
    exact this.2 k (List.mem_range.2 (hasCore_core hk))
  unfold FSys.quiet NetClock.quiet at hq
  simp only [Bool.and_eq_true, List.all_eq_true, List.mem_range, Option.isNone_iff_eq_none] at hq
  obtain ⟨⟨-, hr⟩, hproc⟩ := hq
  have hnet : ∀ na, f.clk.ready cfg.net cfg.dataMemLat f.ts.sys.net f.ts.now na = false → ∀ n k,
      f.ts.sys.net.act cfg.net na = some n → f.clk.step cfg.net cfg.dataMemLat f.ts.sys.net f.ts.now na = some k → False := by
    intro na h1 n k h2 h3
    unfold NetClock.ready at h1
    rw [h2, h3] at h1
    cases h1
  intro a hidle
  unfold FSys.act
  rw [if_neg (by rw [hc]; simp)]
  cases a with
  | recheck => cases hidle
  | monitor => cases hidle
  | t b =>
    cases b with
    | tick => cases hidle
    | pipe t k a =>
      dsimp only
      rw [Option.map_eq_none_iff]
      unfold TSys.act
      rw [if_neg (by rw [hc]; simp)]
      dsimp only
      split
      swap
      · rfl
      rename_i hk
      have := hcore t k hk
      unfold TSys.coreQuiet Timed.quiet at this
      simp only [Bool.and_eq_true, List.all_eq_true, List.mem_range, Option.isNone_iff_eq_none] at this
      obtain ⟨⟨⟨⟨⟨⟨⟨h1, h2⟩, h3⟩, h4⟩, -⟩, -⟩, -⟩, -⟩ := this
      have hst : ∀ j, j < 3 → (f.ts.pipe t k).take j = none ∧ (f.ts.pipe t k).start l.lat j = none ∧
          ((f.ts.pipe t k).finish 3 j = none ∨ (f.ts.pipe t k).deadline j = none) ∧ (f.ts.pipe t k).putIn j = none ∧
          (f.ts.pipe t k).next isHlt j = none := by
        intro j hj
        have := h4 j hj
        unfold Timed.stageQuiet at this
        simp only [Bool.and_eq_true, Bool.or_eq_true, Option.isNone_iff_eq_none] at this
        tauto
      unfold TSys.pipeAct
      split
      · rfl
      · rfl
      · rename_i e1 e2
        rw [Option.map_eq_none_iff]
        cases a with
        | feedIn => exact h1
        | monitor => exact h2
        | signal => exact h3
        | tick => rfl
        | take j => unfold Timed.move; dsimp only; split <;> first | rfl | exact (hst j (by assumption)).1
        | start j => unfold Timed.move; dsimp only; split <;> first | rfl | exact (hst j (by assumption)).2.1
        | putIn j => unfold Timed.move; dsimp only; split <;> first | rfl | exact (hst j (by assumption)).2.2.2.1
        | next j => unfold Timed.move; dsimp only; split <;> first | rfl | exact (hst j (by assumption)).2.2.2.2
        | finish j =>
          unfold Timed.move
          dsimp only
          split
          swap
          · rfl
          rename_i hj
          have hj2 : j < 2 := by have : j ≠ 2 := fun e => e2 (by rw [e]); omega
          rcases (hst j hj).2.2.1 with e | e
          · exact e
          · unfold Timed.finish
            split
            swap
            · rfl
            · rename_i op hb
              have := (((hI.tinv hk).stage j hj).running op hb).1
              rw [e] at this
              rcases Nat.lt_or_ge j 1 with hj' | hj'
              · obtain rfl : j = 0 := by omega
                cases this
              · obtain rfl : j = 1 := by omega
                cases this
    | exec t k =>
      dsimp only
      rw [Option.map_eq_none_iff]
      unfold TSys.act
      rw [if_neg (by rw [hc]; simp)]
      dsimp only
      split
      · have := hcore t k (by assumption)
        unfold TSys.coreQuiet at this
        simp only [Bool.and_eq_true, Option.isNone_iff_eq_none] at this
        tauto
      · rfl
    | mid t k =>
      dsimp only
      rw [Option.map_eq_none_iff]
      unfold TSys.act
      rw [if_neg (by rw [hc]; simp)]
      dsimp only
      split
      · have := hcore t k (by assumption)
        unfold TSys.coreQuiet at this
        simp only [Bool.and_eq_true, Option.isNone_iff_eq_none] at this
        tauto
      · rfl
    | fin t k =>
      dsimp only
      rw [Option.map_eq_none_iff]
      unfold TSys.act
      rw [if_neg (by rw [hc]; simp)]
      dsimp only
      split
      · have := hcore t k (by assumption)
        unfold TSys.coreQuiet at this
        simp only [Bool.and_eq_true, Option.isNone_iff_eq_none] at this
        tauto
      · rfl
    | ret t k =>
      dsimp only
      rw [Option.map_eq_none_iff]
      unfold TSys.act
      rw [if_neg (by rw [hc]; simp)]
      dsimp only
      split
      · have := hcore t k (by assumption)
        unfold TSys.coreQuiet at this
        simp only [Bool.and_eq_true, Option.isNone_iff_eq_none] at this
        tauto
      · rfl
    | other b =>
      dsimp only
      by_contra hne
      obtain ⟨g, hg⟩ := Option.ne_none_iff_exists'.1 hne
      obtain ⟨ts, k, h1, h2, -, -⟩ := other_cases hg
      obtain ⟨-, hb1, hb2, sys, h5, -⟩ := tsAct_other h1
      unfold Sys.act at h5
      rw [if_neg (by rw [hc]; simp)] at h5
      unfold FSys.netPart Sys.netOf at h2
      cases b with
      | core t k => exact hb1 _ _ rfl
      | thread t =>
        dsimp only at h5 h2
        unfold Sys.netAct at h5
        rw [Option.map_eq_some_iff] at h5
        obtain ⟨n, hn, -⟩ := h5
        obtain ⟨-, ht, -⟩ := net_act_cases hn
        have := hr t ht
        unfold NetClock.routerQuiet at this
        simp only [Bool.and_eq_true, Bool.not_eq_true'] at this
        exact hnet _ this.1.1.1.1.2 n k hn h2
      | take t =>
        dsimp only at h5 h2
        unfold Sys.netAct at h5
        rw [Option.map_eq_some_iff] at h5
        obtain ⟨n, hn, -⟩ := h5
        obtain ⟨-, ht, -⟩ := net_act_cases hn
        have := hr t ht
        unfold NetClock.routerQuiet at this
        simp only [Bool.and_eq_true, Bool.not_eq_true'] at this
        exact hnet _ this.1.1.1.2 n k hn h2
      | tile t =>
        dsimp only at h5
        split at h5
        · rename_i ht
          rw [hproc t ht] at hg
          cases hg
        · cases h5
      | ctrl t a =>
        have hno : t < cfg.net.tiles → ∀ a : CtrlAct, a = .pick ∨ a = .dispatch ∨ a = .grant ∨ a = .complete →
            f.ts.sys.ctrlAct cfg t a id = none := by
          intro ht a ha
          unfold Sys.ctrlAct
          rw [Option.map_eq_none_iff]
          have hqu := hctrl t ht
          have hcc : (f.ts.sys.tile t).ctrl.crashed = none := (hV.alive hc).2 t
          generalize (f.ts.sys.tile t).ctrl = c at hqu hcc
          unfold Ctrl.quiescent at hqu
          unfold Ctrl.act
          rw [if_neg (by rw [hcc]; simp)]
          rw [Bool.and_eq_true] at hqu
          obtain ⟨q1, q2⟩ := hqu
          rcases ha with rfl | rfl | rfl | rfl <;> dsimp only
          · unfold Ctrl.pick
            split
            · rename_i e1 e2 e3; rw [e1, e2, e3] at q1; cases q1
            · rfl
          · unfold Ctrl.dispatch
            split
            · rename_i e1 e2; rw [e1, e2] at q1; cases q1
            · rfl
          · unfold Ctrl.grant
            split
            · rename_i e1 e2; rw [e1, e2] at q2; cases q2
            · rfl
          · unfold Ctrl.complete
            split
            · rename_i d e1 e2
              rw [e1, e2] at q2
              have q2 : c.now < d := by simpa using q2
              rw [if_pos (by omega)]
            · rfl
        cases a with
        | submit => cases h5
        | stop => cases h5
        | tick => exact hb2 _ rfl
        | _ =>
          dsimp only at h5
          split at h5
          · rename_i ht
            rw [hno ht _ (by simp)] at h5
            cases h5
          · cases h5

/-- The parts of the time that a tile still needs after a tick. -/
theorem tick_parts (h0 : ∀ t, GoodStart (i.mem t) (i.valid t)) (h : FInv cfg l i f) (ha : f.act cfg l (.t .tick) = some f')
    {t : Nat} (ht : t < cfg.net.tiles) :
    f'.tileLeft cfg l i t ≤ f.tileLeft cfg l i t ∧
    (f'.tileLeft cfg l i t = f.tileLeft cfg l i t →
      (f.ts.sys.tile t).ctrl.bus = [] ∧
      (∀ k, k < cfg.cores → (∀ j, j < 2 → ∀ op, (f.ts.pipe t k).st.ctl j ≠ .busy op) ∧
        ∀ op, (f.ts.pipe t k).st.ctl 2 = .busy op →
          (∃ id addr dest read width vec, ((f.ts.sys.tile t).core k).phase = .loadWait id addr dest read width vec) ∨
          ∃ id, ((f.ts.sys.tile t).core k).phase = .storeWait id) ∧
      f.clk.adds t = [] ∧ (∀ p b, f.ts.sys.net.sender t ≠ .flying p b) ∧
      ¬ (f.ts.sys.net.stopper t = .checking ∧ f.ts.sys.net.queue t = [])) := by
  have hc := fact_alive ha
  have hl := later_tick ha
  have h' := finv_act h0 h ha
  have hc' : f'.ts.sys.crashed = none := by rw [hl.crashed, hc]
  obtain ⟨hI, hV⟩ := h.both h0
  obtain ⟨hI', hV'⟩ := h'.both h0
  have hnow : f'.ts.now = f.ts.now + 1 := hl.now
  obtain ⟨m, etile⟩ := hl.tile t
  have hm : m = f.ts.now + 1 := by
    have := hI'.cnow hc' t ht
    rw [etile, hnow] at this
    exact this
  subst hm
  have hcn := hI.cnow hc t ht
  have epipe : ∀ k, k < cfg.cores → f'.ts.pipe t k = { f.ts.pipe t k with now := f.ts.now + 1 } ∧ (f.ts.pipe t k).now = f.ts.now := by
    intro k hk
    have hcore : cfg.hasCore t k = true := by unfold SysCfg.hasCore; simp [ht, hk]
    obtain ⟨m, e⟩ := hl.pipe t k
    have := hI'.pnow t k hcore
    rw [e, hnow] at this
    have : m = f.ts.now + 1 := this
    subst this
    exact ⟨e, hI.pnow t k hcore⟩
  have hck : f'.clk.check = f.clk.check := by
    unfold FSys.act at ha
    rw [if_neg (by rw [hc]; simp)] at ha
    dsimp only at ha
    split at ha
    · rw [Option.map_eq_some_iff] at ha
      obtain ⟨ts, -, rfl⟩ := ha
      rfl
    · cases ha
  have a1 := ctrlLeft_later (lat := cfg.edramLat) (f.ts.sys.tile t).ctrl (m := f.ts.now + 1) (by omega)
  have a2 := fun k (hk : k < cfg.cores) => coreLeft_later (cfg := cfg) (l := l) (prog := i.prog t k) (f.ts.pipe t k)
    (m := f.ts.now + 1) (by have := (epipe k hk).2; omega) ((f.ts.sys.tile t).core k).phase (f.ts.due t k)
  have a3 := adds_later (now := f.ts.now) (m := f.ts.now + 1) (by omega) (f.clk.adds t)
  have a4 := senderLeft_later (lat := cfg.net.lat) (now := f.ts.now) (m := f.ts.now + 1) (by omega)
    (f.ts.sys.net.sender t) (f.clk.flight t)
  have a5 := stopLeft_later (now := f.ts.now) (m := f.ts.now + 1) (by omega)
    (f.ts.sys.net.stopper t) (f.ts.sys.net.queue t) (f.clk.check t)
  have a6 := sum_range_mono (n := cfg.cores)
    (g := fun k => coreLeft cfg l (i.prog t k) (f.ts.pipe t k) ((f.ts.sys.tile t).core k).phase (f.ts.due t k))
    (g' := fun k => coreLeft cfg l (i.prog t k) (f'.ts.pipe t k) ((f.ts.sys.tile t).core k).phase (f.ts.due t k))
    fun k hk => by rw [(epipe k hk).1]; exact (a2 k hk).1
  unfold FSys.tileLeft
  rw [etile, hl.due, hl.net, hl.adds, hl.flight, hck, hnow]
  dsimp only at a1 a6 ⊢
  refine ⟨by omega, fun heq => ?_⟩
  have e1 := le_antisymm a1.1 (by omega)
  have e3 : ((f.clk.adds t).map fun d => d - (f.ts.now + 1)).sum = ((f.clk.adds t).map fun d => d - f.ts.now).sum := by omega
  have e4 : senderLeft cfg.net.lat (f.ts.now + 1) (f.ts.sys.net.sender t) (f.clk.flight t) =
    senderLeft cfg.net.lat f.ts.now (f.ts.sys.net.sender t) (f.clk.flight t) := by omega
  have e5 : stopLeft (f.ts.now + 1) (f.ts.sys.net.stopper t) (f.ts.sys.net.queue t) (f.clk.check t) =
    stopLeft f.ts.now (f.ts.sys.net.stopper t) (f.ts.sys.net.queue t) (f.clk.check t) := by omega
  have e6 := a6.2 (by omega)
  refine ⟨?_, fun k hk => ?_, ?_, fun p b hs => ?_, fun ⟨hs, hq⟩ => ?_⟩
  · by_contra hne
    obtain ⟨r, rest, hb⟩ := List.exists_cons_of_ne_nil hne
    cases hd : (f.ts.sys.tile t).ctrl.deadline with
    | none =>
      unfold FSys.act at ha
      rw [if_neg (by rw [hc]; simp)] at ha
      dsimp only at ha
      split at ha
      swap
      · cases ha
      rw [Option.map_eq_some_iff] at ha
      obtain ⟨ts, ha, -⟩ := ha
      unfold TSys.act at ha
      rw [if_neg (by rw [hc]; simp)] at ha
      dsimp only at ha
      unfold TSys.tick at ha
      split at ha
      swap
      · cases ha
      rename_i htq
      rw [List.all_eq_true] at htq
      have := htq t (List.mem_range.2 ht)
      unfold TSys.tileQuiet at this
      rw [Bool.and_eq_true] at this
      have := this.1
      unfold Ctrl.quiescent at this
      rw [hb, hd] at this
      simp at this
    | some d =>
      refine a1.2 e1 (by omega) hne d hd ?_
      obtain ⟨_, _, -, hle, -⟩ := (ctrlInv_of (h0 t) (hV'.tile t).ctrl).time.serving d (by
        show ((f'.ts.plain i).tile t).ctrl.deadline = some d
        have : (f'.ts.sys.tile t).ctrl.deadline = some d := by rw [etile]; exact hd
        exact this)
      have hle : (f'.ts.sys.tile t).ctrl.now ≤ d := hle
      rw [hI'.cnow hc' t ht, hnow] at hle
      exact hle
  · have hcore : cfg.hasCore t k = true := by unfold SysCfg.hasCore; simp [ht, hk]
    have ek := e6 k hk
    rw [(epipe k hk).1] at ek
    obtain ⟨g1, g2⟩ := (a2 k hk).2 ek
    have hpn := (epipe k hk).2
    have est : (f'.ts.pipe t k).st = (f.ts.pipe t k).st := by rw [(epipe k hk).1]
    have edl : (f'.ts.pipe t k).deadline = (f.ts.pipe t k).deadline := by rw [(epipe k hk).1]
    refine ⟨fun j hj op hb => ?_, fun op hb => ?_⟩
    · obtain ⟨r1, r2⟩ := ((hI'.tinv hcore).stage j (by omega)).running op (by rw [est]; exact hb)
      have hlat : ∃ d, (f'.ts.pipe t k).deadline j = some d := by
        rw [r1]
        unfold StageLat.lat
        rcases Nat.lt_or_ge j 1 with hj' | hj'
        · obtain rfl : j = 0 := by omega
          exact ⟨_, rfl⟩
        · obtain rfl : j = 1 := by omega
          exact ⟨_, rfl⟩
      obtain ⟨d, hd⟩ := hlat
      have hle := r2 d hd
      rw [hI'.pnow t k hcore, hnow] at hle
      exact (stageRem_later (f.ts.pipe t k) (m := f.ts.now + 1) (by omega) j).2 (g1 j hj) (by omega) op d hb
        (by rw [← edl]; exact hd) hle
    · have hrun := (hI'.core hc' t k hcore).busy op (by rw [est]; exact hb)
      rw [etile, hl.due, hnow] at hrun
      rcases running_due hrun with ⟨d, hd, hle, hph⟩ | hph
      · exact absurd hle ((phaseLeft_later (cfg := cfg) (now := f.ts.now) (m := f.ts.now + 1) (by omega) _ _).2 (by rw [hpn] at g2; exact g2) (by omega) hph d hd)
      · exact hph
  · by_contra hne
    obtain ⟨d, rest, hb⟩ := List.exists_cons_of_ne_nil hne
    have := (h'.adds t).ge d (by rw [hl.adds, hb]; simp)
    rw [hnow] at this
    exact a3.2 e3 (by omega) d (by rw [hb]; simp) this
  · obtain ⟨_, -, -, hle⟩ := (h'.times.router t).flying p b (by
      show f'.ts.sys.net.sender t = _
      rw [hl.net]; exact hs)
    have hle : f'.ts.now ≤ f'.clk.flight t := hle
    rw [hnow, hl.flight] at hle
    exact a4.2 e4 (by omega) p b hs hle
  · have hck' := (h'.times.halt t).check (by rw [hl.net]; exact hs)
    rw [hck, hnow] at hck'
    refine a5.2 e5 (by omega) hs hq ?_
    rcases hck' with ⟨e, -⟩ | ⟨e, -⟩ <;> omega

theorem tick_left (h0 : ∀ t, GoodStart (i.mem t) (i.valid t)) (h : FInv cfg l i f) (ha : f.act cfg l (.t .tick) = some f') :
    f'.left cfg l i < f.left cfg l i ∨ clockedRest cfg l f := by
  obtain ⟨m1, m2⟩ := sum_range_mono (n := cfg.net.tiles) fun t ht => (tick_parts h0 h ha ht).1
  by_cases hlt : f'.left cfg l i < f.left cfg l i
  · exact .inl hlt
  right
  have hall := m2 (by unfold FSys.left at hlt; omega)
  have key := fun t (ht : t < cfg.net.tiles) => (tick_parts h0 h ha ht).2 (hall t ht)
  clear m1 m2 hall hlt
  have hc := fact_alive ha
  have hno := tick_none h0 h ha
  obtain ⟨hI, hV⟩ := h.both h0
  have hst : f.ts.Stalled cfg l := by
    refine ⟨fun a hne => ?_, fun t k d op hk hb hd hle => ?_, fun t k hk j hj op hb => ?_⟩
    · by_cases ho : ∃ b, a = .other b
      swap
      · exact rest_coreAct hc hno hne fun b e => ho ⟨b, e⟩
      obtain ⟨b, rfl⟩ := ho
      by_contra hne
      obtain ⟨ts, hts⟩ := Option.ne_none_iff_exists'.1 hne
      obtain ⟨-, hb1, hb2, sys, hsys, -⟩ := tsAct_other hts
      cases hk : f.netPart cfg b with
      | some k =>
        obtain ⟨g, hg⟩ := other_some' (l := l) hc hb1 hb2 hsys hk
        rw [hno _ rfl] at hg
        cases hg
      | none =>
        unfold FSys.netPart at hk
        unfold Sys.act at hsys
        rw [if_neg (by rw [hc]; simp)] at hsys
        cases b with
        | core t k => exact hb1 _ _ rfl
        | ctrl t a => cases hk
        | thread t =>
          dsimp only at hsys
          unfold Sys.netAct at hsys
          rw [Option.map_eq_some_iff] at hsys
          obtain ⟨m, hm, -⟩ := hsys
          obtain ⟨-, ht, -⟩ := net_act_cases hm
          simp only [Sys.netOf, NetClock.step] at hk
          cases hs : f.ts.sys.net.sender t with
          | flying p bb => exact (key t ht).2.2.2.1 p bb hs
          | _ => rw [hs] at hk; cases hk
        | take t =>
          simp only [Sys.netOf, NetClock.step] at hk
          cases hs : f.ts.sys.net.reader t <;> rw [hs] at hk <;> cases hk
        | tile t =>
          dsimp only at hsys
          split at hsys
          swap
          · cases hsys
          rename_i ht
          obtain ⟨-, -, k1, -, k2⟩ := key t ht
          have hT := h.tile hc t ht
          unfold Sys.tileStep at hsys
          dsimp only at hsys
          simp only [Sys.netOf] at hk
          cases hp : (f.ts.sys.tile t).phase with
          | adding target rows =>
            have hT' := hT.time
            unfold PhaseTime at hT'
            rw [show (f.tv t).phase = _ from hp] at hT'
            obtain ⟨_, _, _, _, -, -, _, tm, _, -, -, -, -, -, n, -, -, -, had⟩ := hT'
            have had : f.clk.adds t = [tm + n * cfg.dataMemLat.toNat] := had
            rw [k1] at had
            cases had
          | haltRouter =>
            rw [hp] at hsys hk
            dsimp only at hsys hk
            cases hs : f.ts.sys.net.stopper t with
            | stopped => rw [hs] at hk; cases hk
            | running => rw [hs] at hk; simp only [NetClock.step, hs] at hk; cases hk
            | waiting m => rw [hs] at hk; simp only [NetClock.step, hs] at hk; cases hk
            | emptied =>
              rw [hs] at hk
              simp only [NetClock.step, hs] at hk
              split at hk <;> cases hk
            | checking =>
              rw [hs] at hsys
              dsimp only at hsys
              unfold Sys.netAct at hsys
              rw [Option.map_eq_some_iff] at hsys
              obtain ⟨m, hm, -⟩ := hsys
              obtain ⟨-, -, hm⟩ := net_act_cases hm
              dsimp only at hm
              unfold Net.stopStep at hm
              rw [hs] at hm
              dsimp only at hm
              split at hm
              · rename_i hq; exact k2 ⟨hs, hq⟩
              · cases hm
          | sending target todo =>
            rw [hp] at hk
            cases todo with
            | nil => cases hk
            | cons row rows =>
              dsimp only at hk
              by_cases hd : cfg.dataMemLat < 0
              · rw [if_pos hd] at hk; cases hk
              · rw [if_neg hd] at hk; cases hk
          | recving addr source width vec got =>
            rw [hp] at hk
            dsimp only at hk
            by_cases hd : (got.length : Int) < vec
            · rw [if_pos hd] at hk; cases hk
            · rw [if_neg hd] at hk; cases hk
          | recvWait addr source width vec got =>
            rw [hp] at hk
            dsimp only at hk
            cases hs : f.ts.sys.net.reader t <;> rw [hs] at hk <;> cases hk
          | haltCores =>
            rw [hp] at hk
            dsimp only at hk
            by_cases hd : f.ts.sys.coresHalted cfg t = true
            · rw [if_pos hd] at hk
              cases hs : f.ts.sys.net.stopper t <;> rw [hs] at hk <;> cases hk
            · rw [if_neg hd] at hk
              cases hs : f.ts.sys.net.stopper t <;> rw [hs] at hk <;> cases hk
          | _ => rw [hp] at hk; cases hk
    · exact ((key t (hasCore_tile hk)).2.1 k (hasCore_core hk)).2 op hb
    · exact ((key t (hasCore_tile hk)).2.1 k (hasCore_core hk)).1 j hj op hb
  have hrest : atRest cfg (f.ts.plain i) :=
    atRest_of_stuck (stuck_of_resting h0 (resting_of_stalled h0 h hc hst fun t ht => (key t ht).1))
  have hps : f.ts.PipesStill cfg l := by
    refine ⟨fun t k hk a h1 h2 => still_pipe hst hc hk a h1 h2, hst.stages, fun t k hk hph op hb => ?_⟩
    rcases ((key t (hasCore_tile hk)).2.1 k (hasCore_core hk)).2 op hb with ⟨_, _, _, _, _, _, e⟩ | ⟨_, e⟩ <;>
      (rw [hph] at e; cases e)
  exact fun as g hr a ha => rest_of_still h0 as h hrest hps hr a ha

end
end Ramwich
