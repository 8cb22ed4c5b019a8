import Verif.Lemmas.WaitCtrl
import Verif.Lemmas.DryStart

/-! # Tiles with processes that wait -/
namespace Ramwich

open Pipeline (upd)
open Spec

variable {cfg : SysCfg} {cc : Config} {p : CoreParams}

/-- The process has submitted the request `r` and waits for the answer. -/
def Asks (cfg : SysCfg) (cc : Config) (p : CoreParams) (t : Nat) (d : DryTile) (x : TileSt) : Proc → Req → Prop
  | .core k, r => ∃ (a n : Nat) (evs : List MemEv) (dest read width vec : Int) (K : Known),
      d.cores[k]? = some (.read a n :: evs) ∧ (x.core k).phase = .loadWait r.id a dest read width vec ∧
      p.trace K (x.core k).prog = some evs ∧
      (∀ data : List I32, data.length = n → ∃ c2, (x.core k).core.loadFinish dest data = (.ok (), c2) ∧
        CoreKnown cc cfg.fl K c2) ∧ r.start = a ∧ r.length = n
  | .tile, r => ∃ (addr : Nat) (target width vec : Int) (rest : List TileOp), d.ops = .send addr target width vec :: rest ∧
      0 ≤ target ∧ target < cfg.net.tiles ∧ target ≠ t ∧ 0 < width ∧ 0 < vec ∧
      x.phase = .sendWait r.id addr target width vec ∧ x.ops = rest ∧ r.start = addr ∧ r.length = width * vec

/-- The process waits for nothing. -/
def Free (cfg : SysCfg) (cc : Config) (p : CoreParams) (d : DryTile) (x : TileSt) : Proc → Prop
  | .core k => ∀ evs, d.cores[k]? = some evs → CoreRel cc p cfg.fl evs (x.core k)
  | .tile => x.phase = .ready ∧ x.ops = d.ops

/-- Nothing changes but the process `q`. -/
structure Same (q : Proc) (d d' : DryTile) (x x' : TileSt) : Prop where
  tile : q ≠ .tile → d'.ops = d.ops ∧ x'.phase = x.phase ∧ x'.ops = x.ops
  core : ∀ k, q ≠ .core k → d'.cores[k]? = d.cores[k]? ∧ x'.core k = x.core k

theorem Same.asks {t : Nat} {q : Proc} {d d' : DryTile} {x x' : TileSt} (h : Same q d d' x x') {w : Proc} (hw : q ≠ w) {r : Req}
    (ha : Asks cfg cc p t d x w r) : Asks cfg cc p t d' x' w r := by
  cases w with
  | tile =>
    obtain ⟨h1, h2, h3⟩ := h.tile hw
    simp only [Asks] at ha ⊢
    rw [h1, h2, h3]
    exact ha
  | core k =>
    obtain ⟨h1, h2⟩ := h.core k hw
    simp only [Asks] at ha ⊢
    rw [h1, h2]
    exact ha

theorem Same.free {q : Proc} {d d' : DryTile} {x x' : TileSt} (h : Same q d d' x x') {w : Proc} (hw : q ≠ w)
    (ha : Free cfg cc p d x w) : Free cfg cc p d' x' w := by
  cases w with
  | tile =>
    obtain ⟨h1, h2, h3⟩ := h.tile hw
    simp only [Free] at ha ⊢
    rw [h1, h2, h3]
    exact ha
  | core k =>
    obtain ⟨h1, h2⟩ := h.core k hw
    simp only [Free] at ha ⊢
    rw [h1, h2]
    exact ha

structure TileRelW (cfg : SysCfg) (cc : Config) (p : CoreParams) (size t : Nat) (w : WaitTile) (x : TileSt) : Prop where
  ctrl : ∃ P, CtrlW size w.dry.valid w.dry.up [] P x.ctrl ∧ List.Forall₂ (Asks cfg cc p t w.dry x) w.waiting P
  served : ∀ q ∈ w.served, ∃ r data, Asks cfg cc p t w.dry x q r ∧ readAnswer r.id x.ctrl.answers = some data ∧
    (data.length : Int) = r.length
  nodup : (w.waiting ++ w.served).Nodup
  len : w.dry.cores.length = cfg.cores
  free : ∀ q, q ∉ w.waiting → q ∉ w.served → Free cfg cc p w.dry x q
  down : w.dry.up = false → w.dry.ops = [] ∧ w.dry.out = [] ∧ ∀ c ∈ w.dry.cores, c = []

theorem asks_wants {t : Nat} {d : DryTile} {x : TileSt} {w : Proc} {r : Req} (h : Asks cfg cc p t d x w r) :
    ∃ a n : Nat, d.wants w = some (a, n) ∧ r.start = a ∧ r.length = n := by
  cases w with
  | tile =>
    obtain ⟨addr, target, width, vec, rest, h1, -, -, -, h2, h3, -, -, h4, h5⟩ := h
    refine ⟨addr, (width * vec).toNat, ?_, h4, ?_⟩
    · unfold DryTile.wants
      dsimp only
      rw [h1]
      rfl
    · have := Int.mul_pos h2 h3
      rw [h5]
      omega
  | core k =>
    obtain ⟨a, n, evs, dest, read, width, vec, K, h1, -, -, -, h4, h5⟩ := h
    refine ⟨a, n, ?_, h4, h5⟩
    unfold DryTile.wants
    dsimp only
    rw [h1]

theorem asks_ready {t size : Nat} {d d' : DryTile} {x : TileSt} {w : Proc} {r : Req} (h : Asks cfg cc p t d x w r)
    (hok : ReadOk size r) (hw : d'.wants w = d.wants w) {valid : List Bool} (hl : valid.length = size)
    (hb : ∀ a < size, valid.getD a false = d'.valid.testBit a) : d'.canHave w = ready valid r := by
  obtain ⟨a, n, h1, h2, h3⟩ := asks_wants h
  obtain ⟨a', n', width, vec, k1, k2, -, k4, k5⟩ := hok
  have e1 : a' = a := by rw [k4] at h2; omega
  have e2 : n' = n := by
    have : r.length = width * vec := by unfold Req.length; rw [k1]
    omega
  subst e1; subst e2
  unfold DryTile.canHave
  rw [hw, h1, Bool.eq_iff_iff]
  dsimp only
  rw [decide_eq_true_eq, has_iff, ready_iff hl hb h2 h3 k5]

theorem pass_release {R : Proc → Req → Prop} {ok : Proc → Bool} {ok' : Req → Bool} (hok : ∀ w r, R w r → ok w = ok' r)
    (ws : List Proc) : ∀ {rs : List Req}, List.Forall₂ R ws rs →
      List.Forall₂ R (onePass ok ws).1 (release ok' rs).1 ∧ List.Forall₂ R (onePass ok ws).2 (release ok' rs).2 := by
  induction ws using onePass.induct (ok := ok) with
  | case1 =>
    intro rs h
    cases h
    exact ⟨.nil, .nil⟩
  | case2 w hw =>
    intro rs h
    cases h with
    | cons h1 h2 =>
      cases h2
      rw [hok _ _ h1] at hw
      simp only [onePass, release, hok _ _ h1, hw, if_true]
      exact ⟨.cons h1 .nil, .nil⟩
  | case3 w hw b rest ih =>
    intro rs h
    cases h with
    | cons h1 h2 =>
      cases h2 with
      | cons h3 h4 =>
        have hw' := hw
        rw [hok _ _ h1] at hw'
        obtain ⟨k1, k2⟩ := ih h4
        simp only [onePass, release, hw, hw', if_true]
        exact ⟨.cons h1 k1, .cons h3 k2⟩
  | case4 w rest hw ih =>
    intro rs h
    cases h with
    | @cons _ r _ rs h1 h2 =>
      have hw' := hw
      rw [hok _ _ h1] at hw'
      obtain ⟨k1, k2⟩ := ih h2
      rw [release_neg _ _ _ hw']
      have : onePass ok (w :: rest) = ((onePass ok rest).1, w :: (onePass ok rest).2) := by
        cases rest <;> simp [onePass, hw]
      rw [this]
      exact ⟨k1, .cons h1 k2⟩

theorem pass_perm (ok : Proc → Bool) (ws : List Proc) : ((onePass ok ws).1 ++ (onePass ok ws).2).Perm ws := by
  induction ws using onePass.induct (ok := ok) with
  | case1 => exact .nil
  | case2 w hw => simp [onePass, hw]
  | case3 w hw b rest ih =>
    simp only [onePass, hw, if_true, List.cons_append]
    exact .cons _ (List.perm_middle.trans (.cons _ ih))
  | case4 w rest hw ih =>
    have : onePass ok (w :: rest) = ((onePass ok rest).1, w :: (onePass ok rest).2) := by
      cases rest <;> simp [onePass, hw]
    rw [this]
    exact List.perm_middle.trans (.cons _ ih)

theorem forall_imp {α β : Type} {R S : α → β → Prop} {l : List α} {m : List β} (h : List.Forall₂ R l m) :
    (∀ a ∈ l, ∀ b ∈ m, R a b → S a b) → List.Forall₂ S l m := by
  induction h with
  | nil => exact fun _ => .nil
  | cons h1 _ ih =>
    intro hs
    exact .cons (hs _ (List.mem_cons_self ..) _ (List.mem_cons_self ..) h1)
      (ih fun a ha b hb => hs a (List.mem_cons_of_mem _ ha) b (List.mem_cons_of_mem _ hb))

theorem forall_mem {α β : Type} {R : α → β → Prop} {l : List α} {m : List β} (h : List.Forall₂ R l m) {a : α} (ha : a ∈ l) :
    ∃ b ∈ m, R a b := by
  induction h with
  | nil => cases ha
  | cons h1 _ ih =>
    rcases List.mem_cons.1 ha with rfl | ha
    · exact ⟨_, List.mem_cons_self .., h1⟩
    · obtain ⟨b, hb, hr⟩ := ih ha
      exact ⟨b, List.mem_cons_of_mem _ hb, hr⟩

variable {size t : Nat} {w : WaitTile} {x : TileSt}

/-- Other processes after a move of `q`. -/
theorem TileRelW.served_keep (h : TileRelW cfg cc p size t w x) {q : Proc} (hs : q ∉ w.served) {d' : DryTile} {x' : TileSt}
    (hsame : Same q w.dry d' x x') (hpre : ∃ bs, x'.ctrl.answers = x.ctrl.answers ++ bs) :
    ∀ q ∈ w.served, ∃ r data, Asks cfg cc p t d' x' q r ∧ readAnswer r.id x'.ctrl.answers = some data ∧
      (data.length : Int) = r.length := by
  obtain ⟨bs, hbs⟩ := hpre
  intro q' hq'
  obtain ⟨r, data, h1, h2, h3⟩ := h.served q' hq'
  exact ⟨r, data, hsame.asks (fun e => hs (e ▸ hq')) h1, by rw [hbs]; exact readAnswer_append h2, h3⟩

/-- A move without a write. -/
theorem TileRelW.move (h : TileRelW cfg cc p size t w x) {q : Proc} (hq : q ∉ w.waiting) (hs : q ∉ w.served) {d' : DryTile}
    {x' : TileSt} (hsame : Same q w.dry d' x x') (hlen : d'.cores.length = w.dry.cores.length)
    (hfree : Free cfg cc p d' x' q) (hval : d'.valid = w.dry.valid)
    (hdown : d'.up = false → d'.ops = [] ∧ d'.out = [] ∧ ∀ c ∈ d'.cores, c = []) {P : List Req}
    (hf : List.Forall₂ (Asks cfg cc p t w.dry x) w.waiting P) (hc : CtrlW size d'.valid d'.up [] P x'.ctrl)
    (hpre : ∃ bs, x'.ctrl.answers = x.ctrl.answers ++ bs) : TileRelW cfg cc p size t (w.after d') x' := by
  unfold WaitTile.after
  rw [if_pos hval]
  refine ⟨⟨P, hc, forall_imp hf fun a ha b _ hab => hsame.asks (fun e => hq (e ▸ ha)) hab⟩,
    h.served_keep hs hsame hpre, h.nodup, hlen.trans h.len, ?_, hdown⟩
  intro q' h1 h2
  by_cases e : q = q'
  · subst e; exact hfree
  · exact hsame.free e (h.free q' h1 h2)

theorem same_wants {q : Proc} {d d' : DryTile} {x x' : TileSt} (h : Same q d d' x x') {w : Proc} (hw : q ≠ w) :
    d'.wants w = d.wants w := by
  cases w with
  | tile => unfold DryTile.wants; dsimp only; rw [(h.tile hw).1]
  | core k => unfold DryTile.wants; dsimp only; rw [(h.core k hw).1]

/-- A move with a write. -/
theorem TileRelW.write (h : TileRelW cfg cc p size t w x) {q : Proc} (hq : q ∉ w.waiting) (hs : q ∉ w.served) {d' : DryTile}
    {x' : TileSt} (hsame : Same q w.dry d' x x') (hlen : d'.cores.length = w.dry.cores.length)
    (hfree : Free cfg cc p d' x' q) (hval : d'.valid ≠ w.dry.valid)
    (hdown : d'.up = false → d'.ops = [] ∧ d'.out = [] ∧ ∀ c ∈ d'.cores, c = []) {P : List Req} (hok : ∀ r ∈ P, ReadOk size r)
    (hf : List.Forall₂ (Asks cfg cc p t w.dry x) w.waiting P) {valid : List Bool} (hl : valid.length = size)
    (hb : ∀ a < size, valid.getD a false = d'.valid.testBit a)
    (hc : CtrlW size d'.valid d'.up [] (release (ready valid) P).2 x'.ctrl)
    (hrel : ∀ r ∈ (release (ready valid) P).1, ∃ d, readAnswer r.id x'.ctrl.answers = some d ∧ (d.length : Int) = r.length)
    (hpre : ∃ bs, x'.ctrl.answers = x.ctrl.answers ++ bs) : TileRelW cfg cc p size t (w.after d') x' := by
  unfold WaitTile.after
  rw [if_neg hval]
  have hf' : List.Forall₂ (fun w r => Asks cfg cc p t d' x' w r ∧ d'.canHave w = ready valid r) w.waiting P := by
    refine forall_imp hf fun a ha b hb' hab => ?_
    have hne : q ≠ a := fun e => hq (e ▸ ha)
    exact ⟨hsame.asks hne hab, asks_ready hab (hok b hb') (same_wants hsame hne) hl hb⟩
  obtain ⟨k1, k2⟩ := pass_release (ok := d'.canHave) (ok' := ready valid) (fun _ _ h => h.2) _ hf'
  have hperm := pass_perm d'.canHave w.waiting
  have hmem : ∀ a, a ∈ w.waiting ↔ a ∈ (onePass d'.canHave w.waiting).1 ∨ a ∈ (onePass d'.canHave w.waiting).2 := by
    intro a
    rw [← List.mem_append]
    exact hperm.mem_iff.symm
  refine ⟨⟨_, hc, forall_imp k2 fun _ _ _ _ h => h.1⟩, ?_, ?_, hlen.trans h.len, ?_, hdown⟩
  · intro q' hq'
    rcases List.mem_append.1 hq' with hq' | hq'
    · exact h.served_keep hs hsame hpre q' hq'
    · obtain ⟨r, hr, h1, -⟩ := forall_mem k1 hq'
      obtain ⟨data, h2, h3⟩ := hrel r hr
      exact ⟨r, data, h1, h2, h3⟩
  · have hp2 : ((onePass d'.canHave w.waiting).2 ++ (w.served ++ (onePass d'.canHave w.waiting).1)).Perm
        (w.waiting ++ w.served) :=
      (List.perm_append_comm.trans (by
        rw [List.append_assoc]
        exact List.Perm.append_left _ hperm)).trans List.perm_append_comm
    exact hp2.nodup_iff.2 h.nodup
  · intro q' h1 h2
    dsimp only at h1 h2
    rw [List.mem_append, not_or] at h2
    by_cases e : q = q'
    · subst e; exact hfree
    · exact hsame.free e (h.free q' (fun hh => ((hmem q').1 hh).elim h2.2 h1) h2.1)

/-- A process has to wait. -/
theorem TileRelW.ask (h : TileRelW cfg cc p size t w x) {q : Proc} (hq : q ∉ w.waiting) (hs : q ∉ w.served)
    {x' : TileSt} (hsame : Same q w.dry w.dry x x') {P : List Req} {r : Req}
    (hf : List.Forall₂ (Asks cfg cc p t w.dry x) w.waiting P) (ha : Asks cfg cc p t w.dry x' q r)
    (hc : CtrlW size w.dry.valid w.dry.up [] (P ++ [r]) x'.ctrl)
    (hpre : ∃ bs, x'.ctrl.answers = x.ctrl.answers ++ bs) :
    TileRelW cfg cc p size t { w with waiting := w.waiting ++ [q] } x' := by
  refine ⟨⟨_, hc, ?_⟩, h.served_keep hs hsame hpre, ?_, h.len, ?_, h.down⟩
  · refine List.rel_append (forall_imp hf fun a ha b _ hab => hsame.asks (fun e => hq (e ▸ ha)) hab) (.cons ha .nil)
  · have : (w.waiting ++ [q] ++ w.served).Perm (q :: (w.waiting ++ w.served)) := by
      rw [List.append_assoc]
      exact List.perm_middle
    refine this.nodup_iff.2 (List.nodup_cons.2 ⟨?_, h.nodup⟩)
    rw [List.mem_append, not_or]
    exact ⟨hq, hs⟩
  · intro q' h1 h2
    dsimp only at h1 h2
    rw [List.mem_append, List.mem_singleton, not_or] at h1
    exact hsame.free (Ne.symm h1.2) (h.free q' h1.1 h2)

/-- A process goes on with its words. -/
theorem TileRelW.resume (h : TileRelW cfg cc p size t w x) {q : Proc} (hs : q ∈ w.served) {d' : DryTile}
    {x' : TileSt} (hsame : Same q w.dry d' x x') (hlen : d'.cores.length = w.dry.cores.length)
    (hfree : Free cfg cc p d' x' q) (hval : d'.valid = w.dry.valid) (hup : d'.up = w.dry.up)
    (hdown : d'.up = false → d'.ops = [] ∧ d'.out = [] ∧ ∀ c ∈ d'.cores, c = []) (hc : x'.ctrl = x.ctrl) :
    TileRelW cfg cc p size t { w with dry := d', served := w.served.erase q } x' := by
  obtain ⟨P, k1, k2⟩ := h.ctrl
  have hn := List.nodup_append.1 h.nodup
  have hq : q ∉ w.waiting := fun hh => hn.2.2 q hh q hs rfl
  refine ⟨⟨P, by rw [hc]; dsimp only; rw [hval, hup]; exact k1,
    forall_imp k2 fun a ha b _ hab => hsame.asks (fun e => hq (e ▸ ha)) hab⟩, ?_, ?_, hlen.trans h.len, ?_, hdown⟩
  · intro q' hq'
    obtain ⟨h1, h2⟩ := (hn.2.1.mem_erase_iff).1 hq'
    obtain ⟨r, data, g1, g2, g3⟩ := h.served q' h2
    exact ⟨r, data, hsame.asks (Ne.symm h1) g1, by rw [hc]; exact g2, g3⟩
  · exact h.nodup.sublist ((List.Sublist.refl _).append (List.erase_sublist ..))
  · intro q' h1 h2
    dsimp only at h1 h2
    by_cases e : q = q'
    · subst e; exact hfree
    · exact hsame.free e (h.free q' h1 fun hh => h2 ((hn.2.1.mem_erase_iff).2 ⟨Ne.symm e, hh⟩))

end Ramwich
