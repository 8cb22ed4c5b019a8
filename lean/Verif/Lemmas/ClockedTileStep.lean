import Verif.Lemmas.ClockedTile

/-! # The times of one tile process: its steps -/
namespace Ramwich

open Spec
open Pipeline (upd)

theorem chain_snoc {asked read : List Nat} {off n s e' now : Nat} (h : readsInTurn asked read off n s e')
    (ha : asked[off + n]? = some e') (hr : read[off + n]? = some now) : readsInTurn asked read off (n + 1) s now := by
  refine ⟨fun e => by omega, fun _ => ⟨?_, ?_⟩, fun j hj => ?_⟩
  · cases n with
    | zero => rw [h.1 rfl] at ha; exact ha
    | succ n => exact (h.2.1 (by omega)).1
  · rw [show off + (n + 1) - 1 = off + n by omega]; exact hr
  · by_cases hj2 : j + 1 < n
    · exact h.2.2 j hj2
    · have : j + 1 = n := by omega
      subst this
      have h1 := (h.2.1 (by omega)).2
      rw [show off + (j + 1) - 1 = off + j by omega] at h1
      exact ⟨e', h1, by rw [show off + j + 1 = off + (j + 1) by omega]; exact ha⟩

section
variable {lat cores : Nat} {prog : List TileOp} {v v' : TV}

theorem tileTimes_step (h : TileTimes lat cores prog v) (hline : CtrlLine v.ctrl) (st : TVStep lat cores v v') :
    TileTimes lat cores prog v' := by
  have x := tvStep_ext h st
  have ht := h.time
  cases st with
  | ctrl c hc =>
    exact times_frame h x rfl rfl rfl rfl rfl hc.now rfl rfl rfl h.asked id ⟨rfl, rfl, rfl⟩ (fun _ e => e) h.done h.ret
      h.haltDone (ht.ext x hc h.cnow rfl rfl rfl rfl rfl rfl rfl (fun _ => rfl) (.inl rfl) h.asked rfl fun _ e => .inl e)
  | take src y hr =>
    have hlen : ∀ s, (v.asked s).length = (upd v.read src (v.read src ++ [v.now]) s).length := by
      intro s
      have := h.asked s
      rw [hr] at this
      by_cases hs : s = src
      · subst hs
        rw [upd_same, List.length_append, this, if_pos rfl]
        rfl
      · rw [upd_ne _ _ _ _ hs, this, if_neg (by intro e; injection e with e; exact hs e.symm)]
        rfl
    refine times_frame h x rfl rfl rfl rfl rfl rfl rfl rfl rfl (fun s => ?_) (fun e => ?_) ⟨rfl, rfl, rfl⟩ (fun _ e => e)
      h.done h.ret h.haltDone ?_
    · dsimp only
      rw [hlen s, if_neg (by simp)]; rfl
    · rw [hr] at e; cases e
    · refine ht.ext x (.rfl' _) h.cnow rfl rfl rfl rfl rfl rfl rfl (fun _ => rfl) (.inr ⟨src, y, hr, rfl, ?_⟩) h.asked rfl
        fun _ e => .inl e
      intro m hm
      dsimp only
      rw [upd_same, hm]
      simp
  | done k hd =>
    refine times_frame h x rfl rfl rfl rfl rfl rfl rfl rfl rfl h.asked id ⟨rfl, rfl, rfl⟩ (fun _ e => e) ?_ ?_ ?_
      (ht.ext x (.rfl' _) h.cnow rfl rfl rfl rfl rfl rfl rfl (fun _ => rfl) (.inl rfl) h.asked rfl fun _ e => .inl e)
    · intro j d e
      dsimp only at e ⊢
      by_cases hj : j = k
      · subst hj; rw [upd_same] at e; injection e with e; omega
      · rw [upd_ne _ _ _ _ hj] at e; exact h.done j d e
    · intro j hj hh d e
      dsimp only at e hh ⊢
      by_cases hjk : j = k
      · subst hjk; rw [upd_same] at e; injection e with e; exact e.symm
      · rw [upd_ne _ _ _ _ hjk] at e; exact h.ret j hj hh d e
    · intro j e
      dsimp only at e ⊢
      by_cases hjk : j = k
      · subst hjk; rw [upd_same]; simp
      · rw [upd_ne _ _ _ _ hjk]; exact h.haltDone j e
  | returned k hk hd =>
    refine times_frame h x rfl rfl rfl rfl rfl rfl rfl rfl rfl h.asked id ⟨rfl, rfl, rfl⟩ ?_ h.done ?_ ?_
      (ht.ext x (.rfl' _) h.cnow rfl rfl rfl rfl rfl rfl rfl (fun _ => rfl) (.inl rfl) h.asked rfl ?_)
    · intro j e
      dsimp only
      by_cases hj : j = k
      · subst hj; rw [upd_same]
      · rw [upd_ne _ _ _ _ hj]; exact e
    · intro j hj hh
      dsimp only at hh ⊢
      by_cases hjk : j = k
      · subst hjk; rw [upd_same] at hh; cases hh
      · rw [upd_ne _ _ _ _ hjk] at hh; exact h.ret j hj hh
    · intro j e
      dsimp only at e ⊢
      by_cases hjk : j = k
      · subst hjk; exact hd
      · rw [upd_ne _ _ _ _ hjk] at e; exact h.haltDone j e
    · intro _ hall
      dsimp only at hall ⊢
      by_cases hkc : k < cores
      · right
        cases hd' : v.doneAt k with
        | none => exact absurd hd' hd
        | some d => exact ⟨k, hkc, by rw [hd', h.ret k hkc hk d hd']⟩
      · left
        intro j hj
        have := hall j hj
        rwa [upd_ne _ _ _ _ (by omega)] at this
  | send addr target width vec rest c hp ho hc =>
    refine times_start h hp ho x rfl rfl rfl rfl rfl hc.ext.now rfl rfl rfl ⟨rfl, rfl, rfl⟩ ⟨rfl, rfl, rfl⟩ ⟨rfl, rfl⟩
      (by simp) fun hl hs hop => ?_
    obtain ⟨r, h1, h2, h3, h4, h5⟩ := hc.req
    refine ⟨v.now, r, hs, hop, h1, h2, h3, h4, by rw [h5]; exact h.cnow, ?_⟩
    intro a ha hid
    dsimp only at ha
    rw [hc.ans] at ha
    exact absurd hid (no_answer_yet hline ha)
  | recv addr source width vec rest hp ho hv =>
    refine times_start h hp ho x rfl rfl rfl rfl rfl rfl rfl rfl rfl ⟨rfl, rfl, rfl⟩ ⟨rfl, rfl, rfl⟩ ⟨rfl, rfl⟩
      (by simp) fun hl hs hop => ?_
    exact ⟨v.now, (v.asked source.toNat).length, hs, hop, by simpa using hv,
      ⟨fun _ => rfl, fun e => absurd e (by simp), fun j e => absurd e (by simp)⟩, by simp⟩
  | halt rest hp ho =>
    refine times_start h hp ho x rfl rfl rfl rfl rfl rfl rfl rfl rfl ⟨rfl, rfl, rfl⟩ ⟨rfl, rfl, rfl⟩ ⟨rfl, rfl⟩
      (by simp) fun hl hs hop => ?_
    exact ⟨v.now, hs, hop, le_refl _, fun _ => .inl rfl⟩
  | sendGot id addr target width vec data rows hp ha hr =>
    have hready : v.phase.isReady = false := by rw [hp]; rfl
    unfold PhaseTime at ht
    rw [hp] at ht
    obtain ⟨s, r, h1, h2, h3, h4, h5, h6, h7, h8⟩ := ht
    obtain ⟨r', tm, h9, h10⟩ := readAnswer_mem ha
    have hrr : r' = r := answer_unique hline h9 h10 h3
    subst hrr
    have htm : tm = v.now := h8 _ h9 h10
    have hq := h.qlen (by rw [hp]; simp) (by rw [hp]; simp)
    refine times_mid h x rfl rfl rfl rfl hready rfl rfl rfl (fun e => absurd rfl (e _ _))
      (fun _ => h.adds (by rw [hp]; simp)) h.asked (fun _ => h.reader (by rw [hp]; simp))
      (fun _ => h.stopper (by rw [hp]; simp)) h.stopped h.halts h.order ?_ h.coreEnd ⟨rfl, rfl⟩ ?_
    · intro e
      rcases h.past e with e | e
      · rw [hp] at e; cases e
      · exact .inr e
    · refine ⟨s, addr, width, vec, h1, h2, r', tm, data, h9, h4, h5, h6, h7, 0, by simpa using hr, by simpa using hq,
        fun j hj => absurd hj (by omega), ?_⟩
      dsimp only
      omega
  | sendRow target row rows hp =>
    have hready : v.phase.isReady = false := by rw [hp]; rfl
    unfold PhaseTime at ht
    rw [hp] at ht
    obtain ⟨s, a, w, n, h1, h2, r, tm, data, h3, h4, h5, h6, h7, c, h8, h9, h10, h11⟩ := ht
    refine times_mid h x rfl rfl rfl rfl hready rfl rfl rfl (fun _ e => absurd rfl (e _ _))
      (fun e => absurd rfl (e _ _)) h.asked (fun _ => h.reader (by rw [hp]; simp))
      (fun _ => h.stopper (by rw [hp]; simp)) h.stopped h.halts h.order ?_ h.coreEnd ⟨rfl, rfl⟩ ?_
    · intro e
      rcases h.past e with e | e
      · rw [hp] at e; cases e
      · exact .inr e
    · refine ⟨s, a, w, n, h1, h2, r, tm, data, h3, h4, h5, h6, h7, c + 1, ?_, ?_, ?_, ?_⟩
      · simp only [List.length_cons] at h8; omega
      · dsimp only; rw [List.length_append, h9]; simp; omega
      · intro j hj
        dsimp only
        by_cases hjc : j < c
        · exact prefix_getElem? (List.prefix_append _ _) (h10 j hjc)
        · have : j = c := by omega
          subst this
          rw [← h9, List.getElem?_append_right (le_refl _)]
          simp [h11]
      · dsimp only
        rw [h.adds (by rw [hp]; simp), h11, Nat.succ_mul, Nat.add_assoc]
        rfl
  | sendEnd target hp =>
    have hready : v.phase.isReady = false := by rw [hp]; rfl
    unfold PhaseTime at ht
    rw [hp] at ht
    obtain ⟨s, a, w, n, h1, h2, r, tm, data, h3, h4, h5, h6, h7, c, h8, h9, h10, h11⟩ := ht
    simp only [List.length_nil, Nat.add_zero] at h8
    subst h8
    have hrd := h.reader (by rw [hp]; simp)
    refine times_end (s := s) h hready x rfl rfl rfl rfl rfl rfl rfl rfl rfl ⟨rfl, rfl⟩ hrd (by rw [hp]; simp)
      (fun src => ?_) ⟨rfl, rfl, rfl⟩ ⟨rfl, rfl⟩ (h.stopper (by rw [hp]; simp)) (by rw [hp]; simp) h1 h2 ?_ ?_
    · have := h.asked src
      rw [hrd] at this
      simpa using this
    · rw [packets_snoc h2, h9]
      simp [packetsOf]
    · exact ⟨r, tm, data, h3, h4, h5, h6, h7, h10, h11⟩
  | added target rows rest hp ha =>
    have hready : v.phase.isReady = false := by rw [hp]; rfl
    unfold PhaseTime at ht
    rw [hp] at ht
    obtain ⟨s, a, w, n, h1, h2, r, tm, data, h3, h4, h5, h6, h7, c, h8, h9, h10, h11⟩ := ht
    rw [h11] at ha
    injection ha with ha1 ha2
    refine times_mid h x rfl rfl rfl rfl hready rfl rfl rfl (fun e => absurd rfl (e _ _))
      (fun _ => ha2.symm) h.asked (fun _ => h.reader (by rw [hp]; simp))
      (fun _ => h.stopper (by rw [hp]; simp)) h.stopped h.halts h.order ?_ h.coreEnd ⟨rfl, rfl⟩ ?_
    · intro e
      rcases h.past e with e | e
      · rw [hp] at e; cases e
      · exact .inr e
    · exact ⟨s, a, w, n, h1, h2, r, tm, data, h3, h4, h5, h6, h7, c, h8, h9, h10, ha1.symm⟩
  | recvRead addr source width vec got hp hg hr =>
    have hready : v.phase.isReady = false := by rw [hp]; rfl
    unfold PhaseTime at ht
    rw [hp] at ht
    obtain ⟨s, off, h1, h2, h3, h4, h5⟩ := ht
    refine times_mid h x rfl rfl rfl rfl hready rfl rfl rfl (fun _ _ => h.qlen (by rw [hp]; simp) (by rw [hp]; simp))
      (fun _ => h.adds (by rw [hp]; simp)) (fun src => ?_) (fun e => absurd rfl (e _ _ _ _ _))
      (fun _ => h.stopper (by rw [hp]; simp)) h.stopped h.halts h.order ?_ h.coreEnd ⟨rfl, rfl⟩ ?_
    · dsimp only
      have := h.asked src
      rw [hr] at this
      by_cases hs : src = source.toNat
      · subst hs
        rw [upd_same, List.length_append, if_pos rfl, this]
        simp
      · rw [upd_ne _ _ _ _ hs, this, if_neg (by simp), if_neg (by intro e; injection e with e; exact hs e.symm)]
    · intro e
      rcases h.past e with e | e
      · rw [hp] at e; cases e
      · exact .inr e
    · refine ⟨s, off, v.now, h1, h2, hg, readsInTurn_mono (x.asked _) (x.read _) h4, ?_, ?_, .inl rfl⟩
      · dsimp only
        rw [upd_same, h5]
        simp
      · dsimp only
        rw [upd_same, List.length_append, ← h5]
        rfl
  | recvRow addr source width vec got src data hp hr hw =>
    have hready : v.phase.isReady = false := by rw [hp]; rfl
    unfold PhaseTime at ht
    rw [hp] at ht
    obtain ⟨s, off, e', h1, h2, h3, h4, h5, h6, h7⟩ := ht
    have hsrc : src = source.toNat ∧ (v.read source.toNat)[off + got.length]? = some v.now := by
      rcases h7 with h7 | ⟨y, h7, h8⟩
      · rw [hr] at h7; cases h7
      · rw [hr] at h7; injection h7 with h7 _; exact ⟨h7, h8⟩
    refine times_mid h x rfl rfl rfl rfl hready rfl rfl rfl (fun _ _ => h.qlen (by rw [hp]; simp) (by rw [hp]; simp))
      (fun _ => h.adds (by rw [hp]; simp)) (fun s' => ?_) (fun _ => rfl)
      (fun _ => h.stopper (by rw [hp]; simp)) h.stopped h.halts h.order ?_ h.coreEnd ⟨rfl, rfl⟩ ?_
    · have := h.asked s'
      rw [hr] at this
      simpa using this
    · intro e
      rcases h.past e with e | e
      · rw [hp] at e; cases e
      · exact .inr e
    · refine ⟨s, off, h1, h2, ?_, ?_, ?_⟩
      · rw [List.length_append, List.length_singleton]; push_cast; omega
      · rw [List.length_append, List.length_singleton]
        exact chain_snoc h4 h5 hsrc.2
      · rw [List.length_append, List.length_singleton, ← h6]; rfl
  | recvBad addr source width vec got src data hp hr hw =>
    have hready : v.phase.isReady = false := by rw [hp]; rfl
    unfold PhaseTime at ht
    rw [hp] at ht
    obtain ⟨s, off, e', h1, h2, h3, h4, h5, h6, h7⟩ := ht
    have hsrc : src = source.toNat ∧ (v.read source.toNat)[off + got.length]? = some v.now := by
      rcases h7 with h7 | ⟨y, h7, h8⟩
      · rw [hr] at h7; cases h7
      · rw [hr] at h7; injection h7 with h7 _; exact ⟨h7, h8⟩
    refine times_end (s := s) h hready x rfl rfl rfl rfl rfl rfl rfl rfl rfl ⟨rfl, rfl⟩ rfl (by rw [hp]; simp)
      (fun s' => ?_) ⟨rfl, rfl, rfl⟩ ⟨rfl, rfl⟩ (h.stopper (by rw [hp]; simp)) (by rw [hp]; simp) h1 h2 ?_ ?_
    · have := h.asked s'
      rw [hr] at this
      simpa using this
    · rw [packets_snoc h2, h.qlen (by rw [hp]; simp) (by rw [hp]; simp)]
      simp [packetsOf]
    · exact ⟨off, got.length + 1, v.now, chain_snoc h4 h5 hsrc.2, by omega, .inr ⟨by omega, rfl⟩⟩
  | recvAll addr source width vec got c hp hg hc =>
    have hready : v.phase.isReady = false := by rw [hp]; rfl
    unfold PhaseTime at ht
    rw [hp] at ht
    obtain ⟨s, off, h1, h2, h3, h4, h5⟩ := ht
    refine times_mid h x rfl rfl rfl rfl hready rfl hc.ext.now rfl
      (fun _ _ => h.qlen (by rw [hp]; simp) (by rw [hp]; simp))
      (fun _ => h.adds (by rw [hp]; simp)) h.asked (fun _ => h.reader (by rw [hp]; simp))
      (fun _ => h.stopper (by rw [hp]; simp)) h.stopped h.halts h.order ?_ h.coreEnd ⟨rfl, rfl⟩ ?_
    · intro e
      rcases h.past e with e | e
      · rw [hp] at e; cases e
      · exact .inr e
    · obtain ⟨r, g1, g2, g3, g4, g5⟩ := hc.req
      have hgl : got.length = vec.toNat := by omega
      rw [hgl] at h4
      refine ⟨s, addr, source, width, vec, off, v.now, r, got.flatten, h1, h2, h4, by rw [← hgl]; exact h5, g1, g2, g3, g4, by rw [g5]; exact h.cnow, ?_⟩
      intro a ha hid
      dsimp only at ha
      rw [hc.ans] at ha
      exact absurd hid (no_answer_yet hline ha)
  | recvDone id hp ha =>
    have hready : v.phase.isReady = false := by rw [hp]; rfl
    unfold PhaseTime at ht
    rw [hp] at ht
    obtain ⟨s, a, sr, w, n, off, e', r, data, h1, h2, h3, hof, h4, h5, h6, h7, h8, h9⟩ := ht
    obtain ⟨r', tm, h10, h11⟩ := wroteAnswer_mem ha
    have hrr : r' = r := answer_unique hline h10 h11 h4
    subst hrr
    have htm : tm = v.now := h9 _ h10 h11
    subst htm
    have hrd := h.reader (by rw [hp]; simp)
    refine times_end (s := s) h hready x rfl rfl rfl rfl rfl rfl rfl rfl rfl ⟨rfl, rfl⟩ hrd (by rw [hp]; simp)
      (fun s' => ?_) ⟨rfl, rfl, rfl⟩ ⟨rfl, rfl⟩ (h.stopper (by rw [hp]; simp)) (by rw [hp]; simp) h1 h2 ?_ ?_
    · have := h.asked s'
      rw [hrd] at this
      simpa using this
    · rw [packets_snoc h2, h.qlen (by rw [hp]; simp) (by rw [hp]; simp)]
      simp [packetsOf]
    · exact ⟨off, n.toNat, e', h3, le_refl _, .inl ⟨rfl, r', data, h10, h5, h6, h7, h8⟩⟩
  | haltAgain hp hh hs =>
    have hready : v.phase.isReady = false := by rw [hp]; rfl
    unfold PhaseTime at ht
    rw [hp] at ht
    obtain ⟨s, h1, h2, h3, h4⟩ := ht
    have hns : v.haltAt ≠ none := fun e => by
      have := h.halts.2 e
      rw [hs] at this; cases this
    refine times_mid h x rfl rfl rfl rfl hready rfl rfl rfl (fun _ _ => h.qlen (by rw [hp]; simp) (by rw [hp]; simp))
      (fun _ => h.adds (by rw [hp]; simp)) h.asked (fun _ => h.reader (by rw [hp]; simp))
      (fun e => absurd rfl e) h.stopped h.halts h.order (fun _ => .inl rfl) h.coreEnd ⟨rfl, rfl⟩ ?_
    obtain ⟨y, hx⟩ := Option.ne_none_iff_exists'.1 hns
    obtain ⟨q, hq⟩ := Option.ne_none_iff_exists'.1 (h.stopped.1 hs)
    have ho := h.order y q hx hq
    refine ⟨s, y, h1, h2, hx, by dsimp only; omega, fun hj => ?_, fun q' hq' => ?_, h3⟩
    · exfalso
      rcases h.past (by rw [hs]; simp) with e | ⟨j, e1, e2⟩
      · rw [hp] at e; cases e
      · exact hj j e1 e2
    · dsimp only at hq' ⊢
      rw [hq] at hq'
      injection hq' with hq'
      subst hq'
      refine ⟨ho.1, ?_⟩
      rcases h4 hh with e | ⟨k, hk, e⟩
      · omega
      · obtain ⟨-, d, e1, e2⟩ := h.coreEnd y hx k hk
        rw [e] at e1
        injection e1 with e1
        omega
  | haltFirst hp hh hs =>
    have hready : v.phase.isReady = false := by rw [hp]; rfl
    unfold PhaseTime at ht
    rw [hp] at ht
    obtain ⟨s, h1, h2, h3, h4⟩ := ht
    have hno : v.stopAt = none := by
      by_contra hne
      have := h.stopped.2 hne
      rw [hs] at this; cases this
    refine times_mid h x rfl rfl rfl rfl hready rfl rfl rfl (fun _ _ => h.qlen (by rw [hp]; simp) (by rw [hp]; simp))
      (fun _ => h.adds (by rw [hp]; simp)) h.asked (fun _ => h.reader (by rw [hp]; simp))
      (fun e => absurd rfl e) ?_ ?_ ?_ (fun _ => .inl rfl) ?_ ⟨rfl, rfl⟩ ?_
    · dsimp only; rw [hno]; simp
    · simp
    · intro y q _ e
      dsimp only at e
      rw [hno] at e; cases e
    · intro y e k hk
      injection e with e
      subst e
      refine ⟨hh k hk, ?_⟩
      obtain ⟨d, hd⟩ := Option.ne_none_iff_exists'.1 (h.haltDone k (hh k hk))
      exact ⟨d, hd, h.done k d hd⟩
    · refine ⟨s, v.now, h1, h2, rfl, le_refl _, fun _ => ⟨h3, h4 hh⟩, fun q hq => ?_, h3⟩
      dsimp only at hq
      rw [hno] at hq
      cases hq
  | stopStep st hp hs hs' n1 n2 =>
    have hready : v.phase.isReady = false := by rw [hp]; rfl
    have hno : v.stopAt = none := by
      by_contra hne
      exact hs' (h.stopped.2 hne)
    have hx : v.haltAt ≠ none := fun e => hs (h.halts.2 e)
    refine times_mid h x rfl rfl rfl rfl hready hready rfl rfl (fun _ _ => h.qlen (by rw [hp]; simp) (by rw [hp]; simp))
      (fun _ => h.adds (by rw [hp]; simp)) h.asked (fun _ => h.reader (by rw [hp]; simp))
      (fun e => absurd hp e) ?_ ?_ h.order (fun _ => .inl hp) h.coreEnd ⟨rfl, rfl⟩ ?_
    · exact ⟨fun e => absurd e n2, fun e => absurd hno e⟩
    · exact ⟨fun e => absurd e n1, fun e => absurd e hx⟩
    · unfold PhaseTime at ht ⊢
      exact ht
  | stop hp hs hs' =>
    have hready : v.phase.isReady = false := by rw [hp]; rfl
    have hx : v.haltAt ≠ none := fun e => hs (h.halts.2 e)
    unfold PhaseTime at ht
    rw [hp] at ht
    obtain ⟨s, y, h1, h2, h3, h4, h5, h6, h7⟩ := ht
    refine times_mid h x rfl rfl rfl rfl hready hready rfl rfl (fun _ _ => h.qlen (by rw [hp]; simp) (by rw [hp]; simp))
      (fun _ => h.adds (by rw [hp]; simp)) h.asked (fun _ => h.reader (by rw [hp]; simp))
      (fun e => absurd hp e) ?_ ?_ ?_ (fun _ => .inl hp) h.coreEnd ⟨rfl, rfl⟩ ?_
    · simp
    · exact ⟨fun e => (by cases e), fun e => absurd e hx⟩
    · intro y' q e1 e2
      dsimp only at e1 e2 ⊢
      rw [h3] at e1
      injection e1 with e1
      injection e2 with e2
      omega
    · unfold PhaseTime
      rw [show ({ v with stopper := Stopper.stopped, stopAt := some v.now } : TV).phase = .haltRouter from hp]
      refine ⟨s, y, h1, h2, h3, h4, h5, fun q hq => ?_, h7⟩
      injection hq with hq
      dsimp only
      omega
  | haltEnd c hp hs hc =>
    have hready : v.phase.isReady = false := by rw [hp]; rfl
    unfold PhaseTime at ht
    rw [hp] at ht
    obtain ⟨s, y, h1, h2, h3, h4, h5, h6, h7⟩ := ht
    have hrd := h.reader (by rw [hp]; simp)
    refine times_end (s := s) h hready x rfl rfl rfl rfl rfl hc.now rfl rfl rfl ⟨rfl, rfl⟩ hrd (by rw [hp]; simp)
      (fun s' => ?_) ⟨rfl, rfl, rfl⟩ ⟨rfl, rfl⟩ (.inr hs) (fun _ => rfl) h1 h2 ?_ ?_
    · have := h.asked s'
      rw [hrd] at this
      simpa using this
    · rw [packets_snoc h2, h.qlen (by rw [hp]; simp) (by rw [hp]; simp)]
      simp [packetsOf]
    · obtain ⟨q, hq⟩ := Option.ne_none_iff_exists'.1 (h.stopped.1 hs)
      obtain ⟨g1, g2⟩ := h6 q hq
      refine ⟨y, q, h3, hq, g2.symm, g1, fun k hk => (h.coreEnd y h3 k hk).2, h5⟩

/-- Time passes. -/
theorem tileTimes_tick (h : TileTimes lat cores prog v) (hline : CtrlLine v.ctrl) (q : TVQuiet cores v) (c : Ctrl)
    (hc : c.now = v.ctrl.now + 1) (hs : c.submitted = v.ctrl.submitted) (ha : c.answers = v.ctrl.answers) :
    TileTimes lat cores prog { v with now := v.now + 1, ctrl := c } := by
  have x : TVExt v { v with now := v.now + 1, ctrl := c } :=
    ⟨by rw [ha], List.prefix_rfl, fun _ => List.prefix_rfl, fun _ => List.prefix_rfl, fun _ e => e, fun _ e => e,
      fun _ _ e => e⟩
  refine ⟨by rw [hc, h.cnow], h.ops, h.count, h.first, h.chain, took_keep h x List.prefix_rfl rfl, ?_, h.active, h.qlen,
    h.adds, h.asked, h.reader, h.stopper, h.stopped, h.halts, ?_, h.past, h.coreEnd, ?_, ?_, h.haltDone⟩
  · have ht := h.time
    unfold PhaseTime at ht ⊢
    dsimp only
    cases hp : v.phase with
    | ready =>
      intro e
      exact absurd (q.ready hp) e
    | sendWait id addr target width vec =>
      rw [hp] at ht
      obtain ⟨s, r, h1, h2, h3, h4, h5, h6, h7, h8⟩ := ht
      refine ⟨s, r, h1, h2, by rw [hs]; exact h3, h4, h5, h6, h7, ?_⟩
      rw [ha]
      intro a haa hid
      exfalso
      have hr := answer_unique hline haa hid h3
      have hk := hline.kinds a haa
      have hn := q.sendWait _ _ _ _ _ hp
      cases a with
      | read r' tm d =>
        have : ∀ as : List Answer, Answer.read r' tm d ∈ as → readAnswer id as ≠ none := by
          intro as
          induction as with
          | nil => intro e; cases e
          | cons b bs ih =>
            intro e
            cases b with
            | read r'' tm' d' =>
              simp only [readAnswer]
              split
              · simp
              · rename_i hne
                rcases List.mem_cons.1 e with e | e
                · cases e; exact absurd hid hne
                · exact ih e
            | wrote r'' tm' =>
              simp only [readAnswer]
              rcases List.mem_cons.1 e with e | e
              · cases e
              · exact ih e
        exact this _ haa hn
      | wrote r' tm =>
        have hr : r' = r := hr
        subst hr
        have hk : r'.isWrite = true := hk
        unfold Req.isWrite at hk
        rw [h6] at hk
        cases hk
    | sending target todo => exact absurd hp (q.sending _ _)
    | adding target todo => rw [hp] at ht; rw [ha]; exact ht
    | recving addr source width vec got => exact absurd hp (q.recving _ _ _ _ _)
    | recvWait addr source width vec got =>
      rw [hp] at ht
      obtain ⟨s, off, e', h1, h2, h3, h4, h5, h6, h7⟩ := ht
      refine ⟨s, off, e', h1, h2, h3, h4, h5, h6, ?_⟩
      rcases h7 with h7 | ⟨y, h7, -⟩
      · exact .inl h7
      · exact absurd h7 (q.reader _ _ _ _ _ _ _ hp)
    | recvWrite id =>
      rw [hp] at ht
      obtain ⟨s, a, sr, w, n, off, e', r, data, h1, h2, h3, hof, h4, h5, h6, h7, h8, h9⟩ := ht
      refine ⟨s, a, sr, w, n, off, e', r, data, h1, h2, h3, hof, by rw [hs]; exact h4, h5, h6, h7, h8, ?_⟩
      rw [ha]
      intro a haa hid
      exfalso
      have hr := answer_unique hline haa hid h4
      have hk := hline.kinds a haa
      have hn := q.recvWrite _ hp
      cases a with
      | wrote r' tm =>
        have : ∀ as : List Answer, Answer.wrote r' tm ∈ as → wroteAnswer id as = true := by
          intro as
          induction as with
          | nil => intro e; cases e
          | cons b bs ih =>
            intro e
            cases b with
            | wrote r'' tm' =>
              simp only [wroteAnswer, Bool.or_eq_true, decide_eq_true_eq]
              rcases List.mem_cons.1 e with e | e
              · cases e; exact .inl hid
              · exact .inr (ih e)
            | read r'' tm' d' =>
              simp only [wroteAnswer]
              rcases List.mem_cons.1 e with e | e
              · cases e
              · exact ih e
        rw [this _ haa] at hn
        cases hn
      | read r' tm d =>
        have hr : r' = r := hr
        subst hr
        have hk : r'.isWrite = false := hk
        unfold Req.isWrite at hk
        rw [h7] at hk
        cases hk
    | haltCores =>
      rw [hp] at ht
      obtain ⟨s, h1, h2, h3, h4⟩ := ht
      refine ⟨s, h1, h2, by omega, fun hall => ?_⟩
      obtain ⟨k, hk, hf⟩ := q.haltCores hp
      rw [hall k hk] at hf
      cases hf
    | haltRouter =>
      rw [hp] at ht
      obtain ⟨s, y, h1, h2, h3, h4, h5, h6, h7⟩ := ht
      refine ⟨s, y, h1, h2, h3, by omega, h5, fun q' hq' => ?_, by omega⟩
      exfalso
      exact q.haltRouter hp (h.stopped.2 (by rw [hq']; simp))
  · intro y q' e1 e2
    have := h.order y q' e1 e2
    dsimp only
    omega
  · intro k d e
    have := h.done k d e
    dsimp only
    omega
  · intro k hk hf d e
    have := q.returned k hk hf
    dsimp only at e
    rw [this] at e
    cases e

end

end Ramwich
