import Verif.Lemmas.DramController

/-! # Where the requests of a DRAM controller are -/
namespace Ramwich

open Spec

theorem ctrlLine_submit (c : Ctrl) (h : CtrlLine c) (r : Req) (hid : r.id = c.submitted.length)
    (st : CtrlStats) :
    CtrlLine { c with queue := c.queue ++ [r], submitted := c.submitted ++ [r], stats := st } := by
  have hlt : ∀ x ∈ c.submitted, x.id < r.id := by
    intro x hx; rw [hid]; exact (submitted_mem c h x hx).1
  have hline : Ctrl.line { c with queue := c.queue ++ [r], submitted := c.submitted ++ [r], stats := st }
      = c.line ++ [r] := by simp [Ctrl.line]
  refine ⟨?_, ?_, h.reads, ?_, ?_, ?_, h.kinds, h.busReady⟩
  · intro i x hx
    dsimp only at hx
    rw [List.getElem?_append] at hx
    split at hx
    · exact h.ids i x hx
    · rename_i hi
      rw [List.getElem?_singleton] at hx
      split at hx
      · injection hx with hx; subst hx; omega
      · exact absurd hx (by simp)
  · rw [hline]
    dsimp only
    have : (c.line ++ [r] ++ c.pending ++ c.answers.map Answer.req).Perm
        (c.line ++ c.pending ++ c.answers.map Answer.req ++ [r]) := by
      simp only [List.append_assoc]
      apply List.Perm.append_left
      rw [← List.append_assoc c.pending]
      exact List.perm_append_comm
    exact this.trans (h.perm.append_right [r])
  · rw [hline]
    dsimp only
    rw [List.filter_append, List.filter_append, h.writes, List.append_assoc]
  · rw [hline, List.pairwise_append]
    refine ⟨h.order, List.pairwise_singleton _ _, ?_⟩
    intro x hx y hy _ _
    rw [List.mem_singleton.1 hy]
    exact hlt x (line_mem c h x hx)
  · intro p hp w hw hww
    dsimp only at hp hw
    rw [← List.append_assoc, List.mem_append] at hw
    rcases hw with hw | hw
    · exact h.wait p hp w hw hww
    · rw [List.mem_singleton.1 hw]
      exact hlt p (pending_mem c h p hp)

theorem ctrlLine_step (lat : Int) (m0 : Memory) (v0 : List Bool) (c c' : Ctrl) (hm : CtrlMem m0 v0 c)
    (h : CtrlLine c) {act : CtrlAct} (st : CtrlStep lat c act c') : CtrlLine c' := by
  cases st with
  | crash e => exact ⟨h.1, h.2, h.3, h.4, h.5, h.6, h.7, h.8⟩
  | submit core start kind hr => exact ctrlLine_submit c h _ rfl _
  | pick r rest h1 h2 =>
    have hline : Ctrl.line { c with handed := some r, queue := rest } = c.line := by
      simp [Ctrl.line, h1, h2]
    have hhq : (some r).toList ++ rest = c.handed.toList ++ c.queue := by simp [h1, h2]
    refine ⟨h.1, ?_, h.3, ?_, ?_, ?_, h.7, h.8⟩
    · rw [hline]; exact h.perm
    · rw [hline]; exact h.writes
    · rw [hline]; exact h.order
    · intro p hp w hw
      dsimp only at hw
      rw [hhq] at hw
      exact h.wait p hp w hw
  | toBus r h1 h2 =>
    have hline : Ctrl.line { c with handed := none, bus := c.bus ++ [r] } = c.line := by
      simp [Ctrl.line, h1]
    refine ⟨h.1, ?_, h.3, ?_, ?_, ?_, h.7, ?_⟩
    · rw [hline]; exact h.perm
    · rw [hline]; exact h.writes
    · rw [hline]; exact h.order
    · intro p hp w hw
      refine h.wait p hp w ?_
      simp only [Option.toList_none, List.nil_append] at hw
      exact List.mem_append_right _ hw
    · intro x hx hxw
      rcases List.mem_append.1 hx with hx | hx
      · exact h.busReady x hx hxw
      · rw [List.mem_singleton.1 hx] at hxw ⊢
        rcases h2 with h2 | h2
        · rw [h2] at hxw; exact absurd hxw (by simp)
        · exact h2
  | toPending r h1 h2 h3 =>
    have e1 : c.line = c.bus ++ [r] ++ c.queue := by simp [Ctrl.line, h1]
    have e2 : Ctrl.line { c with handed := none, pending := c.pending ++ [r] } = c.bus ++ c.queue := by
      simp [Ctrl.line]
    have hord := h.order
    rw [e1, List.append_assoc, List.pairwise_append] at hord
    obtain ⟨o1, o2, o3⟩ := hord
    rw [List.singleton_append, List.pairwise_cons] at o2
    refine ⟨h.1, ?_, ?_, ?_, ?_, ?_, h.7, h.8⟩
    · rw [e2]
      refine List.Perm.trans ?_ h.perm
      rw [e1]
      simp only [List.append_assoc]
      apply List.Perm.append_left
      simp only [← List.append_assoc]
      apply List.Perm.append_right
      rw [List.append_assoc [r]]
      exact List.perm_append_comm
    · intro x hx
      rcases List.mem_append.1 hx with hx | hx
      · exact h.reads x hx
      · rw [List.mem_singleton.1 hx]; exact h2
    · rw [e2]
      have := h.writes
      rw [e1] at this
      simpa [List.filter_append, h2] using this
    · rw [e2, List.pairwise_append]
      exact ⟨o1, o2.2, fun x hx y hy => o3 x hx y (by simp [hy])⟩
    · intro p hp w hw hww
      simp only [Option.toList_none, List.nil_append] at hw
      rcases List.mem_append.1 hp with hp | hp
      · exact h.wait p hp w (List.mem_append_right _ hw) hww
      · rw [List.mem_singleton.1 hp]
        exact o2.1 w hw h2 hww
  | grant => exact ⟨h.1, h.2, h.3, h.4, h.5, h.6, h.7, h.8⟩
  | tick => exact ⟨h.1, h.2, h.3, h.4, h.5, h.6, h.7, h.8⟩
  | stopped => exact h
  | stop => exact ⟨h.1, h.2, h.3, h.4, h.5, h.6, h.7, h.8⟩
  | read r rest mem data h1 h2 h3 h4 =>
    have e1 : c.line = r :: (rest ++ c.handed.toList ++ c.queue) := by simp [Ctrl.line, h1]
    refine ⟨h.1, ?_, h.3, ?_, ?_, h.6, ?_, ?_⟩
    · refine List.Perm.trans ?_ h.perm
      rw [e1]
      simp only [Ctrl.line, List.map_append, List.map_cons, List.map_nil, List.cons_append]
      rw [← List.append_assoc]
      exact List.perm_append_comm
    · have := h.writes
      rw [e1] at this
      simp only [writesOf_append, writesOf_read, List.append_nil]
      rw [this, List.filter_cons_of_neg (by simp [h3])]
      rfl
    · have := h.order
      rw [e1, List.pairwise_cons] at this
      exact this.2
    · intro a ha
      rcases List.mem_append.1 ha with ha | ha
      · exact h.kinds a ha
      · rw [List.mem_singleton.1 ha]; exact h3
    · intro x hx
      exact h.busReady x (by rw [h1]; exact List.mem_cons_of_mem _ hx)
  | write r rest mem data rows h1 h2 h3 h4 =>
    have hw := (isWrite_of_kind h3).1
    have e1 : c.line = r :: (rest ++ c.handed.toList ++ c.queue) := by simp [Ctrl.line, h1]
    obtain ⟨hs0, hs1, -, -⟩ := mem_write_inv h4
    have hb' : r.start.toNat + data.length ≤ c.valid.length := by
      have := hm.vlen; have := hm.size; omega
    rw [updateReady_release _ _ (pending_nodup c h)]
    generalize hv : pySliceSet c.valid r.start.toNat (List.replicate data.length true) = v'
    have hmono : ∀ a, c.valid.getD a false = true → v'.getD a false = true := by
      intro a ha
      rw [← hv]
      exact valid_mono _ _ _ hb' a ha
    have hvl : v'.length = c.valid.length := by
      rw [← hv, pySliceSet_length _ _ _ (by rw [List.length_replicate]; exact hb')]
    have hsub := release_sublist (ready v') c.pending
    have hperm := release_perm (ready v') c.pending
    generalize hu : release (ready v') c.pending = u at hsub hperm ⊢
    have hrel : u.1.filter Req.isWrite = [] := by
      rw [List.filter_eq_nil_iff]
      intro x hx
      rw [h.reads x (hsub.1.subset hx)]; simp
    have horder := h.order
    rw [e1, List.pairwise_cons] at horder
    refine ⟨h.1, ?_, ?_, ?_, ?_, ?_, ?_, ?_⟩
    · refine List.Perm.trans ?_ h.perm
      rw [e1]
      simp only [Ctrl.line, List.map_append, List.map_cons, List.map_nil]
      show (rest ++ c.handed.toList ++ (c.queue ++ u.1) ++ u.2 ++ (c.answers.map Answer.req ++ [r])).Perm _
      have p1 : (rest ++ c.handed.toList ++ (c.queue ++ u.1) ++ u.2 ++ (c.answers.map Answer.req ++ [r])).Perm
          (r :: (rest ++ c.handed.toList ++ (c.queue ++ u.1) ++ u.2 ++ c.answers.map Answer.req)) := by
        rw [← List.append_assoc]
        exact List.perm_append_singleton r _
      refine p1.trans ?_
      simp only [List.cons_append, List.append_assoc]
      refine List.Perm.cons r ?_
      refine List.Perm.append_left _ (List.Perm.append_left _ (List.Perm.append_left _ ?_))
      rw [← List.append_assoc]
      exact hperm.append_right _
    · intro x hx; exact h.reads x (hsub.2.subset hx)
    · have := h.writes
      rw [e1, List.filter_cons_of_pos hw] at this
      simp only [writesOf_append, writesOf_wrote, Ctrl.line, List.append_assoc]
      rw [this]
      simp [List.filter_append, hrel]
    · simp only [Ctrl.line]
      rw [← List.append_assoc, List.pairwise_append]
      refine ⟨horder.2, ?_, ?_⟩
      · rw [List.pairwise_iff_forall_sublist]
        intro a b hab _ hb
        have : b ∈ u.1 := hab.subset (by simp)
        rw [h.reads b (hsub.1.subset this)] at hb
        exact absurd hb (by simp)
      · intro x _ y hy _ hyw
        rw [h.reads y (hsub.1.subset hy)] at hyw
        exact absurd hyw (by simp)
    · intro p hp w hw' hww
      dsimp only at hp hw'
      rw [← List.append_assoc, List.mem_append] at hw'
      rcases hw' with hw' | hw'
      · exact h.wait p (hsub.2.subset hp) w hw' hww
      · rw [h.reads w (hsub.1.subset hw')] at hww
        exact absurd hww (by simp)
    · intro a ha
      rcases List.mem_append.1 ha with ha | ha
      · exact h.kinds a ha
      · rw [List.mem_singleton.1 ha]; exact hw
    · intro x hx hxw
      exact ready_mono c.valid v' x hvl hmono (h.busReady x (by rw [h1]; exact List.mem_cons_of_mem _ hx) hxw)

end Ramwich
