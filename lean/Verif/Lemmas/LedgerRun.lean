import Verif.Lemmas.Ledger
import Verif.Lemmas.DataFree
import Verif.Lemmas.SysDet

/-! # The ledger of a core during a run -/
namespace Ramwich

open Spec
open Pipeline (upd)

theorem products_snoc (u : Nat) (ops : List CoreOp) (op : CoreOp) :
    products u (ops ++ [op]) = products u ops + products u [op] := by
  simp [products]

theorem coreLedger_snoc (c : Config) (ops : List CoreOp) (op : CoreOp) :
    coreLedger c (ops ++ [op]) = ledger c (ops.flatMap CoreOp.regReads ++ op.regReads)
      (ops.flatMap CoreOp.regWrites ++ op.regWrites) (vectors ops ++ vectors [op])
      fun u => products u ops + products u [op] := by
  unfold coreLedger
  rw [List.flatMap_append, List.flatMap_append, List.flatMap_singleton, List.flatMap_singleton]
  simp only [products_snoc]
  simp only [vectors, List.filterMap_append]

theorem coreLedger_new (c : Config) : (Core.new c).books = coreLedger c [] := by
  simp only [coreLedger, ledger, Core.books, Core.new, List.map_map]
  rw [Core.mk.injEq]
  refine ⟨rfl, ?_, ?_, ?_⟩
  · apply List.map_congr_left
    intro u _
    simp only [Function.comp, Mvmu.books, Mvmu.new, ledgerUnit, products, accesses, List.flatMap_nil, List.filter_nil, List.map_nil,
      List.sum_nil, Nat.zero_mul, InReg.new, OutReg.new, zeros_blank, RRAMXbar.new, SRAMCim.new]
    cases c.mvmuConfig.haveRramXbar <;> cases c.mvmuConfig.haveSramXbar <;> simp [accessCounts]
  · simp only [Memory.books, Memory.new, zeros_blank]
    simp [accessesFrom, accessCounts]
  · simp [vectorCounts, vectors, lanes]

/-- The layout of the crossbars. -/
def Config.evenColumns (c : Config) : Prop :=
  c.mvmuConfig.xbarSize = c.mvmuConfig.numAdcPerXbar * c.mvmuConfig.numColumnsPerAdc

theorem ledger_execute {c : Config} (hs : c.evenColumns) {ops : List CoreOp} {C C' : Core} (hC : C.books = coreLedger c ops)
    {fl : FloatActs} {noise : Nat → Nat → Noise} {op : CoreOp} (hop : op.usesDram = false)
    (h : C.execute fl noise op = (.ok (), C')) : C'.books = coreLedger c (ops ++ [op]) := by
  rw [coreLedger_snoc]
  cases op with
  | set dest imm vec =>
    simp only [Core.execute, Core.visitSet] at h
    split at h
    · cases h
    rename_i data hd
    unfold npFull32 at hd
    split at hd
    · cases hd
    split at hd
    · cases hd
    injection hd with hd
    have := ledger_write hC h
    rw [← hd, List.length_replicate] at this
    simpa [CoreOp.regReads, CoreOp.regWrites, vectors, products] using this
  | copy dest read vec =>
    simp only [Core.execute, Core.visitCopy] at h
    obtain ⟨v, C1, h1, h2⟩ := andThen_ok h
    obtain ⟨k1, k2⟩ := ledger_read hC h1
    have := ledger_write k2 h2
    rw [k1] at this
    simpa [CoreOp.regReads, CoreOp.regWrites, vectors, products] using this
  | vfu opc dest r1 r2 vec =>
    simp only [Core.execute, Core.visitVfu] at h
    obtain ⟨v, C1, h1, h2⟩ := andThen_ok h
    obtain ⟨k1, k2⟩ := ledger_read hC h1
    cases r2 with
    | none =>
      dsimp only at h2
      obtain ⟨y, C2, h3, h4⟩ := andThen_ok h2
      obtain ⟨k3, k4⟩ := ledger_vfu k2 (by simp) h3
      have := ledger_write k4 h4
      rw [k3, k1] at this
      simpa [CoreOp.regReads, CoreOp.regWrites, vectors, products] using this
    | some r =>
      dsimp only at h2
      obtain ⟨z, C2, h3, h4⟩ := andThen_ok h2
      obtain ⟨k3, k4⟩ := ledger_read k2 h3
      obtain ⟨y, C3, h5, h6⟩ := andThen_ok h4
      obtain ⟨k5, k6⟩ := ledger_vfu k4 (by intro y hy; cases hy; rw [k3, k1]) h5
      have := ledger_write k6 h6
      rw [k5, k1] at this
      simpa [CoreOp.regReads, CoreOp.regWrites, vectors, products] using this
  | mvm xs =>
    have := ledger_visitMvm hs xs hC h
    simpa [CoreOp.regReads, CoreOp.regWrites, vectors, products] using this
  | hlt =>
    injection h with _ h
    rw [← h, hC]
    simp [CoreOp.regReads, CoreOp.regWrites, vectors, products, coreLedger]
  | load dest read w v => cases hop
  | store dest read w v => cases hop

theorem ledger_loadAddress {c : Config} {ops : List CoreOp} {C C' : Core} (hC : C.books = coreLedger c ops) {read a : Int}
    (h : C.loadAddress read = (.ok a, C')) :
    C'.books = ledger c (ops.flatMap CoreOp.regReads ++ [(read, 1)]) (ops.flatMap CoreOp.regWrites) (vectors ops)
      fun u => products u ops := by
  obtain ⟨v, C1, h1, h2⟩ := andThen_ok h
  obtain ⟨k1, k2⟩ := ledger_read hC h1
  cases v with
  | nil => cases h2
  | cons x v =>
    injection h2 with _ h2
    rw [← h2]
    exact k2

theorem ledger_store {c : Config} {ops : List CoreOp} {C C' : Core} (hC : C.books = coreLedger c ops) {dest read w v a : Int}
    {d : List I32} (h : C.storeRequest dest read w v = (.ok (a, d), C')) :
    C'.books = coreLedger c (ops ++ [.store dest read w v]) ∧ (d.length : Int) = w * v ∧ 0 ≤ v := by
  obtain ⟨x, C1, h1, h2⟩ := andThen_ok h
  have k1 := ledger_loadAddress hC h1
  obtain ⟨y, C2, h3, h4⟩ := andThen_ok h2
  obtain ⟨k2, k3⟩ := ledger_read k1 h3
  split at h4
  · cases h4
  rename_i hn
  injection h4 with h5 h4
  injection h5 with h5
  injection h5 with _ h5
  have hw : 0 ≤ w * v := mul_nonneg (by omega) (by omega)
  refine ⟨?_, by rw [← h5]; omega, by omega⟩
  rw [← h4, coreLedger_snoc]
  simpa [CoreOp.regReads, CoreOp.regWrites, vectors, products] using k3

theorem ledger_loadFinish {c : Config} {ops : List CoreOp} {C C' : Core} {dest read w v : Int}
    (hC : C.books = ledger c (ops.flatMap CoreOp.regReads ++ [(read, 1)]) (ops.flatMap CoreOp.regWrites) (vectors ops)
      fun u => products u ops) {d : List I32} (hd : d.length = (w * v).toNat) (h : C.loadFinish dest d = (.ok (), C')) :
    C'.books = coreLedger c (ops ++ [.load dest read w v]) := by
  have := ledger_write hC h
  rw [hd] at this
  rw [coreLedger_snoc]
  simpa [CoreOp.regReads, CoreOp.regWrites, vectors, products] using this

/-- The counters of a core in the phases of its process. -/
def CoreBooked (c : Config) (x : CoreSt) : Prop :=
  match x.phase with
  | .loadWait _ _ _ read _ _ => x.core.books = ledger c ((x.log.map CoreEv.op).flatMap CoreOp.regReads ++ [(read, 1)])
      ((x.log.map CoreEv.op).flatMap CoreOp.regWrites) (vectors (x.log.map CoreEv.op)) fun u => products u (x.log.map CoreEv.op)
  | .loadGot dest data => ∃ l read w v, x.log.map CoreEv.op = l ++ [.load dest read w v] ∧ data.length = (w * v).toNat ∧
      x.core.books = ledger c (l.flatMap CoreOp.regReads ++ [(read, 1)]) (l.flatMap CoreOp.regWrites) (vectors l)
        fun u => products u l
  | _ => x.core.books = coreLedger c (x.log.map CoreEv.op)

theorem coreBooked_step {c : Config} (hs : c.evenColumns) {cfg : SysCfg} {t k : Nat} {x x' : TileSt} {v v' : NetView}
    (h : CoreBooked c (x.core k)) (hl : loadsFull (x'.core k).log) (st : TileStep cfg t x v x' v') : CoreBooked c (x'.core k) := by
  cases st with
  | run j op rest C hk hp hq hop he =>
    rw [setCore_core] at hl ⊢
    by_cases hj : k = j
    · subst hj
      rw [if_pos rfl]
      unfold CoreBooked at h
      rw [hp] at h
      dsimp only at h
      have := ledger_execute hs h hop he
      unfold CoreBooked
      by_cases ho : op = .hlt
      · subst ho
        simpa using this
      · simpa [ho] using this
    · rw [if_neg hj]; exact h
  | timed j hk hp =>
    rw [setCore_core]
    by_cases hj : k = j
    · subst hj
      rw [if_pos rfl]
      unfold CoreBooked at h ⊢
      rw [hp] at h
      exact h
    · rw [if_neg hj]; exact h
  | load j dest read width vec rest addr C c' hk hp hq he hc hn =>
    rw [setCore_core]
    by_cases hj : k = j
    · subst hj
      rw [if_pos rfl]
      unfold CoreBooked at h ⊢
      rw [hp] at h
      exact ledger_loadAddress h he
    · rw [if_neg hj]; exact h
  | loaded j id addr dest read width vec data hk hp ha =>
    rw [setCore_core] at hl ⊢
    by_cases hj : k = j
    · subst hj
      rw [if_pos rfl] at hl ⊢
      unfold CoreBooked at h ⊢
      rw [hp] at h
      exact ⟨_, read, width, vec, by simp, hl _ (List.mem_append_right _ (List.mem_singleton.2 rfl)) dest read width vec rfl, h⟩
    · rw [if_neg hj]; exact h
  | loadDone j dest data C hk hp he =>
    rw [setCore_core]
    by_cases hj : k = j
    · subst hj
      rw [if_pos rfl]
      unfold CoreBooked at h ⊢
      rw [hp] at h
      obtain ⟨l, read, w, v, h1, h2, h3⟩ := h
      dsimp only
      rw [h1]
      exact ledger_loadFinish h3 h2 he
    · rw [if_neg hj]; exact h
  | store j dest read width vec rest addr data C hk hp hq he =>
    rw [setCore_core]
    by_cases hj : k = j
    · subst hj
      rw [if_pos rfl]
      unfold CoreBooked at h ⊢
      rw [hp] at h
      simpa using (ledger_store h he).1
    · rw [if_neg hj]; exact h
  | stored j addr data rows c' hk hp hc hn =>
    rw [setCore_core]
    by_cases hj : k = j
    · subst hj
      rw [if_pos rfl]
      unfold CoreBooked at h ⊢
      rw [hp] at h
      exact h
    · rw [if_neg hj]; exact h
  | storeDone j id hk hp ha =>
    rw [setCore_core]
    by_cases hj : k = j
    · subst hj
      rw [if_pos rfl]
      unfold CoreBooked at h ⊢
      rw [hp] at h
      exact h
    · rw [if_neg hj]; exact h
  | halted j hk hp =>
    rw [setCore_core]
    by_cases hj : k = j
    · subst hj
      rw [if_pos rfl]
      unfold CoreBooked at h ⊢
      rw [hp] at h
      exact h
    · rw [if_neg hj]; exact h
  | _ => exact h

/-- The stores of the history have as many words as their operations say. -/
def storesFull (log : List CoreEv) : Prop :=
  ∀ e ∈ log, ∀ dest read w v, e.op = .store dest read w v → (e.data.length : Int) = w * v ∧ 0 ≤ v

theorem storesFull_step {c : Config} {cfg : SysCfg} {t k : Nat} {x x' : TileSt} {v v' : NetView} (hb : CoreBooked c (x.core k))
    (h : storesFull (x.core k).log) (st : TileStep cfg t x v x' v') : storesFull (x'.core k).log := by
  have other : ∀ (y : CoreSt) (op : CoreOp) (a : Int) (d : List I32) (C : Core), (∀ dest read w v, op ≠ .store dest read w v) →
      storesFull y.log → storesFull (y.log ++ [⟨op, a, d, C⟩]) := by
    intro y op a d C hn hy e he dest read w v hop
    rcases List.mem_append.1 he with he | he
    · exact hy e he dest read w v hop
    · rw [List.mem_singleton.1 he] at hop
      exact absurd hop (hn _ _ _ _)
  cases st with
  | run j op rest C hk hp hq hop he =>
    rw [setCore_core]
    split
    · rename_i hj
      subst hj
      exact other _ _ _ _ _ (by intro _ _ _ _ h; rw [h] at hop; cases hop) h
    · exact h
  | loaded j id addr dest read width vec data hk hp ha =>
    rw [setCore_core]
    split
    · rename_i hj
      subst hj
      exact other _ _ _ _ _ (by intro _ _ _ _ h; cases h) h
    · exact h
  | store j dest read width vec rest addr data C hk hp hq he =>
    rw [setCore_core]
    split
    · rename_i hj
      subst hj
      unfold CoreBooked at hb
      rw [hp] at hb
      intro e hm dest' read' w v hop
      rcases List.mem_append.1 hm with hm | hm
      · exact h e hm dest' read' w v hop
      · rw [List.mem_singleton.1 hm] at hop ⊢
        injection hop with h1 h2 h3 h4
        subst h3 h4
        exact (ledger_store hb he).2
    · exact h
  | timed j hk hp => rw [setCore_core]; split <;> (try subst_vars) <;> exact h
  | load j dest read width vec rest addr C c' hk hp hq he hc hn => rw [setCore_core]; split <;> (try subst_vars) <;> exact h
  | loadDone j dest data C hk hp he => rw [setCore_core]; split <;> (try subst_vars) <;> exact h
  | stored j addr data rows c' hk hp hc hn => rw [setCore_core]; split <;> (try subst_vars) <;> exact h
  | storeDone j id hk hp ha => rw [setCore_core]; split <;> (try subst_vars) <;> exact h
  | halted j hk hp => rw [setCore_core]; split <;> (try subst_vars) <;> exact h
  | _ => exact h

theorem coreBooked_run {c : Config} (hs : c.evenColumns) {cfg : SysCfg} {i : SysInit}
    (h0 : ∀ t, GoodStart (i.mem t) (i.valid t)) {t k : Nat} (hc : (i.core t k).books = (Core.new c).books) (as : List SysAct)
    (s : Sys) (h : i.start.run cfg as = some s) : CoreBooked c ((s.tile t).core k) ∧ storesFull ((s.tile t).core k).log := by
  refine (sys_run_induction (P := fun s => SysInv cfg i s ∧ CoreBooked c ((s.tile t).core k) ∧ storesFull ((s.tile t).core k).log) ?_ as _ s ?_ h).2
  · intro s s' hi st
    have hi' := sysInv_step h0 s s' hi.1 st
    refine ⟨hi', ?_⟩
    rcases st.tile t with ⟨h1, -⟩ | ⟨-, h1⟩
    · rw [h1]; exact hi.2
    · exact ⟨coreBooked_step hs hi.2.1 (finished_loadsFull h0 hi' t k) h1, storesFull_step hi.2.1 hi.2.2 h1⟩
  · refine ⟨sysInv_run h0 [] _ rfl, ?_, by intro e he; cases he⟩
    show (i.core t k).books = coreLedger c []
    rw [hc, coreLedger_new]

/-- What a core has executed when nothing is left. -/
theorem ran_ops {fl : FloatActs} {noise : Nat → Nat → Nat → Noise} (log : List CoreEv) :
    ∀ {n : Nat} {c cv : Core} {prog : List CoreOp}, coreRan fl noise n c prog log cv [] → log.map CoreEv.op = upToHlt prog := by
  induction log with
  | nil =>
    intro n c cv prog h
    obtain ⟨-, rfl⟩ := h
    rfl
  | cons e log ih =>
    intro n c cv prog h
    obtain ⟨rest, rfl, -, h3⟩ := h
    rw [List.map_cons, ih h3]
    by_cases ho : e.op = .hlt
    · rw [if_pos ho, ho]; rfl
    · rw [if_neg ho]
      rw [upToHlt, if_neg]
      intro hh
      apply ho
      cases hq : e.op <;> rw [hq] at hh <;> first | rfl | cases hh

theorem finished_ops {cfg : SysCfg} {i : SysInit} {F : Sys} (h : SysInv cfg i F) (hf : finished cfg F) {t k : Nat}
    (ht : t < cfg.net.tiles) (hk : k < cfg.cores) : ((F.tile t).core k).log.map CoreEv.op = upToHlt (i.prog t k) :=
  ran_ops _ (finished_core h hf ht hk).1

theorem finished_ledger {c : Config} (hs : c.evenColumns) {cfg : SysCfg} {i : SysInit}
    (h0 : ∀ t, GoodStart (i.mem t) (i.valid t)) {t k : Nat} (hc : (i.core t k).books = (Core.new c).books) (as : List SysAct)
    {F : Sys} (h : i.start.run cfg as = some F) (hf : finished cfg F) (ht : t < cfg.net.tiles) (hk : k < cfg.cores) :
    ((F.tile t).core k).core.books = coreLedger c (upToHlt (i.prog t k)) := by
  have h1 := (coreBooked_run hs h0 hc as F h).1
  rw [← finished_ops (sysInv_run h0 as F h) hf ht hk]
  unfold CoreBooked at h1
  rcases (hf.2 t ht).2.2 k hk with hp | ⟨hp, -⟩ <;> (rw [hp] at h1; exact h1)

end Ramwich
