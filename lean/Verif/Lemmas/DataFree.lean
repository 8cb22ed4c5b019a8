import Verif.Lemmas.CoreBooks
import Verif.Lemmas.TileBlank
import Verif.Lemmas.NodeReport

/-! # Counters do not depend on the data -/
namespace Ramwich

open Spec

/-! ## Requests -/

/-- A request without data. -/
def blankKind : ReqKind → ReqKind
  | .read w v => .read w v
  | .write d n => .write (blank d) n

theorem blankKind_fields (k : ReqKind) : rowsRead (blankKind k) = rowsRead k ∧ rowsWritten (blankKind k) = rowsWritten k ∧
    wordsRead (blankKind k) = wordsRead k ∧ wordsWritten (blankKind k) = wordsWritten k := by
  cases k <;> simp [blankKind, rowsRead, rowsWritten, wordsRead, wordsWritten]

theorem totalReq_same {f : ReqKind → Int} (hf : ∀ k, f (blankKind k) = f k) {rs rs' : List (Int × ReqKind)}
    (h : rs'.map (fun r => blankKind r.2) = rs.map fun r => blankKind r.2) : totalReq f rs' = totalReq f rs := by
  have key : ∀ rs : List (Int × ReqKind), totalReq f rs = ((rs.map fun r => blankKind r.2).map f).sum := by
    intro rs
    unfold totalReq
    rw [List.map_map]
    congr 1
    exact List.map_congr_left fun r _ => (hf r.2).symm
  rw [key, key, h]

theorem coreRequests_blank (log : List CoreEv) : (coreRequests log).map (fun r => blankKind r.2) =
    (log.map coreEvBooks).filterMap fun p => match p.1 with
      | .load _ _ width vec => some (.read width vec)
      | .store _ _ _ vec => some (.write p.2.1 vec.toNat)
      | _ => none := by
  unfold coreRequests
  rw [List.map_filterMap, List.filterMap_map]
  congr 1
  funext e
  obtain ⟨op, addr, data, after⟩ := e
  cases op <;> rfl

theorem blank_flatten (rows : List (List I32)) : (rows.map blank).flatten = blank rows.flatten := by
  unfold blank
  rw [List.map_flatten]

theorem tileRequests_blank (log : List TileEv) : (tileRequests log).map (fun r => blankKind r.2) =
    (tileRequests (log.map blankEv)).map fun r => r.2 := by
  unfold tileRequests
  rw [List.map_filterMap, List.map_filterMap, List.filterMap_map]
  congr 1
  funext e
  cases e <;> simp [blankEv, blankKind, blank_flatten]

theorem rowsSent_blank (log : List TileEv) : rowsSent (log.map blankEv) = (rowsSent log).map blank := by
  unfold rowsSent
  rw [List.flatMap_map, List.map_flatMap]
  congr 1
  funext e
  cases e <;> simp only [blankEv, List.map_nil]

theorem halted_blank {log log' : List TileEv} (h : log'.map blankEv = log.map blankEv) (hm : .halted ∈ log) :
    .halted ∈ log' := by
  have h1 : TileEv.halted ∈ log'.map blankEv := by
    rw [h]
    exact List.mem_map.2 ⟨_, hm, rfl⟩
  obtain ⟨e, he, h2⟩ := List.mem_map.1 h1
  cases e <;> first | (cases h2; done) | exact he

/-! ## Runs -/

theorem finished_loadsFull {cfg : SysCfg} {i : SysInit} {F : Sys} (h0 : ∀ t, GoodStart (i.mem t) (i.valid t))
    (h : SysInv cfg i F) (t k : Nat) : loadsFull ((F.tile t).core k).log := by
  intro e he dest read w v hop
  obtain ⟨r, tm, h1, -, h2⟩ := ((h.tile t).cores k).loads e he dest read w v hop
  exact answer_read_length h0 h h1 h2

theorem core_books_eq {cfg cfg' : SysCfg} {i i' : SysInit} (hi : samePrograms i i') (h0 : ∀ t, GoodStart (i.mem t) (i.valid t))
    (h0' : ∀ t, GoodStart (i'.mem t) (i'.valid t)) {F F' : Sys}
    (hF : SysInv cfg i F) (hF' : SysInv cfg' i' F') (hf : finished cfg F) (hf' : finished cfg' F') {t k : Nat}
    (ht : t < cfg.net.tiles) (ht' : t < cfg'.net.tiles) (hk : k < cfg.cores) (hk' : k < cfg'.cores) :
    ((F'.tile t).core k).log.map coreEvBooks = ((F.tile t).core k).log.map coreEvBooks ∧
    ((F'.tile t).core k).core.books = ((F.tile t).core k).core.books := by
  have h1 := (finished_core hF hf ht hk).1
  have h1' := (finished_core hF' hf' ht' hk').1
  rw [hi.prog] at h1'
  exact coreRan_same _ (hi.core t k) (finished_loadsFull h0 hF t k) (finished_loadsFull h0' hF' t k) h1 h1'

theorem requests_same {cfg cfg' : SysCfg} {x x' : TileSt} (hc : cfg'.cores = cfg.cores)
    (hl : x'.log.map blankEv = x.log.map blankEv)
    (hk : ∀ k < cfg.cores, (x'.core k).log.map coreEvBooks = (x.core k).log.map coreEvBooks) :
    (requestsOf cfg'.cores x').map (fun r => blankKind r.2) = (requestsOf cfg.cores x).map fun r => blankKind r.2 := by
  unfold requestsOf
  rw [hc, List.map_append, List.map_append, tileRequests_blank, tileRequests_blank, hl, List.map_flatMap,
    List.map_flatMap]
  congr 1
  rw [List.flatMap_def, List.flatMap_def]
  congr 1
  refine List.map_congr_left fun k hk' => ?_
  rw [coreRequests_blank, coreRequests_blank, hk k (List.mem_range.1 hk')]

/-! ## Weights -/

theorem loadWeights_books {m m1 : Mvmu} {w : List (List ℚ)} (h : m.loadWeights w = .ok m1) : m1.books = m.books := by
  unfold Mvmu.loadWeights at h
  simp only [bind, Except.bind] at h
  split at h
  · cases h
  split at h
  · cases h
  split at h
  · cases h
  rename_i r hr
  split at h
  · cases h
  rename_i s hs
  injection h with h
  have e1 : r.mvmOperations = m.rram.mvmOperations := by
    unfold Mvmu.loadRram RRAMXbar.loadWeights at hr
    repeat' (split at hr)
    all_goals first | (cases hr; done) | (injection hr with hr; rw [← hr])
  have e2 : s.macOperations = m.sram.macOperations := by
    unfold Mvmu.loadSram SRAMCim.loadWeights at hs
    repeat' (split at hs)
    all_goals first | (cases hs; done) | (injection hs with hs; rw [← hs])
  rw [← h]
  simp only [Mvmu.books, e1, e2]

theorem core_loadWeights_books (c : Core) (i : Int) (w : List (List ℚ)) : (c.loadWeights i w).2.books = c.books := by
  unfold Core.loadWeights
  split
  · rfl
  rename_i m hm
  split
  · rfl
  rename_i m' hl
  unfold Core.getMvmu at hm
  split at hm
  · cases hm
  split at hm
  · rename_i m0 hg
    injection hm with hm
    subst hm
    simp only [Core.books, List.map_set, loadWeights_books hl]
    congr 1
    apply List.ext_getElem?
    intro j
    rw [List.getElem?_set]
    split
    · rename_i hj
      subst hj
      rw [List.getElem?_map, hg]
      split
      · rfl
      · rename_i hn
        have := (List.getElem?_eq_some_iff.1 hg).1
        simp at hn
        omega
    · rfl
  · cases hm

theorem after_books (fl : FloatActs) (ws : List CoreCall) (h : ∀ k ∈ ws, isLoad k = true) :
    ∀ c : Core, (c.after fl ws).books = c.books := by
  induction ws with
  | nil => intro c; rfl
  | cons k ws ih =>
    intro c
    have h1 := h k (by simp)
    cases k with
    | load i w =>
      show (Core.after (c.loadWeights i w).2 fl ws).books = _
      rw [ih (fun k hk => h k (by simp [hk])), core_loadWeights_books]
    | _ => cases h1

/-! ## Reports -/

theorem mvmu_getStats_books (p : Power) (m : Mvmu) : m.books.getStats p = m.getStats p := rfl

theorem core_getStats_books (p : Power) {o o' : CoreObj} (h1 : o'.core.books = o.core.books)
    (h2 : o'.operations = o.operations) (h3 : o'.activeCycles = o.activeCycles) : o'.getStats p = o.getStats p := by
  have e1 : o'.core.cache.stats = o.core.cache.stats := show o'.core.books.cache.stats = o.core.books.cache.stats by rw [h1]
  have e2 : o'.core.vfu = o.core.vfu := show o'.core.books.vfu = o.core.books.vfu by rw [h1]
  have e3 : o'.core.mvmus.map (Mvmu.getStats p) = o.core.mvmus.map (Mvmu.getStats p) := by
    have : o'.core.books.mvmus.map (Mvmu.getStats p) = o.core.books.mvmus.map (Mvmu.getStats p) := by rw [h1]
    simpa [Core.books, List.map_map, Function.comp_def, mvmu_getStats_books] using this
  unfold CoreObj.getStats cacheStats
  rw [h2, h3, e1, e2, e3]

end Ramwich
