import Verif.Lemmas.SysCounts
import Verif.Lemmas.SysAdding
import Verif.Spec.Counters

/-! # The counters of a node at the end of a run -/
namespace Ramwich

open Pipeline (upd)
open Spec

/-! ## DRAMs -/

def pairW (w : Int → ReqKind → Int) (rs : List (Int × ReqKind)) : Int := (rs.map fun r => w r.1 r.2).sum

theorem pairW_append (w : Int → ReqKind → Int) (a b : List (Int × ReqKind)) :
    pairW w (a ++ b) = pairW w a + pairW w b := by simp [pairW]

theorem pairW_core (w : Int → ReqKind → Int) (log : List CoreEv) :
    pairW w (coreRequests log) = (log.map (coreEvW w)).sum := by
  induction log with
  | nil => rfl
  | cons e log ih =>
    have h : coreRequests (e :: log) = coreRequests [e] ++ coreRequests log := by
      unfold coreRequests
      rw [← List.filterMap_append]
      rfl
    rw [h, pairW_append, ih, List.map_cons, List.sum_cons]
    congr 1
    rcases e with ⟨op, addr, data, after⟩
    cases op <;> simp [coreRequests, pairW, coreEvW]

theorem pairW_tile (w : Int → ReqKind → Int) (log : List TileEv) :
    pairW w (tileRequests log) = (log.map (tileEvW w)).sum := by
  induction log with
  | nil => rfl
  | cons e log ih =>
    have h : tileRequests (e :: log) = tileRequests [e] ++ tileRequests log := by
      unfold tileRequests
      rw [← List.filterMap_append]
      rfl
    rw [h, pairW_append, ih, List.map_cons, List.sum_cons]
    congr 1
    cases e <;> simp [tileRequests, pairW, tileEvW]

theorem pairW_range (w : Int → ReqKind → Int) (f : Nat → List (Int × ReqKind)) (n : Nat) :
    pairW w ((List.range n).flatMap f) = ∑ k ∈ Finset.range n, pairW w (f k) := by
  induction n with
  | zero => rfl
  | succ n ih => rw [List.range_succ, List.flatMap_append, pairW_append, ih, Finset.sum_range_succ]; simp

theorem count_pairW (rs : List (Int × ReqKind)) (a : Int × ReqKind) :
    ((rs.count a : Nat) : Int) = pairW (fun x k => if (x, k) = a then 1 else 0) rs := by
  induction rs with
  | nil => rfl
  | cons r rs ih =>
    rw [List.count_cons]
    unfold pairW at ih ⊢
    rw [List.map_cons, List.sum_cons, ← ih]
    by_cases h : r = a
    · simp [h]; omega
    · have : ¬(r.1, r.2) = a := h
      simp [h]

theorem perm_of_pairW {rs rs' : List (Int × ReqKind)} (h : ∀ w, pairW w rs = pairW w rs') : rs.Perm rs' := by
  rw [List.perm_iff_count]
  intro a
  have := h (fun x k => if (x, k) = a then 1 else 0)
  rw [← count_pairW, ← count_pairW] at this
  exact_mod_cast this

/-- Start and kind of a request. -/
def Req.what (r : Req) : Int × ReqKind := (r.start, r.kind)

theorem pairW_reqs (w : Int → ReqKind → Int) (rs : List Req) : pairW w (rs.map Req.what) = reqW w rs := by
  simp [pairW, reqW, Req.what, Function.comp_def]

theorem finished_requests {cfg : SysCfg} {i : SysInit} {as : List SysAct} {s : Sys}
    (hs : i.start.run cfg as = some s) (hf : finished cfg s) {t : Nat} (ht : t < cfg.net.tiles) :
    ((s.tile t).ctrl.submitted.map Req.what).Perm (requestsOf cfg.cores (s.tile t)) := by
  apply perm_of_pairW
  intro w
  obtain ⟨hp, -, hk⟩ := hf.2 t ht
  have hb := balance_run w as s hs t
  unfold Balance at hb
  rw [pairW_reqs, hb, hp]
  unfold requestsOf
  rw [pairW_append, pairW_tile, pairW_range]
  congr 1
  · refine Finset.sum_congr rfl fun k hkr => ?_
    rw [pairW_core]
    unfold coreW
    rcases hk k (Finset.mem_range.1 hkr) with h | ⟨h, -⟩ <;> rw [h] <;> simp [corePhaseW]
  · simp [tilePhaseW]

theorem total_pairW (f : ReqKind → Int) (rs : List (Int × ReqKind)) : totalReq f rs = pairW (fun _ k => f k) rs := rfl

theorem memStats_counts (s : MemoryStats) (rs : List Req) : memStats s rs = memoryCounts s (rs.map Req.what) := by
  unfold memStats memoryCounts
  simp only [total_pairW, pairW_reqs]
  rfl

theorem totalReq_perm (f : ReqKind → Int) {rs rs' : List (Int × ReqKind)} (h : rs.Perm rs') :
    totalReq f rs = totalReq f rs' := (h.map _).sum_eq

theorem memoryCounts_perm (s : MemoryStats) {rs rs' : List (Int × ReqKind)} (h : rs.Perm rs') :
    memoryCounts s rs = memoryCounts s rs' := by
  unfold memoryCounts
  simp only [totalReq_perm _ h]

theorem totalOf_split (rs : List Req) :
    totalOf Req.numBatches (rs.filter fun r => !r.isWrite) = totalReq rowsRead (rs.map Req.what) ∧
    totalOf Req.numBatches (rs.filter Req.isWrite) = totalReq rowsWritten (rs.map Req.what) ∧
    totalOf Req.numBatches rs = totalReq rowsRead (rs.map Req.what) + totalReq rowsWritten (rs.map Req.what) := by
  induction rs with
  | nil => exact ⟨rfl, rfl, rfl⟩
  | cons r rs ih =>
    unfold totalOf totalReq at ih ⊢
    cases hk : r.kind with
    | read b n =>
      simp [Req.isWrite, hk, Req.what, rowsRead, rowsWritten, Req.numBatches] at ih ⊢
      omega
    | write d n =>
      simp [Req.isWrite, hk, Req.what, rowsRead, rowsWritten, Req.numBatches] at ih ⊢
      omega

/-! ## Routers -/

/-- `packets_read` counts the rows read from the tiles of the node. -/
def ReadCount (c : NetConfig) (n : Net) : Prop :=
  ∀ d, (n.stats d).read = ∑ i ∈ Finset.range c.tiles, (n.readLog d i).length

theorem readLog_sum {n : Nat} {f : Nat → List (List I32)} {src : Nat} (h : src < n) (y : List I32) :
    ∑ i ∈ Finset.range n, (upd f src (f src ++ [y]) i).length = (∑ i ∈ Finset.range n, (f i).length) + 1 := by
  have := sum_upd n f List.length src (f src ++ [y]) h
  simp only [List.length_append, List.length_cons, List.length_nil] at this
  omega

theorem readCount_act {c : NetConfig} {n n' : Net} {a : NetAct} (hi : NetInv c n) (h : n.act c a = some n')
    (hr : ReadCount c n) : ReadCount c n' := by
  obtain ⟨-, -, h⟩ := net_act_cases h
  have frame : n'.readLog = n.readLog → (∀ d, (n'.stats d).read = (n.stats d).read) → ReadCount c n' := by
    intro h1 h2 d
    rw [h1, h2]
    exact hr d
  have hupd : ∀ (i : Nat) (r : RouterStats), r.read = (n.stats i).read → ∀ d, (upd n.stats i r d).read = (n.stats d).read := by
    intro i r hr d
    rw [upd_apply]
    split
    · rename_i hd; rw [hd]; exact hr
    · rfl
  cases a with
  | send i target data => obtain ⟨rfl, -⟩ := sendIf_send h; exact frame rfl fun _ => rfl
  | added i =>
    dsimp only at h
    unfold Net.added at h
    split at h
    · cases h
    · injection h with h; subst h; exact frame rfl (hupd i _ rfl)
  | thread i =>
    dsimp only at h
    unfold Net.thread at h
    dsimp only at h
    repeat' split at h
    all_goals first
      | (cases h; done)
      | (injection h with h; subst h; exact frame rfl fun _ => rfl)
      | (injection h with h; subst h; exact frame rfl (hupd _ _ rfl))
      | (injection h with h; subst h; refine frame rfl (hupd _ _ ?_); unfold RouterStats.addSent; split <;> rfl)
  | startRead i source =>
    dsimp only at h
    unfold Net.startRead at h
    repeat' split at h
    all_goals first
      | (injection h with h; subst h; exact frame rfl fun _ => rfl)
      | cases h
  | take i => obtain ⟨_, _, _, -, -, rfl⟩ := view_take h; exact frame rfl fun _ => rfl
  | readDone i =>
    obtain ⟨y, h⟩ := h
    obtain ⟨src, hsrc, rfl⟩ := view_readDone h
    have hlt : src < c.tiles := by
      by_contra hge
      have h1 := hi.stream src i
      rw [(hi.quiet src hge).2.2.2, hsrc] at h1
      simp [dataTo, takenFrom] at h1
    intro d
    by_cases hd : d = i
    · subst hd
      dsimp only
      rw [upd_same, upd_same, readLog_sum hlt, ← hr d]
    · dsimp only
      rw [upd_ne _ _ _ _ hd, upd_ne _ _ _ _ hd]
      exact hr d
  | halt i => obtain ⟨-, rfl⟩ := view_halt h; exact frame rfl fun _ => rfl
  | stopStep i => obtain ⟨-, -, st, -, rfl⟩ := view_stopStep h; exact frame rfl fun _ => rfl

theorem readCount_run {c : NetConfig} (as : List NetAct) (n : Net) (h : Net.run c {} as = some n) : ReadCount c n := by
  have := net_run_induction (c := c) (P := fun n => NetInv c n ∧ ReadCount c n) (fun s s' a hs ha =>
    ⟨netInv_act c s s' a hs.1 ha, readCount_act hs.1 ha hs.2⟩) as {} n
    ⟨netInv_init c, fun d => by simp⟩ h
  exact this.2

theorem rowsSent_length (log : List TileEv) : (rowsSent log).length = (allSent log).length := by
  induction log with
  | nil => rfl
  | cons e log ih => cases e <;> simp [rowsSent, allSent] at ih ⊢ <;> omega

/-- A node whose tiles have all executed a Halt. -/
theorem halted_router {cfg : SysCfg} {i : SysInit} (h0 : ∀ t, GoodStart (i.mem t) (i.valid t)) {as : List SysAct}
    {s : Sys} (hs : i.start.run cfg as = some s) (hf : finished cfg s)
    (hh : ∀ t < cfg.net.tiles, .halted ∈ (s.tile t).log) {t : Nat} (ht : t < cfg.net.tiles) :
    s.net.stats t = routerCounts cfg.net.tiles (fun t => (s.tile t).log) t := by
  have hinv := sysInv_run h0 as s hs
  obtain ⟨nas, hrun⟩ := hinv.net
  have hni := netInv_run cfg.net nas _ hrun
  have hsent : ∀ t < cfg.net.tiles, s.net.sender t = .idle ∧ s.net.queue t = [] := by
    intro t ht
    have hst : s.net.stopper t = .stopped := (tileEnd_run as s hs t).router (hh t ht)
    have h1 := netStop_run cfg.net nas _ hrun t
    rw [hst] at h1
    exact ⟨h1, hinv.queue t hst⟩
  have hrd : s.net.reader t = .idle := by
    have := (hinv.tile t).tile.reader
    rw [(hf.2 t ht).1] at this
    exact this
  have hlen : (s.net.sent t).length = (rowsSent (s.tile t).log).length := by
    have := congrArg List.length (sentInOrder_run as s hs t)
    rw [(hf.2 t ht).1] at this
    rw [rowsSent_length, this]
    simp [TilePhase.todoAll, Net.view]
  have hsc := hni.sentCount t
  rw [(hsent t ht).1, (hsent t ht).2] at hsc
  have hsplit := hni.split t
  have hcr := hni.created t
  have hadd := addExact_run as s hs hf.1 t
  rw [(hf.2 t ht).1] at hadd
  have hread : (s.net.stats t).read = ∑ j ∈ Finset.range cfg.net.tiles, (rowsFrom j (s.tile t).log).length := by
    rw [readCount_run nas _ hrun t]
    refine Finset.sum_congr rfl fun j _ => ?_
    rw [(hinv.tile t).tile.reads j]
    rfl
  have hrec : (s.net.stats t).received = ∑ j ∈ Finset.range cfg.net.tiles, (rowsTo t (s.tile j).log).length := by
    have h1 := hni.received t
    rw [hrd, Finset.sum_congr rfl (g := fun _ => 0) fun j hj => by rw [(hsent j (Finset.mem_range.1 hj)).1]; rfl,
      readCount_run nas _ hrun t] at h1
    simp only [Finset.sum_const_zero, Reader.uncounted, add_zero] at h1
    rw [h1, ← Finset.sum_add_distrib]
    refine Finset.sum_congr rfl fun j hj => ?_
    have hj := Finset.mem_range.1 hj
    have h2 := congrArg List.length (hni.stream j t)
    rw [hrd, (hsent j hj).1, (hsent j hj).2] at h2
    have h3 := (hinv.tile j).tile.sends t
    rw [(hf.2 j hj).1] at h3
    rw [h3]
    simp [takenFrom, Sender.held, dataTo, TilePhase.todo, Net.view] at h2 ⊢
    omega
  simp only [Sender.finishing, Sender.held, Option.toList_none, List.length_nil, add_zero] at hsc
  have hadd : s.net.adding t = 0 := hadd
  have hcreated : (s.net.stats t).created = (rowsSent (s.tile t).log).length := by omega
  have hsentn : (s.net.stats t).sent = (rowsSent (s.tile t).log).length := by omega
  have hintra : (s.net.stats t).sentIntra = (rowsSent (s.tile t).log).length := by omega
  have key : ∀ (r : RouterStats) (a b c d e f : Nat), r.created = a → r.sentInter = b → r.sentIntra = c → r.sent = d →
      r.received = e → r.read = f → r = ⟨a, b, c, d, e, f⟩ := by
    rintro ⟨⟩ a b c d e f rfl rfl rfl rfl rfl rfl
    rfl
  exact key _ _ _ _ _ _ _ hcreated hsplit.2 hintra hsentn hrec hread

end Ramwich
