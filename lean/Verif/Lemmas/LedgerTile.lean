import Verif.Lemmas.LedgerRun
import Verif.Lemmas.FlowTile
import Verif.Lemmas.TileBlank
import Verif.Lemmas.SysCounts

/-! # The history of a tile process whose transfers fit, and its program -/
namespace Ramwich

open Spec

/-- The operation that an event completes. -/
def TileEv.done : TileEv → Option TileOp
  | .sent a t w v _ => some (.send a t w v)
  | .received a s w v _ => some (.receive a s w v)
  | .halted => some .halt
  | .row .. => none

theorem all_done (tiles : Nat) (log : List TileEv) : ∀ (ops : List TileOp) (got : List (List I32)),
    tileRan (ops, got) log = some ([], []) → gotShape ops got →
    (∀ a s w v : Int, .receive a s w v ∈ ops → 0 ≤ s ∧ s < tiles) →
    (∀ src < tiles, (rowsFrom src log).map (fun r => (r.length : Int)) <+:
      (rowWidths (recvShapes src ops)).drop (headRows src ops got).length) →
    log.filterMap TileEv.done = ops ∧
    ∀ src < tiles, (headRows src ops got).length + (rowsFrom src log).length = (rowWidths (recvShapes src ops)).length := by
  induction log with
  | nil =>
    intro ops got h _ _ _
    injection h with h
    injection h with h _
    subst h
    exact ⟨rfl, fun _ _ => rfl⟩
  | cons e log ih =>
    intro ops got h hg hsrc hp
    obtain ⟨st, h1, h2⟩ := tileRan_cons h
    rcases tileNext_cases h1 with ⟨a, t, w, v, rows, rest, rfl, rfl, rfl, rfl⟩ | ⟨a, s, w, v, x, rest, rfl, rfl, hlt, rfl⟩ |
      ⟨a, s, w, v, rest, rfl, rfl, hnv, rfl⟩ | ⟨rest, rfl, rfl, rfl, rfl⟩
    · obtain ⟨i1, i2⟩ := ih rest [] h2 (gotShape_nil _) (fun a s w v hm => hsrc a s w v (List.mem_cons_of_mem _ hm))
        (fun src hs => by rw [headRows_nil]; exact hp src hs)
      refine ⟨by rw [List.filterMap_cons]; simp only [TileEv.done]; rw [i1], fun src hs => ?_⟩
      have := i2 src hs
      rw [headRows_nil] at this
      exact this
    · obtain ⟨hs0, hs1⟩ := hsrc a s w v (List.mem_cons_self ..)
      obtain ⟨s', rfl⟩ : ∃ s' : Nat, s = s' := ⟨s.toNat, by omega⟩
      have hf : ∀ src, rowsFrom src (.row (s' : Int) x :: log) = (if s' = src then [x] else []) ++ rowsFrom src log := by
        intro src
        unfold rowsFrom; rw [List.flatMap_cons]; dsimp only
        by_cases hss : s' = src
        · rw [if_pos hss, if_pos (by omega)]
        · rw [if_neg hss, if_neg (by omega)]
      have hr : ∀ src, rowWidths (recvShapes src (.receive a s' w v :: rest))
          = (if s' = src then List.replicate v.toNat w else []) ++ rowWidths (recvShapes src rest) := by
        intro src
        unfold recvShapes rowWidths; rw [List.filterMap_cons]; dsimp only
        by_cases hss : s' = src
        · rw [if_pos hss, if_pos (by omega)]; rfl
        · rw [if_neg hss, if_neg (by omega)]; rfl
      have hgot : ∀ src g, headRows src (.receive a s' w v :: rest) g = if s' = src then g else [] := fun src g => by
        unfold headRows; dsimp only
        by_cases hss : s' = src
        · rw [if_pos hss, if_pos (by omega)]
        · rw [if_neg hss, if_neg (by omega)]
      have hmine := hp s' (by omega)
      rw [hgot, hf, hr, if_pos rfl, if_pos rfl, if_pos rfl,
        List.drop_append_of_le_length (by rw [List.length_replicate]; exact hg.1), List.drop_replicate,
        show v.toNat - got.length = (v.toNat - (got.length + 1)) + 1 by omega, List.replicate_succ, List.cons_append,
        List.nil_append, List.map_cons, List.cons_append, List.cons_prefix_cons] at hmine
      rw [if_pos hmine.1] at h2
      obtain ⟨i1, i2⟩ := ih (.receive a s' w v :: rest) (got ++ [x]) h2 ⟨by rw [List.length_append, List.length_singleton]; omega, by
          intro r hr
          rcases List.mem_append.1 hr with hr | hr
          · exact hg.2 r hr
          · rw [List.mem_singleton.1 hr]; exact hmine.1⟩ hsrc (by
        intro src hs
        by_cases hss : s' = src
        · subst hss
          rw [hgot, hr, if_pos rfl, if_pos rfl, List.drop_append_of_le_length (by
            rw [List.length_replicate, List.length_append, List.length_singleton]; omega), List.drop_replicate,
            List.length_append, List.length_singleton]
          exact hmine.2
        · have := hp src hs
          rw [hf, hgot, if_neg hss, if_neg hss] at this
          rw [hgot, if_neg hss]
          exact this)
      refine ⟨by rw [List.filterMap_cons]; simp only [TileEv.done]; exact i1, fun src hs => ?_⟩
      have := i2 src hs
      rw [hgot] at this
      rw [hgot, hf, ← this]
      by_cases hss : s' = src
      · rw [if_pos hss, if_pos hss, if_pos hss]; simp; omega
      · rw [if_neg hss, if_neg hss, if_neg hss]; simp
    · have hlen : got.length = v.toNat := by have := hg.1; omega
      obtain ⟨hs0, hs1⟩ := hsrc a s w v (List.mem_cons_self ..)
      obtain ⟨s', rfl⟩ : ∃ s' : Nat, s = s' := ⟨s.toNat, by omega⟩
      have hf : ∀ src, rowsFrom src (.received a (s' : Int) w v got :: log) = rowsFrom src log := fun _ => rfl
      have hr : ∀ src, rowWidths (recvShapes src (.receive a s' w v :: rest))
          = (if s' = src then List.replicate v.toNat w else []) ++ rowWidths (recvShapes src rest) := by
        intro src
        unfold recvShapes rowWidths; rw [List.filterMap_cons]; dsimp only
        by_cases hss : s' = src
        · rw [if_pos hss, if_pos (by omega)]; rfl
        · rw [if_neg hss, if_neg (by omega)]; rfl
      have hgot : ∀ src g, headRows src (.receive a s' w v :: rest) g = if s' = src then g else [] := fun src g => by
        unfold headRows; dsimp only
        by_cases hss : s' = src
        · rw [if_pos hss, if_pos (by omega)]
        · rw [if_neg hss, if_neg (by omega)]
      obtain ⟨i1, i2⟩ := ih rest [] h2 (gotShape_nil _) (fun a s w v hm => hsrc a s w v (List.mem_cons_of_mem _ hm)) (by
        intro src hs
        have := hp src hs
        rw [hf, hgot, hr] at this
        rw [headRows_nil]
        by_cases hss : s' = src
        · rw [if_pos hss, if_pos hss, List.drop_append_of_le_length (by rw [List.length_replicate]; omega), List.drop_replicate, hlen,
            Nat.sub_self] at this
          exact this
        · rw [if_neg hss, if_neg hss] at this
          exact this)
      refine ⟨by rw [List.filterMap_cons]; simp only [TileEv.done]; rw [i1], fun src hs => ?_⟩
      have := i2 src hs
      rw [headRows_nil] at this
      rw [hgot, hf, hr, List.length_append, ← this]
      by_cases hss : s' = src
      · rw [if_pos hss, if_pos hss, List.length_replicate, hlen]; simp
      · rw [if_neg hss, if_neg hss]; simp
    · obtain ⟨i1, i2⟩ := ih rest [] h2 (gotShape_nil _) (fun a s w v hm => hsrc a s w v (List.mem_cons_of_mem _ hm))
        (fun src hs => by rw [headRows_nil]; exact hp src hs)
      refine ⟨by rw [List.filterMap_cons]; simp only [TileEv.done]; rw [i1], fun src hs => ?_⟩
      have := i2 src hs
      rw [headRows_nil] at this
      exact this

/-- The rows of the Sends have the shapes of the Sends. -/
theorem sent_shape {cfg : SysCfg} {i : SysInit} {F : Sys} (h0 : ∀ t, GoodStart (i.mem t) (i.valid t)) (h : SysInv cfg i F)
    {t : Nat} {a tg w v : Int} {rows : List (List I32)} (hm : .sent a tg w v rows ∈ (F.tile t).log) :
    (rows.length : Int) = v ∧ ∀ r ∈ rows, (r.length : Int) = w := by
  obtain ⟨h1, h2, r, tm, data, h3, -, h4, rfl⟩ := (h.tile t).tile.sent a tg w v rows hm
  exact reshape_shape h1 h2 (answer_read_length h0 h h3 h4)

theorem sends_widths {cfg : SysCfg} {i : SysInit} {F : Sys} (h0 : ∀ t, GoodStart (i.mem t) (i.valid t)) (h : SysInv cfg i F)
    (hf : finished cfg F) {t : Nat} (ht : t < cfg.net.tiles) (d : Nat) :
    rowWidths (sendShapes d (i.ops t)) = (rowsTo d (F.tile t).log).map fun r => (r.length : Int) := by
  have key : ∀ (log : List TileEv) (ops : List TileOp) (got : List (List I32)), tileRan (ops, got) log = some ([], []) →
      (∀ a t w v rows, .sent a t w v rows ∈ log → (rows.length : Int) = v ∧ ∀ r ∈ rows, (r.length : Int) = w) →
      rowWidths (sendShapes d ops) = (rowsTo d log).map fun r => (r.length : Int) := by
    intro log
    induction log with
    | nil =>
      intro ops got h _
      injection h with h
      injection h with h _
      subst h
      rfl
    | cons e log ih =>
      intro ops got h hm
      obtain ⟨st, h1, h2⟩ := tileRan_cons h
      have hm' := fun a t w v rows hx => hm a t w v rows (List.mem_cons_of_mem _ hx)
      rcases tileNext_cases h1 with ⟨a, t, w, v, rows, rest, rfl, rfl, rfl, rfl⟩ | ⟨a, s, w, v, x, rest, rfl, rfl, hlt, rfl⟩ |
        ⟨a, s, w, v, rest, rfl, rfl, hnv, rfl⟩ | ⟨rest, rfl, rfl, rfl, rfl⟩
      · have i2 := ih rest [] h2 hm'
        obtain ⟨g1, g2⟩ := hm a t w v rows (List.mem_cons_self ..)
        unfold sendShapes rowsTo at *
        rw [List.flatMap_cons, List.filterMap_cons]
        dsimp only
        by_cases ht : t = (d : Int)
        · rw [if_pos ht, if_pos ht, List.map_append]
          unfold rowWidths at *
          rw [List.flatMap_cons, i2]
          congr 1
          rw [show ((w, v) : Int × Int).2.toNat = rows.length by dsimp only; omega]
          symm
          rw [List.eq_replicate_iff]
          refine ⟨by simp, ?_⟩
          intro b hb
          obtain ⟨r, hr, rfl⟩ := List.mem_map.1 hb
          exact g2 r hr
        · rw [if_neg ht, if_neg ht]
          exact i2
      · have key : ∀ ops' got', tileRan (ops', got') log = some ([], []) → (ops' = .receive a s w v :: rest ∨ ops' = rest) →
            rowWidths (sendShapes d (.receive a s w v :: rest)) = (rowsTo d (.row s x :: log)).map fun r => (r.length : Int) := by
          intro ops' got' h3 h4
          have := ih ops' got' h3 hm'
          rcases h4 with rfl | rfl <;> exact this
        split at h2
        · exact key _ _ h2 (.inl rfl)
        · exact key _ _ h2 (.inr rfl)
      · exact ih rest [] h2 hm'
      · exact ih rest [] h2 hm'
  exact key _ _ _ (finished_tile h hf ht).1 (fun a t w v rows hm => sent_shape h0 h hm)

/-- In a finished run of programs whose transfers fit, every operation of a tile program has been completed. -/
theorem finished_done {cfg : SysCfg} {i : SysInit} {F : Sys} (h0 : ∀ t, GoodStart (i.mem t) (i.valid t)) (h : SysInv cfg i F)
    (hf : finished cfg F) (hfit : transfersFit cfg.net.tiles i.ops) {t : Nat} (ht : t < cfg.net.tiles) :
    (F.tile t).log.filterMap TileEv.done = i.ops t ∧
    ∀ src < cfg.net.tiles, (rowsFrom src (F.tile t).log).length = (rowWidths (recvShapes src (i.ops t))).length := by
  obtain ⟨k1, k2⟩ := all_done cfg.net.tiles _ _ _ (finished_tile h hf ht).1 (gotShape_nil _) (hfit.source t ht) (by
    intro src hs
    rw [headRows_nil, List.length_nil, List.drop_zero, ← hfit.rows src hs t ht, sends_widths h0 h hf hs]
    obtain ⟨r, hr⟩ := rows_prefix h src t
    rw [← hr, List.append_assoc, List.map_append]
    exact List.prefix_append _ _)
  refine ⟨k1, fun src hs => ?_⟩
  have := k2 src hs
  rw [headRows_nil, List.length_nil, Nat.zero_add] at this
  exact this

/-! ## Sums -/

theorem sum_done (f : TileEv → Int) (g : TileOp → Int) (log : List TileEv)
    (h : ∀ e ∈ log, f e = (e.done.map g).getD 0) : (log.map f).sum = ((log.filterMap TileEv.done).map g).sum := by
  induction log with
  | nil => rfl
  | cons e log ih =>
    rw [List.map_cons, List.sum_cons, ih (fun x hx => h x (by simp [hx])), h e (by simp), List.filterMap_cons]
    cases e.done with
    | none => simp
    | some op => simp

theorem sum_filterMap {α β : Type} (q : α → Option β) (f : β → Int) (l : List α) :
    ((l.filterMap q).map f).sum = (l.map fun a => ((q a).map f).getD 0).sum := by
  induction l with
  | nil => rfl
  | cons a l ih =>
    rw [List.filterMap_cons, List.map_cons, List.sum_cons, ← ih]
    cases q a with
    | none => simp
    | some b => simp

theorem sum_flatMap_int {α β : Type} (q : α → List β) (f : β → Int) (l : List α) :
    ((l.flatMap q).map f).sum = (l.map fun a => ((q a).map f).sum).sum := by
  induction l with
  | nil => rfl
  | cons a l ih => rw [List.flatMap_cons, List.map_append, List.sum_append, ih, List.map_cons, List.sum_cons]

theorem flatten_length_const {rows : List (List I32)} {w v : Int} (hl : (rows.length : Int) = v)
    (h : ∀ r ∈ rows, (r.length : Int) = w) : (rows.flatten.length : Int) = w * v := by
  subst hl
  induction rows with
  | nil => simp
  | cons r rows ih =>
    rw [List.flatten_cons, List.length_append, List.length_cons]
    push_cast
    rw [ih (fun x hx => h x (by simp [hx])), h r (by simp)]
    ring

section
variable {c : Config} {cfg : SysCfg} {i : SysInit} {F : Sys} {t : Nat}

theorem tile_totals (h0 : ∀ t, GoodStart (i.mem t) (i.valid t)) (h : SysInv cfg i F)
    (hf : finished cfg F) (hfit : transfersFit cfg.net.tiles i.ops) (ht : t < cfg.net.tiles) :
    totalReq rowsRead (tileRequests (F.tile t).log) = rowsOf (tileTraffic (i.ops t)).1 ∧
    totalReq wordsRead (tileRequests (F.tile t).log) = dramWords (tileTraffic (i.ops t)).1 ∧
    totalReq rowsWritten (tileRequests (F.tile t).log) = rowsOf (tileTraffic (i.ops t)).2 ∧
    totalReq wordsWritten (tileRequests (F.tile t).log) = dramWords (tileTraffic (i.ops t)).2 := by
  have hd := (finished_done h0 h hf hfit ht).1
  have hrec : ∀ a s w n rows, .received a s w n rows ∈ (F.tile t).log →
      (rows.length : Int) = n ∧ ∀ r ∈ rows, (r.length : Int) = w := fun a s w n rows hm => ((h.tile t).tile.received a s w n rows hm).1
  unfold totalReq tileRequests rowsOf dramWords tileTraffic
  simp only [sum_filterMap]
  rw [← hd]
  refine ⟨?_, ?_, ?_, ?_⟩ <;> rw [sum_done] <;> intro e he <;> cases e <;> try rfl
  · rename_i a s w v rows
    simp only [Option.map_some, Option.getD_some, TileEv.done, rowsWritten]
    have := (hrec a s w v rows he).1
    omega
  · rename_i a s w v rows
    simp only [Option.map_some, Option.getD_some, TileEv.done, wordsWritten]
    obtain ⟨k1, k2⟩ := hrec a s w v rows he
    exact flatten_length_const k1 k2

theorem core_totals {log : List CoreEv} {ops : List CoreOp} (hs : storesFull log) (ho : log.map CoreEv.op = ops) :
    totalReq rowsRead (coreRequests log) = rowsOf (coreTraffic ops).1 ∧
    totalReq wordsRead (coreRequests log) = dramWords (coreTraffic ops).1 ∧
    totalReq rowsWritten (coreRequests log) = rowsOf (coreTraffic ops).2 ∧
    totalReq wordsWritten (coreRequests log) = dramWords (coreTraffic ops).2 := by
  subst ho
  unfold totalReq coreRequests rowsOf dramWords coreTraffic
  simp only [sum_filterMap, List.map_map]
  refine ⟨?_, ?_, ?_, ?_⟩ <;> congr 1 <;> apply List.map_congr_left <;> intro e he <;>
    simp only [Function.comp] <;> cases hop : e.op <;> simp only [Option.map_some, Option.map_none, Option.getD_some,
      Option.getD_none, rowsRead, wordsRead, rowsWritten, wordsWritten]
  · rename_i dest read w v
    have := (hs e he dest read w v hop).2
    omega
  · rename_i dest read w v
    exact (hs e he dest read w v hop).1

theorem rowsOut_sent (h0 : ∀ t, GoodStart (i.mem t) (i.valid t)) (h : SysInv cfg i F)
    (hf : finished cfg F) (hfit : transfersFit cfg.net.tiles i.ops) (ht : t < cfg.net.tiles) :
    (rowsSent (F.tile t).log).length = rowsOut (i.ops t) := by
  have hd := (finished_done h0 h hf hfit ht).1
  have hsent : ∀ a tg w v rows, .sent a tg w v rows ∈ (F.tile t).log → rows.length = v.toNat := fun a tg w v rows hm => by
    have := (sent_shape h0 h hm).1; omega
  rw [← hd]
  generalize (F.tile t).log = log at hsent
  clear hd
  induction log with
  | nil => rfl
  | cons e log ih =>
    have ih := ih (fun a tg w v rows hm => hsent a tg w v rows (List.mem_cons_of_mem _ hm))
    unfold rowsSent rowsOut at *
    rw [List.flatMap_cons, List.length_append, ih, List.filterMap_cons]
    cases e with
    | sent a tg w v rows =>
      simp only [TileEv.done, List.map_cons, List.sum_cons]
      rw [hsent a tg w v rows (List.mem_cons_self ..)]
    | _ => simp [TileEv.done]

theorem rowsOutTo_sent (h0 : ∀ t, GoodStart (i.mem t) (i.valid t)) (h : SysInv cfg i F)
    (hf : finished cfg F) (hfit : transfersFit cfg.net.tiles i.ops) (ht : t < cfg.net.tiles) (d : Nat) :
    (rowsTo d (F.tile t).log).length = rowsOutTo d (i.ops t) := by
  have hd := (finished_done h0 h hf hfit ht).1
  have hsent : ∀ a tg w v rows, .sent a tg w v rows ∈ (F.tile t).log → rows.length = v.toNat := fun a tg w v rows hm => by
    have := (sent_shape h0 h hm).1; omega
  rw [← hd]
  generalize (F.tile t).log = log at hsent
  clear hd
  induction log with
  | nil => rfl
  | cons e log ih =>
    have ih := ih (fun a tg w v rows hm => hsent a tg w v rows (List.mem_cons_of_mem _ hm))
    unfold rowsTo rowsOutTo at *
    rw [List.flatMap_cons, List.length_append, ih, List.filterMap_cons]
    cases e with
    | sent a tg w v rows =>
      simp only [TileEv.done, List.map_cons, List.sum_cons]
      split
      · rw [hsent a tg w v rows (List.mem_cons_self ..)]
      · rfl
    | _ => simp [TileEv.done]

theorem rowsIn_sum (tiles : Nat) (ops : List TileOp) (h : ∀ a s w v : Int, .receive a s w v ∈ ops → 0 ≤ s ∧ s < tiles) :
    ∑ j ∈ Finset.range tiles, (rowWidths (recvShapes j ops)).length = rowsIn ops := by
  induction ops with
  | nil => simp [recvShapes, rowWidths, rowsIn]
  | cons op ops ih =>
    have ih := ih (fun a s w v hm => h a s w v (List.mem_cons_of_mem _ hm))
    cases op with
    | receive a s w v =>
      obtain ⟨h1, h2⟩ := h a s w v (List.mem_cons_self ..)
      obtain ⟨s', rfl⟩ : ∃ s' : Nat, s = s' := ⟨s.toNat, by omega⟩
      have hr : ∀ src, (rowWidths (recvShapes src (.receive a s' w v :: ops))).length
          = (if s' = src then v.toNat else 0) + (rowWidths (recvShapes src ops)).length := by
        intro src
        unfold recvShapes rowWidths; rw [List.filterMap_cons]; dsimp only
        by_cases hss : s' = src
        · rw [if_pos hss, if_pos (by omega)]; simp
        · rw [if_neg hss, if_neg (by omega)]; simp
      simp only [hr]
      rw [Finset.sum_add_distrib, ih, Finset.sum_ite_eq, if_pos (by rw [Finset.mem_range]; omega)]
      simp [rowsIn]
    | _ =>
      simp only [recvShapes, rowWidths, List.filterMap_cons, rowsIn, List.map_cons, List.sum_cons, Nat.zero_add] at *
      exact ih

theorem router_ledger (h0 : ∀ t, GoodStart (i.mem t) (i.valid t)) (h : SysInv cfg i F)
    (hf : finished cfg F) (hfit : transfersFit cfg.net.tiles i.ops) (ht : t < cfg.net.tiles) :
    routerCounts cfg.net.tiles (fun t => (F.tile t).log) t = routerLedger cfg.net.tiles i.ops t := by
  unfold routerCounts routerLedger
  dsimp only
  rw [rowsOut_sent h0 h hf hfit ht, ← rowsIn_sum cfg.net.tiles _ (hfit.source t ht)]
  congr 1
  · push_cast
    refine Finset.sum_congr rfl fun j hj => ?_
    rw [rowsOutTo_sent h0 h hf hfit (Finset.mem_range.1 hj)]
  · push_cast
    refine Finset.sum_congr rfl fun j hj => ?_
    rw [(finished_done h0 h hf hfit ht).2 j (Finset.mem_range.1 hj)]

theorem totalReq_append (f : ReqKind → Int) (a b : List (Int × ReqKind)) : totalReq f (a ++ b) = totalReq f a + totalReq f b := by
  simp [totalReq]

theorem totalReq_flatMap (f : ReqKind → Int) (q : Nat → List (Int × ReqKind)) (l : List Nat) :
    totalReq f (l.flatMap q) = (l.map fun k => totalReq f (q k)).sum := by
  unfold totalReq
  exact sum_flatMap_int q _ l

theorem requests_ledger (hs : c.evenColumns) (h0 : ∀ t, GoodStart (i.mem t) (i.valid t))
    (hc : ∀ k < cfg.cores, (i.core t k).books = (Core.new c).books) {as : List SysAct}
    (hr : i.start.run cfg as = some F) (hf : finished cfg F) (hfit : transfersFit cfg.net.tiles i.ops) (ht : t < cfg.net.tiles) :
    let rs := requestsOf cfg.cores (F.tile t)
    let tr := traffic ((List.range cfg.cores).map (i.prog t)) (i.ops t)
    totalReq rowsRead rs = rowsOf tr.1 ∧ totalReq wordsRead rs = dramWords tr.1 ∧
    totalReq rowsWritten rs = rowsOf tr.2 ∧ totalReq wordsWritten rs = dramWords tr.2 := by
  have h := sysInv_run h0 as F hr
  have hk : ∀ k ∈ List.range cfg.cores, _ := fun k hk =>
    core_totals (coreBooked_run hs h0 (hc k (List.mem_range.1 hk)) as F hr).2 (finished_ops h hf ht (List.mem_range.1 hk))
  obtain ⟨t1, t2, t3, t4⟩ := tile_totals h0 h hf hfit ht
  have sum_congr : ∀ {f g : Nat → Int}, (∀ k ∈ List.range cfg.cores, f k = g k) →
      ((List.range cfg.cores).map f).sum = ((List.range cfg.cores).map g).sum := fun h => by rw [List.map_congr_left h]
  dsimp only
  unfold requestsOf traffic
  simp only [totalReq_append, totalReq_flatMap, t1, t2, t3, t4]
  unfold rowsOf dramWords
  simp only [List.map_append, List.sum_append, List.flatMap_map, sum_flatMap_int]
  refine ⟨?_, ?_, ?_, ?_⟩ <;> congr 1 <;> apply sum_congr <;> intro k hk'
  · exact (hk k hk').1
  · exact (hk k hk').2.1
  · exact (hk k hk').2.2.1
  · exact (hk k hk').2.2.2

end

end Ramwich
