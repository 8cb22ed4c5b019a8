import Verif.Spec.LeastTime
import Verif.Props.ClockedNode
import Verif.Props.ClockedRest
import Verif.Props.Ledger

/-! # Lemmas for C98 -/
namespace Ramwich

open Spec Pipeline

/-! ## Cores -/

theorem upToHlt_split (pre post : List CoreOp) (hpre : CoreOp.hlt ∉ pre) :
    upToHlt (pre ++ .hlt :: post) = pre ++ [.hlt] := by
  induction pre with
  | nil => simp [upToHlt, isHlt]
  | cons op pre ih =>
    rw [List.mem_cons, not_or] at hpre
    have : isHlt op = false := by
      cases op <;> first | rfl | exact absurd rfl hpre.1
    rw [List.cons_append, upToHlt, if_neg (by simp [this]), ih hpre.2, List.cons_append]

section
variable {cfg : SysCfg} {l : StageLat} {i : SysInit} {f : FSys} {t : Nat}

theorem core_least (h0 : i.ok) (h : FInv cfg l i f) (hc : f.ts.sys.crashed = none) (ht : t < cfg.net.tiles) {k d : Nat}
    (hk : k < cfg.cores) (hd : (f.ts.pipe t k).doneAt = some d) : coreLeast cfg l (i.prog t k) ≤ d := by
  obtain ⟨bs, hb⟩ := h.run
  obtain ⟨ps, hps⟩ := (C61_pipelines cfg l i h0 bs f.ts hb t k ht hk).1
  have hdone : (f.ts.pipe t k).st.done = true := by
    cases hx : (f.ts.pipe t k).st.done with
    | true => rfl
    | false => rw [run_doneAt ps hps (fun _ => rfl) hx] at hd; cases hd
  obtain ⟨pre, op, post, hp, hop, hpre, -⟩ :=
    C25_stops_at_hlt isHlt 3 (by omega) (i.prog t k) _ (run_reach ps Reach.init hps) hdone
  have hop' : op = .hlt := by cases op <;> first | rfl | cases hop
  subst hop'
  have hpre' : CoreOp.hlt ∉ pre := fun hm => by have := hpre _ hm; cases this
  obtain ⟨c, h1, h2, -⟩ := C62_cycles cfg l i h0 bs f.ts hb hc t k ht hk pre post hp hpre' hdone
  rw [hd] at h1
  injection h1 with h1
  subst h1
  unfold coreLeast
  rw [hp, upToHlt_split pre post hpre']
  exact h2

/-! ## Packets that are received -/

theorem readsFrom_full (src : Nat) (ops : List TileOp) : ∀ (ns : List Nat), ns.length ≤ ops.length →
    (∀ (j : Nat) (a s w v : Int), ops[j]? = some (.receive a s w v) → 0 ≤ s) →
    (∀ (j : Nat) (a s w v : Int) (n : Nat), ops[j]? = some (.receive a s w v) → ns[j]? = some n → n = v.toNat) →
    readsFrom src ops ns = (rowWidths (recvShapes src (ops.take ns.length))).length := by
  induction ops with
  | nil => intro ns h _ _; simp [readsFrom, rowWidths, recvShapes]
  | cons op ops ih =>
    intro ns h hs hn
    cases ns with
    | nil => simp [readsFrom, rowWidths, recvShapes]
    | cons n ns =>
      have hi := ih ns (by simpa using h) (fun j a s w v e => hs (j + 1) a s w v e)
        (fun j a s w v n e1 e2 => hn (j + 1) a s w v n e1 e2)
      unfold readsFrom at hi ⊢
      rw [List.zip_cons_cons, List.map_cons, List.sum_cons, hi, List.length_cons, List.take_succ_cons]
      cases op with
      | receive a s w v =>
        have h1 := hs 0 a s w v rfl
        have h2 := hn 0 a s w v n rfl rfl
        dsimp only
        by_cases he : s = (src : Int)
        · subst he
          simp [recvShapes, rowWidths, h2]
        · have : s.toNat ≠ src := by omega
          simp [recvShapes, he, this]
      | send a s w v => simp [recvShapes]
      | halt => simp [recvShapes]

theorem readLog_widths (h0 : i.ok) (h : FInv cfg l i f) (hfin : f.ts.finished cfg i) (hfit : transfersFit cfg.net.tiles i.ops)
    (ht : t < cfg.net.tiles) {src : Nat} (hs : src < cfg.net.tiles) {n : Nat} {row : List I32}
    (hr : (f.ts.sys.net.readLog t src)[n]? = some row) :
    (rowWidths (recvShapes src (i.ops t)))[n]? = some (row.length : Int) := by
  have hI := (h.both h0.good).2
  have hf := finished_plain hfin
  have h1 := (hI.tile t).tile.reads src
  rw [← hfit.rows src hs t ht, sends_widths h0.good hI hf hs t]
  rw [List.getElem?_map]
  have h2 : rowsFrom src ((f.ts.plain i).tile t).log <+: rowsTo t ((f.ts.plain i).tile src).log :=
    (List.prefix_append _ _).trans (rows_prefix hI src t)
  have h3 : (rowsFrom src ((f.ts.plain i).tile t).log)[n]? = some row := by
    rw [h1]
    exact hr
  rw [prefix_getElem? h2 h3]
  rfl

/-- All Recvs get rows of the right width. -/
theorem receives_full (h0 : i.ok) {acts : List FAct} (hrun : i.fstart.run cfg l acts = some f)
    (hfin : f.ts.finished cfg i) (hfit : transfersFit cfg.net.tiles i.ops) (ht : t < cfg.net.tiles) :
    ∀ (m s e : Nat) (addr source width vec : Int), (f.starts t)[m]? = some s → (f.ends t)[m]? = some e →
      (i.ops t)[m]? = some (.receive addr source width vec) → (s : Int) + cfg.edramLat * vec.toNat ≤ e := by
  have h := clocked_reach h0 hrun
  have hc : f.ts.sys.crashed = none := hfin.1
  obtain ⟨hs1, hs2, -⟩ := tile_starts_le h hc ht
  obtain ⟨ns, hlen, hall⟩ := C74_receive cfg l i h0 acts f hrun hc t ht
  have hsrc : ∀ (j : Nat) (a s w v : Int), (i.ops t)[j]? = some (.receive a s w v) → 0 ≤ s ∧ s < cfg.net.tiles :=
    fun j a s w v e => hfit.source t ht a s w v (List.mem_of_getElem? e)
  have key : ∀ (m e : Nat) (addr source width vec : Int), (f.ends t)[m]? = some e →
      (i.ops t)[m]? = some (.receive addr source width vec) → ns[m]? = some vec.toNat ∧
      ∃ (s e' : Nat), (f.starts t)[m]? = some s ∧ s ≤ e' ∧ (e' : Int) + cfg.edramLat * vec.toNat ≤ e := by
    intro m
    induction m using Nat.strong_induction_on with
    | _ m ih =>
      intro e addr source width vec he hop
      obtain ⟨s, n, e', rows, g1, g2, g3, g4, g5, g6⟩ := hall m e addr source width vec he hop
      have hm : m < (f.ends t).length := (List.getElem?_eq_some_iff.1 he).1
      have hse : s ≤ e' := by
        by_cases hn : n = 0
        · rw [g3.1 hn]
        · have hst := fun d => (h.times.stream t d)
          obtain ⟨a1, a2⟩ := g3.2.1 (by omega)
          -- every packet is read no earlier than it is asked for
          have hr : ∀ j x y : Nat, (f.clk.asked t source.toNat)[j]? = some x → (f.clk.read t source.toNat)[j]? = some y → x ≤ y := by
            intro j x y hx hy
            have h1 := prefix_getElem? (hst source.toNat).read hy
            rw [List.getElem?_zipWith] at h1
            simp only [svOf] at h1
            rw [hx] at h1
            revert h1
            cases (timesTo t (f.ts.sys.net.sent source.toNat) (f.clk.put source.toNat))[j]? with
            | none => intro h1; cases h1
            | some z => intro h1; injection h1 with h1; omega
          have chain : ∀ j, j < n → ∃ x, (f.clk.asked t source.toNat)[readsFrom source.toNat (i.ops t) (ns.take m) + j]? = some x ∧ s ≤ x := by
            intro j
            induction j with
            | zero => intro _; exact ⟨s, a1, le_refl _⟩
            | succ j ihj =>
              intro hj
              obtain ⟨x, k1, k2⟩ := ihj (by omega)
              obtain ⟨y, k3, k4⟩ := g3.2.2 j hj
              exact ⟨y, k4, k2.trans (hr _ _ _ k1 k3)⟩
          obtain ⟨x, k1, k2⟩ := chain (n - 1) (by omega)
          rw [show readsFrom source.toNat (i.ops t) (ns.take m) + n - 1 = readsFrom source.toNat (i.ops t) (ns.take m) + (n - 1) by omega] at a2
          exact k2.trans (hr _ _ _ k1 a2)
      rcases g6 with ⟨k1, k2, r, k3, k4, k5, k6, k7, k8⟩ | ⟨k1, ⟨good, bad, k2, k3, k4⟩, k5⟩
      · rw [k1] at g2
        exact ⟨g2, s, e', g1, hse, k8⟩
      · exfalso
        obtain ⟨hs0, hs1'⟩ := hsrc m addr source width vec hop
        obtain ⟨src, rfl⟩ : ∃ src : Nat, source = (src : Int) := ⟨source.toNat, by omega⟩
        rw [Int.toNat_natCast] at g4
        have hmo : m < (i.ops t).length := (List.getElem?_eq_some_iff.1 hop).1
        have hmn : m ≤ ns.length := by omega
        have hoff : readsFrom src (i.ops t) (ns.take m) = (rowWidths (recvShapes src ((i.ops t).take m))).length := by
          have := readsFrom_full src (i.ops t) (ns.take m) (by rw [List.length_take]; omega)
            (fun j a s w v e => (hsrc j a s w v e).1) (fun j a s w v n' e1 e2 => ?_)
          · rw [this, List.length_take, Nat.min_eq_left hmn]
          · have hj : j < m := by
              have := (List.getElem?_eq_some_iff.1 e2).1
              rw [List.length_take] at this
              omega
            rw [List.getElem?_take_of_lt hj] at e2
            have := (ih j hj _ a s w v (List.getElem?_eq_getElem (by omega)) e1).1
            rw [this] at e2
            injection e2 with e2
            exact e2.symm
        have hlen' : rows.length = good.length + 1 := by rw [k2]; simp
        have hbad : rows[good.length]? = some bad := by rw [k2]; simp
        rw [g4, List.getElem?_take_of_lt (by omega), List.getElem?_drop] at hbad
        have hw := readLog_widths h0 h hfin hfit ht (by omega : src < cfg.net.tiles) hbad
        have hsplit : i.ops t = (i.ops t).take m ++ TileOp.receive addr src width vec :: (i.ops t).drop (m + 1) := by
          have hge := (List.getElem?_eq_some_iff.1 hop).2
          conv_lhs => rw [← List.take_append_drop m (i.ops t), List.drop_eq_getElem_cons hmo, hge]
        have hrw : rowWidths (recvShapes src (i.ops t)) = rowWidths (recvShapes src ((i.ops t).take m)) ++
            (List.replicate vec.toNat width ++ rowWidths (recvShapes src ((i.ops t).drop (m + 1)))) := by
          conv_lhs => rw [hsplit]
          simp [recvShapes, rowWidths]
        rw [hrw, hoff, List.getElem?_append_right (by omega), Nat.add_sub_cancel_left,
          List.getElem?_append_left (by rw [List.length_replicate]; omega), List.getElem?_replicate,
          if_pos (by omega)] at hw
        injection hw with hw
        exact k4 hw.symm
  intro m s e addr source width vec hs he hop
  obtain ⟨-, s', e', k1, k2, k3⟩ := key m e addr source width vec he hop
  rw [hs] at k1
  injection k1 with k1
  omega

/-! ## Packets that are sent -/

/-- When the tile is stopped, all its packets have been delivered, one after the other. -/
theorem drained (h0 : i.ok) (h : FInv cfg l i f) (hst : f.ts.sys.net.stopper t = .stopped) :
    (f.clk.done t).length = (f.clk.queued t).length := by
  have hI := (h.both h0.good).2
  have hr := h.times.router t
  have h1 : f.ts.sys.net.queue t = [] := hI.queue t hst
  have h2 : f.ts.sys.net.sender t = .idle := by
    have := h.times.stop t
    rw [hst] at this
    exact this
  have h3 := hr.rest
  have h4 := hr.lenQ
  have h5 := hr.le
  simp only [rvOf, h1, h2, Sender.packet, Option.toList_none, List.append_nil] at h3 h4 h5
  have := congrArg List.length h3
  simp only [List.length_drop, List.length_nil] at this
  omega

theorem done_late (h : FInv cfg l i f) {p q d : Nat} (hq : (f.clk.queued t)[p]? = some q) (hd : (f.clk.done t)[p]? = some d) :
    q + cfg.net.lat ≤ d := by
  have hr := h.times.router t
  have hput := prefix_getElem? hr.done hd
  simp only [rvOf] at hput
  have hl := (List.getElem?_eq_some_iff.1 hd).1
  have hA := hr.lenA
  simp only [rvOf] at hA
  have ha : p < (f.clk.arrived t).length := by omega
  have h1 := hr.apart p _ d (List.getElem?_eq_getElem ha) hput
  have h2 := prefix_getElem? hr.arrived (List.getElem?_eq_getElem ha)
  simp only [rvOf, List.getElem?_map] at h2
  cases htk : (f.clk.taken t)[p]? with
  | none => rw [htk] at h2; cases h2
  | some u =>
    rw [htk] at h2
    injection h2 with h2
    have h3 := prefix_getElem? hr.taken htk
    simp only [rvOf, List.getElem?_zipWith] at h3
    rw [hq] at h3
    cases hz : (0 :: f.clk.done t)[p]? with
    | none => rw [hz] at h3; cases h3
    | some z =>
      rw [hz] at h3
      injection h3 with h3
      have e1 : (f.clk.arrived t)[p] ≤ d := h1
      have e2 : u + cfg.net.lat = (f.clk.arrived t)[p] := h2
      omega

theorem done_spaced (h : FInv cfg l i f) {p d : Nat} (hd : (f.clk.done t)[p]? = some d) : ∀ (n : Nat) (e : Nat),
    (f.clk.done t)[p + n]? = some e → d + n * cfg.net.lat ≤ e := by
  obtain ⟨as, hnet⟩ := h.net
  intro n
  induction n with
  | zero => intro e he; rw [Nat.add_zero, hd] at he; injection he with he; omega
  | succ n ih =>
    intro e he
    have hl := (List.getElem?_eq_some_iff.1 he).1
    have h1 := ih _ (List.getElem?_eq_getElem (by omega))
    have h2 := C70_spacing cfg.net cfg.dataMemLat as f.tnet hnet t (p + n) _ e (List.getElem?_eq_getElem (by
      show p + n < (f.clk.done t).length; omega)) he
    have h3 : ((f.tnet).clk.done t)[p + n]'(by show p + n < (f.clk.done t).length; omega) = (f.clk.done t)[p + n]'(by omega) := rfl
    rw [h3] at h2
    rw [Nat.succ_mul]
    omega

theorem packetsOf_cons_send (a tg w v : Int) (ops : List TileOp) : packetsOf (.send a tg w v :: ops) = v.toNat + packetsOf ops := by
  simp [packetsOf]

theorem packetsOf_split (ops : List TileOp) (m : Nat) : packetsOf ops = packetsOf (ops.take m) + packetsOf (ops.drop m) := by
  conv_lhs => rw [← List.take_append_drop m ops]
  simp [packetsOf]

/-- From the time at which an operation starts to the end of the program. -/
theorem rest_least (h0 : i.ok) {acts : List FAct} (hrun : i.fstart.run cfg l acts = some f)
    (hfin : f.ts.finished cfg i) (hfit : transfersFit cfg.net.tiles i.ops) (ht : t < cfg.net.tiles) (hhalt : .halt ∈ i.ops t)
    {c : Nat} (ha : f.active t = some c) (n : Nat) : ∀ (m u : Nat), m + n = (i.ops t).length → (0 :: f.ends t)[m]? = some u →
      u + tileLeast cfg ((i.ops t).drop m) ≤ c := by
  have h := clocked_reach h0 hrun
  have hc : f.ts.sys.crashed = none := hfin.1
  have hT := h.tile hc t ht
  obtain ⟨hlen, hlast⟩ := (C75_active cfg l i h0 acts f hrun hc t ht c).1 ha
  obtain ⟨-, hcov, hstop⟩ := C75_covers cfg l i h0 acts f hrun hc t ht c ha hhalt
  obtain ⟨hs1, hs2, -⟩ := tile_starts_le h hc ht
  have hdone := drained h0 h hstop
  have hq : (f.clk.queued t).length = packetsOf (i.ops t) := by
    have hp : (f.tv t).phase = .ready := (hfin.2 t ht).1
    have := hT.qlen (by rw [hp]; nofun) (by rw [hp]; nofun)
    have e : (f.tv t).ends = f.ends t := rfl
    rw [e, hlen, List.take_length] at this
    exact this
  induction n with
  | zero =>
    intro m u hm hu
    rw [List.drop_eq_nil_of_le (by omega), tileLeast]
    rw [hlast]
    cases m with
    | zero => injection hu with hu; omega
    | succ m =>
      rw [List.getElem?_cons_succ] at hu
      rw [List.getLast?_eq_getElem?, show (f.ends t).length - 1 = m by omega, hu]
      simp
  | succ n ih =>
    intro m u hm hu
    have hmo : m < (i.ops t).length := by omega
    have hme : m < (f.ends t).length := by omega
    have hms : m < (f.starts t).length := by omega
    have hstart : (f.starts t)[m]? = some u := by
      rw [List.getElem?_eq_getElem hms, ← hu]
      cases m with
      | zero =>
        have := hT.first _ (List.getElem?_eq_getElem hms)
        rw [this]; rfl
      | succ m =>
        rw [List.getElem?_cons_succ]
        exact (hT.chain m _ (List.getElem?_eq_getElem hms)).symm
    have hend : (f.ends t)[m]? = some (f.ends t)[m] := List.getElem?_eq_getElem hme
    have hih := ih (m + 1) (f.ends t)[m] (by omega) (by rw [List.getElem?_cons_succ]; exact hend)
    have hop : (i.ops t)[m]? = some (i.ops t)[m] := List.getElem?_eq_getElem hmo
    have hdrop : (i.ops t).drop m = (i.ops t)[m] :: (i.ops t).drop (m + 1) := List.drop_eq_getElem_cons hmo
    rw [hdrop]
    generalize (i.ops t)[m] = op at hop hdrop
    cases op with
    | halt =>
      rw [tileLeast]
      have := start_le_end h0.good h hc ht hstart hend
      omega
    | receive a s w v =>
      rw [tileLeast]
      have := receives_full h0 hrun hfin hfit ht m u _ a s w v hstart hend hop
      have h2 := start_le_end h0.good h hc ht hstart hend
      omega
    | send a tg w v =>
      rw [tileLeast]
      obtain ⟨s, r, tm, data, g1, g2, -, -, g4, -, g6, g7, g8⟩ := C74_send cfg l i h0 acts f hrun hc t ht m _ a tg w v hend hop
      rw [hstart] at g1
      injection g1 with g1
      subst g1
      have hnn := (answer_late h0.good h _ g2).1
      have hnb : r.numBatches = v := by simp only [Req.numBatches, g4]
      simp only [Answer.req, hnb] at hnn
      have hw : u + (cfg.edramLat * v).toNat ≤ tm := by omega
      have b1 : u + ((cfg.edramLat * v).toNat + (v.toNat * cfg.dataMemLat.toNat + tileLeast cfg ((i.ops t).drop (m + 1)))) ≤ c := by
        rw [g8] at hih
        omega
      by_cases hv : v ≤ 0
      · rw [if_pos hv, Nat.max_eq_right (Nat.zero_le _)]
        exact b1
      · rw [if_neg hv]
        have hv1 : 0 < v.toNat := by omega
        have hpk : packetsOf (i.ops t) = packetsOf ((i.ops t).take m) + (v.toNat + packetsOf ((i.ops t).drop (m + 1))) := by
          rw [packetsOf_split (i.ops t) m, hdrop, packetsOf_cons_send]
        have hq0 := g7 0 hv1
        rw [Nat.add_zero, Nat.zero_mul, Nat.add_zero] at hq0
        have hpl : packetsOf ((i.ops t).take m) < (f.clk.done t).length := by omega
        have b2 := done_late h hq0 (List.getElem?_eq_getElem hpl)
        obtain ⟨N, hN⟩ : ∃ N, v.toNat + packetsOf ((i.ops t).drop (m + 1)) = N + 1 :=
          ⟨v.toNat + packetsOf ((i.ops t).drop (m + 1)) - 1, by omega⟩
        rw [hN] at hpk ⊢
        have hNl : packetsOf ((i.ops t).take m) + N < (f.clk.done t).length := by omega
        have b3 := done_spaced h (List.getElem?_eq_getElem hpl) N _ (List.getElem?_eq_getElem hNl)
        rw [List.getLast?_eq_getElem?, show (f.clk.done t).length - 1 = packetsOf ((i.ops t).take m) + N by omega,
          List.getElem?_eq_getElem hNl, Option.getD_some] at hcov
        have b4 : u + ((cfg.edramLat * v).toNat + (N + 1) * cfg.net.lat) ≤ c := by
          rw [Nat.succ_mul]
          omega
        omega

end

end Ramwich
