import Verif.Lemmas.EndToEnd
import Verif.Props.StaticCheck
import Verif.Props.Counters

/-! # The nodes of a loaded simulator fulfil the hypotheses of C85 -/
namespace Ramwich

open Spec

theorem mapM_option_congr {α β : Type} {f g : α → Option β} {l : List α} (h : ∀ x ∈ l, f x = g x) :
    l.mapM f = l.mapM g := by
  induction l with
  | nil => rfl
  | cons x l ih =>
    rw [List.mapM_cons, List.mapM_cons, h x (by simp), ih fun y hy => h y (List.mem_cons_of_mem _ hy)]

variable {c c' : Config} {a : Nat} {js : List Json} {ps : List Placed} {act : Activation} {xs : List ℚ}
  {moves : List DryMove}

theorem runnable_face (h : runnable c c' a js ps act xs moves) (l : Libs) (w : NpzFile) (t : Nat)
    (ht : t < c'.numTilesPerNode) :
    (tileAt (simulator l c' js w act) a t).map face = some (tileProgram ps a t,
      (List.range c'.numCoresPerTile).map (coreProgram ps a t),
      if a = 0 ∧ t = 0 then
        List.replicate xs.length true ++ (List.replicate c'.tileConfig.edramSize false).drop xs.length
      else List.replicate c'.tileConfig.edramSize false) := by
  have hready := C50_loaded c' ⟨fun _ x => x, fun _ x => x⟩ l [.operations (.value (.arr js)), .weights w]
  have e : simulator l c' js w act = ((loaded l (Sim.new c') [.operations (.value (.arr js)), .weights w]).prepare l.oob
      (some act)).2 := rfl
  have h0 := (face_operations l c' h.entries h.targets 0 0 (by have := h.node; omega) h.tiles).2
  have h1 := (face_operations l c' h.entries h.targets a t h.node ht).2
  rw [← face_weights l _ w] at h0 h1
  have h00 : (tileAt (loaded l (Sim.new c') [.operations (.value (.arr js)), .weights w]) 0 0).isSome := by
    rw [← Option.isSome_map (f := face)]
    exact (congrArg Option.isSome h0).trans rfl
  have h2 := (face_activation l hready act xs h.input h.fits h00 a t).2
  rw [e, h2]
  change (tileAt (loaded l (Sim.new c') [.operations (.value (.arr js)), .weights w]) a t).map face = _ at h1
  generalize tileAt (loaded l (Sim.new c') [.operations (.value (.arr js)), .weights w]) a t = o at h1
  cases o with
  | none => cases h1
  | some x =>
    simp only [Option.map_some, Option.some.injEq] at h1 ⊢
    by_cases ha : a = 0 ∧ t = 0
    · rw [if_pos ha, if_pos ha, h1]
      have h3 : x.ctrl.valid = _ := congrArg (fun y => y.2.2) h1
      rw [h3]
    · rw [if_neg ha, if_neg ha, h1]

theorem runnable_checked (h : runnable c c' a js ps act xs moves) (l : Libs) (w : NpzFile) (fl : FloatActs)
    (noise : Nat → Nat → Nat → Nat → Nat → Noise) :
    ∃ n, (simulator l c' js w act).nodes[a]? = some n ∧ n.start c' = (nodeInit c' n).start ∧
      checked (c'.sysCfg fl noise) c c' c'.tileConfig.edramSize (inputWords xs.length a) moves (nodeInit c' n) ∧
      latenciesOk (c'.sysCfg fl noise) (nodeInit c' n) ∧
      (∀ t < c'.numTilesPerNode, (nodeInit c' n).ops t = tileProgram ps a t ∧
        ∀ k < c'.numCoresPerTile, (nodeInit c' n).prog t k = coreProgram ps a t k) := by
  obtain ⟨hc, hlen, hr⟩ := C50_loaded c' fl l [.operations (.value (.arr js)), .weights w, .activation (some act)]
  have hlt : a < (simulator l c' js w act).nodes.length := by
    show a < (loaded l (Sim.new c') _).nodes.length
    rw [hlen]; exact h.node
  obtain ⟨n, hn⟩ : ∃ n, (simulator l c' js w act).nodes[a]? = some n := ⟨_, List.getElem?_eq_getElem hlt⟩
  have hready : readyNode c' fl n := hr n (List.mem_of_getElem? hn)
  have htile : ∀ t < c'.numTilesPerNode, ∃ x, n.tiles[t]? = some x ∧ face x = (tileProgram ps a t,
      (List.range c'.numCoresPerTile).map (coreProgram ps a t),
      if a = 0 ∧ t = 0 then
        List.replicate xs.length true ++ (List.replicate c'.tileConfig.edramSize false).drop xs.length
      else List.replicate c'.tileConfig.edramSize false) := by
    intro t ht
    have := runnable_face h l w t ht
    unfold tileAt nodeAt at this
    rw [hn] at this
    simp only [Option.bind_some] at this
    cases hx : n.tiles[t]? with
    | none => rw [hx] at this; cases this
    | some x => rw [hx] at this; exact ⟨x, rfl, by simpa using this⟩
  have hprog : ∀ t < c'.numTilesPerNode, (nodeInit c' n).ops t = tileProgram ps a t ∧
        ∀ k < c'.numCoresPerTile, (nodeInit c' n).prog t k = coreProgram ps a t k := by
    intro t ht
    obtain ⟨x, hx, hf⟩ := htile t ht
    have h1 : x.operations = _ := congrArg Prod.fst hf
    have h2 : x.cores.map (·.operations) = _ := congrArg (fun y => y.2.1) hf
    refine ⟨?_, fun k hk => ?_⟩
    · show (n.tiles.getD t _).operations = _
      rw [List.getD_eq_getElem?_getD, hx]; exact h1
    · show ((n.tiles.getD t _).cores.getD k _).operations = _
      rw [List.getD_eq_getElem?_getD (l := n.tiles), hx, List.getD_eq_getElem?_getD]
      have h3 := congrArg (fun y => y[k]?) h2
      simp only [List.getElem?_map, List.getElem?_range hk, Option.map_some] at h3
      change (x.cores[k]?.getD _).operations = _
      cases ho : x.cores[k]? with
      | none => rw [ho] at h3; cases h3
      | some o => rw [ho] at h3; simpa using h3
  refine ⟨n, hn, start_eq hready, ⟨h.simulable, h.build, h.unit, ready_ok hready, ?_, ?_, ?_, ?_⟩, ⟨?_, ?_, ?_, ?_, ?_⟩,
    hprog⟩
  · intro t ht
    obtain ⟨x, hx, -⟩ := htile t ht
    show (n.tiles.getD t _).ctrl.mem.size = _
    rw [List.getD_eq_getElem?_getD, hx]
    exact (hready.size x (List.mem_of_getElem? hx)).1
  · intro t ht i
    obtain ⟨x, hx, hf⟩ := htile t ht
    have h2 : x.ctrl.valid = _ := congrArg (fun y => y.2.2) hf
    show ((n.tiles.getD t _).ctrl.valid).getD i false = _
    rw [List.getD_eq_getElem?_getD (l := n.tiles), hx]
    show x.ctrl.valid.getD i false = _
    rw [h2]
    unfold inputWords
    by_cases hz : a = 0 ∧ t = 0
    · rw [if_pos hz, if_pos hz, Nat.testBit_two_pow_sub_one, List.getD_eq_getElem?_getD]
      by_cases hi : i < xs.length
      · rw [List.getElem?_append_left (by simpa using hi)]
        simp [hi]
      · rw [List.getElem?_append_right (by simpa using hi)]
        simp only [List.drop_replicate, List.length_replicate, List.getElem?_replicate, decide_eq_false hi]
        split <;> rfl
    · rw [if_neg hz, if_neg hz, List.getD_eq_getElem?_getD, List.getElem?_replicate, Nat.zero_testBit]
      split <;> rfl
  · intro t ht k hk
    obtain ⟨x, hx, -⟩ := htile t ht
    have hx' := List.mem_of_getElem? hx
    have hl := hready.cores x hx'
    obtain ⟨o, ho⟩ : ∃ o, x.cores[k]? = some o := ⟨_, List.getElem?_eq_getElem (by rw [hl]; exact hk)⟩
    obtain ⟨ws, -, e⟩ := hready.weights x hx' o (List.mem_of_getElem? ho)
    refine ⟨fl, ws, ?_⟩
    show ((n.tiles.getD t _).cores.getD k _).core = _
    rw [List.getD_eq_getElem?_getD (l := n.tiles), hx]
    show (x.cores.getD k _).core = _
    rw [List.getD_eq_getElem?_getD, ho]
    exact e
  · have h1 := h.check
    have h2 : dryStart (coreParamsOf c' id id) c'.numTilesPerNode c'.numCoresPerTile (inputWords xs.length a)
        (nodeInit c' n).prog (nodeInit c' n).ops =
        dryStart (coreParamsOf c' id id) c'.numTilesPerNode c'.numCoresPerTile (inputWords xs.length a)
        (coreProgram ps a) (tileProgram ps a) := by
      unfold dryStart
      apply mapM_option_congr
      intro t ht
      obtain ⟨h3, h4⟩ := hprog t (List.mem_range.1 ht)
      rw [h3]
      congr 1
      apply mapM_option_congr
      intro k hk
      rw [h4 k (List.mem_range.1 hk)]
    unfold accepted at h1 ⊢
    show match (dryStart (coreParamsOf c' id id) c'.numTilesPerNode c'.numCoresPerTile (inputWords xs.length a)
        (nodeInit c' n).prog (nodeInit c' n).ops).bind _ with
      | some d => dryDone d
      | none => False
    rw [h2]
    exact h1
  · exact Int.natCast_nonneg _
  · exact Int.natCast_nonneg _
  · intro t ht k hk op hop
    rw [(hprog t ht).2 k hk] at hop
    obtain ⟨p, hp, he⟩ := List.mem_filterMap.1 hop
    have hlp := h.lengths p hp
    have hop' : ∃ n b j, p = .core n b j op := by
      cases p with
      | tile => cases he
      | core n b j o =>
        dsimp only at he
        split at he
        · cases he; exact ⟨n, b, j, rfl⟩
        · cases he
    obtain ⟨n', b, j, rfl⟩ := hop'
    obtain ⟨d, hd⟩ := Option.isSome_iff_exists.1 h.adc
    cases op with
    | load dest read width vec => exact hlp
    | store => trivial
    | set => exact ⟨_, rfl, Int.natCast_nonneg _⟩
    | copy => exact ⟨_, rfl, Int.natCast_nonneg _⟩
    | hlt => exact ⟨_, rfl, by decide⟩
    | mvm xb =>
      have e : c'.executionLatency (.mvm xb) = .ok ((d : Int) *
          (((c'.dataConfig.activationWidth + c'.mvmuConfig.dacResolution - 1 : Nat) : Int)
            / c'.mvmuConfig.dacResolution + 2)) := by
        unfold Config.executionLatency
        simp only [h.dac, if_false, hd]
      exact ⟨_, e, by positivity⟩
    | vfu op' dest r1 r2 vec =>
      have hv : 0 ≤ vec := hlp
      have ha := h.alu
      have e : c'.executionLatency (.vfu op' dest r1 r2 vec) =
          .ok (c'.coreConfig.aluLat * (vec + c'.coreConfig.numAluPerVfu - 1) / c'.coreConfig.numAluPerVfu) := by
        unfold Config.executionLatency
        simp only [ha, if_false]
      refine ⟨_, e, ?_⟩
      apply Int.ediv_nonneg
      · apply mul_nonneg (Int.natCast_nonneg _)
        omega
      · exact Int.natCast_nonneg _
  · exact ⟨_, rfl, Int.natCast_nonneg _⟩
  · show 1 ≤ c'.numNodes
    have := h.node
    omega

theorem fileCycles_eq (c : Config) (fl : FloatActs) (noise : Nat → Nat → Nat → Nat → Nat → Noise) (i : SysInit)
    (ps : List Placed) (a : Nat) (h : ∀ t < c.numTilesPerNode, i.ops t = tileProgram ps a t ∧
      ∀ k < c.numCoresPerTile, i.prog t k = coreProgram ps a t k) :
    fileCycles c ps a = programCycles (c.sysCfg fl noise) c.stageLat i := by
  unfold fileCycles programCycles
  refine congrArg List.sum (List.map_congr_left fun t ht => ?_)
  obtain ⟨h1, h2⟩ := h t (List.mem_range.1 ht)
  rw [h1]
  refine congrArg₂ (· + ·) rfl (congrArg List.sum (List.map_congr_left fun k hk => ?_))
  rw [h2 k (List.mem_range.1 hk)]
  rfl

end Ramwich
