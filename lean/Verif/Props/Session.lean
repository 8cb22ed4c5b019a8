import Verif.Lemmas.Session
import Verif.Props.Perceptron

/-! # C90: several runs with one simulator -/
namespace Ramwich

open Spec

variable {c c' : Config}

/-- C90: sessions never fail at a `reset`, and every run of a session, however many runs came before it, is a run of a new
simulator with the same operations, weights and activation. (Configurations with SRAM crossbars: see C50.) -/
theorem C90_session (hs : Simulable c) (hb : c.build = .ok c') (hp : 0 < c'.mvmuConfig.xbarSize * c'.numMvmusPerCore)
    (hr : c'.mvmuConfig.haveRramXbar = true) (hn : c'.mvmuConfig.haveSramXbar = false) (l : Libs) (js : List Json)
    (w : NpzFile) (hist : List SessionRun) (s : Sim) (h : session l (programmed l c' js w) hist s) :
    (∃ s', s.reset = (.ok (), s')) ∧
    ∀ e ∈ hist, ∀ i n, (simulator l c' js w e.1).nodes[i]? = some n → endsIn c' (e.2.1 i) n (e.2.2 i) := by
  obtain ⟨⟨s', h1, -⟩, -, h2⟩ := session_runs hs hb hp hr hn h
  exact ⟨⟨s', h1⟩, fun e he => (h2 e he).2⟩

/-- C90: conversely, runs of new simulators can be made one after the other with one simulator. -/
theorem C90_any_runs (hs : Simulable c) (hb : c.build = .ok c') (hp : 0 < c'.mvmuConfig.xbarSize * c'.numMvmusPerCore)
    (hr : c'.mvmuConfig.haveRramXbar = true) (hn : c'.mvmuConfig.haveSramXbar = false) (l : Libs) (js : List Json)
    (w : NpzFile) (hist : List SessionRun) (hne : hist ≠ [])
    (h : ∀ e ∈ hist, ((programmed l c' js w).prepare l.oob (some e.1)).1 = .ok () ∧
      ∀ i n, (simulator l c' js w e.1).nodes[i]? = some n → endsIn c' (e.2.1 i) n (e.2.2 i)) :
    ∃ s, session l (programmed l c' js w) hist s :=
  session_exists hs hb hp hr hn hist hne h

/-- A tile process that has executed a program with a Halt has executed the Halt. -/
theorem halted_mem (log : List TileEv) : ∀ (ops : List TileOp) (got : List (List I32)) (st : List (List I32)),
    tileRan (ops, got) log = some ([], st) → .halt ∈ ops → .halted ∈ log := by
  induction log with
  | nil => intro ops got st h hm; cases h; cases hm
  | cons e log ih =>
    intro ops got st h hm
    obtain ⟨⟨ops1, got1⟩, h1, h2⟩ := tileRan_cons h
    have keep : ∀ op rest, ops = op :: rest → op ≠ .halt → .halt ∈ rest := by
      intro op rest e1 e2
      rw [e1] at hm
      rcases List.mem_cons.1 hm with e3 | e3
      · exact absurd e3.symm e2
      · exact e3
    rcases tileNext_cases h1 with ⟨_, _, _, _, _, rest, e1, -, -, e2⟩ | ⟨_, _, w, _, x, rest, e1, -, -, e2⟩ |
      ⟨_, _, _, _, rest, e1, -, -, e2⟩ | ⟨rest, -, -, e1, -⟩
    · injection e2 with e2 e3; subst e2
      exact List.mem_cons_of_mem _ (ih _ _ _ h2 (keep _ _ e1 (by simp)))
    · split at e2 <;> injection e2 with e2 e3 <;> subst e2
      · exact List.mem_cons_of_mem _ (ih _ _ _ h2 hm)
      · exact List.mem_cons_of_mem _ (ih _ _ _ h2 (keep _ _ e1 (by simp)))
    · injection e2 with e2 e3; subst e2
      exact List.mem_cons_of_mem _ (ih _ _ _ h2 (keep _ _ e1 (by simp)))
    · rw [e1]; exact List.mem_cons_self ..

/-- A complete run of a node whose tile programs have a Halt. -/
theorem ends_of_finished {c : Config} {fl : FloatActs} {n : NodeObj} (hn : readyNode c fl n)
    (hh : ∀ t < c.numTilesPerNode, .halt ∈ (nodeInit c n).ops t) {cfg : SysCfg} (ht : cfg.net.tiles = c.numTilesPerNode)
    (hc : cfg.cores = c.numCoresPerTile) {as : List SysAct} {y : Sys} (hr : (n.start c).run cfg as = some y)
    (hf : finished cfg y) : endsIn c cfg n y := by
  refine ⟨by rw [ht, hn.count], hc, ⟨as, hr⟩, hf, fun t hlt => ?_⟩
  rw [start_eq hn] at hr
  have h0 := sysInit_ok hn
  have hinv := sysInv_run (fun t => ⟨(h0 t).1, (h0 t).2⟩) as y hr
  exact halted_mem _ _ _ _ (finished_tile hinv hf hlt).1 (hh t (by rw [← ht]; exact hlt))

theorem tileAt_afterRun {s : Sim} {nodes : List NodeObj} {y : Nat → Sys} {times : Nat → RunTimes}
    (h : s.nodes = nodes.mapIdx fun i n => n.afterRun (y i) (times i)) {a t : Nat} {n : NodeObj}
    (hn : nodes[a]? = some n) (ht : t < n.tiles.length) :
    ∃ x, tileAt s a t = some x ∧ x.ctrl = ((y a).tile t).ctrl := by
  unfold tileAt nodeAt
  rw [h, List.getElem?_mapIdx, hn]
  simp only [Option.map_some, Option.bind_some, NodeObj.afterRun, List.getElem?_mapIdx, List.getElem?_eq_getElem ht]
  exact ⟨_, rfl, rfl⟩

/-- C90: the outputs of all images of a batch: after the run for an image, words 0 to 9 of the DRAM of tile 1 are the
outputs of the perceptron for that image, whatever images came before. -/
theorem C90_mnist (js : List Json) (hj : writes js mnistFile) (l : Libs) (w : NpzFile) (hw : shortIds l.uni w)
    (hist : List SessionRun) (act : Activation) (cfg : Nat → SysCfg) (y : Nat → Sys) (s : Sim)
    (h : session l (programmed l mnistBuilt js w) (hist ++ [(act, cfg, y)]) s)
    (xs : List ℚ) (ha : act = .array xs ∨ act = .file 1 xs) (hx : xs.length = 784) (hr : ∀ x ∈ xs, inRange 8 x)
    (fl : FloatActs) (noise : Nat → Nat → Nat → Nat → Nat → Noise) (hm : sameMachine (mnistBuilt.sysCfg fl noise) (cfg 0)) :
    ∃ x, tileAt s 0 1 = some x ∧
      wordsAt (wordsOf x.ctrl.mem) 0 10 =
        (coreParamsWith mnistBuilt fl).perceptron (mnistMul (coreParamsWith mnistBuilt fl)
          (weightsIn l.uni mnistBuilt w 0) fun t k i => errorsOf (noise t k i)) (xs.map (fixedPoint 8)) := by
  have hrun := mnist_runnable hj ha hx
  obtain ⟨-, h1, h2⟩ := session_runs hrun.simulable hrun.build hrun.unit (by decide +kernel) (by decide +kernel) h
  obtain ⟨times, h3⟩ := h1 _ List.getLast?_concat
  have h4 := (h2 (act, cfg, y) (by simp)).2
  obtain ⟨n, hn, -, h5⟩ := C89_mnist js hj act xs ha hx hr l w hw fl noise
  obtain ⟨e1, -, ⟨as, e2⟩, e3, -⟩ := h4 0 n hn
  have h6 := h5 (cfg 0) as (y 0) hm e2 e3
  have hlt : 1 < n.tiles.length := by
    rw [← e1, hm.tiles]
    show 1 < mnistBuilt.numTilesPerNode
    decide +kernel
  obtain ⟨x, h7, h8⟩ := tileAt_afterRun h3 hn hlt
  exact ⟨x, h7, by rw [h8]; exact h6⟩

/-- C90: every batch of images can be processed with one simulator. -/
theorem C90_mnist_batch (js : List Json) (hj : writes js mnistFile) (l : Libs) (w : NpzFile) (fl : FloatActs)
    (noise : Nat → Nat → Nat → Nat → Nat → Nat → Noise) (images : List (List ℚ)) (hne : images ≠ [])
    (hx : ∀ xs ∈ images, xs.length = 784) :
    ∃ (hist : List SessionRun) (s : Sim), session l (programmed l mnistBuilt js w) hist s ∧
      hist.map (·.1) = images.map .array ∧
      ∀ (i : Nat) (e : SessionRun), hist[i]? = some e → sameMachine (mnistBuilt.sysCfg fl (noise i)) (e.2.1 0) := by
  have key : ∀ xs ∈ images, ∀ i, ∃ y : Sys, ∀ n, (simulator l mnistBuilt js w (.array xs)).nodes[0]? = some n →
      endsIn mnistBuilt (mnistBuilt.sysCfg fl (noise i)).instant n y := by
    intro xs hxs i
    have hrun := mnist_runnable hj (.inl rfl : Activation.array xs = _ ∨ _) (hx xs hxs)
    obtain ⟨n, hn, hs, hch, -, hp⟩ := runnable_checked hrun l w fl (noise i)
    obtain ⟨as, F, h1, h2, -, -⟩ := hch.run
    refine ⟨F, fun n' hn' => ?_⟩
    cases hn.symm.trans hn'
    rw [← hs] at h1
    refine ends_of_finished ((C50_loaded mnistBuilt fl l _).2.2 n (List.mem_of_getElem? hn)) (fun t ht => ?_) rfl rfl h1 h2
    have ht5 : t < 5 := ht
    rw [(hp t ht).1, mnist_programs.2 t ht5]
    revert t
    decide +kernel
  have hone : ∀ xs i n, (simulator l mnistBuilt js w (.array xs)).nodes[i]? = some n → i = 0 := by
    intro xs i n hn
    have h1 := (C50_loaded mnistBuilt fl l [.operations (.value (.arr js)), .weights w, .activation (some (.array xs))]).2.1
    have h2 := (List.getElem?_eq_some_iff.1 hn).1
    change i < (loaded l (Sim.new mnistBuilt) _).nodes.length at h2
    rw [h1] at h2
    have h3 : mnistBuilt.numNodes = 1 := by decide +kernel
    omega
  have : Nonempty Sys := ⟨(NodeObj.new mnistBuilt 0).start mnistBuilt⟩
  choose! y hy using key
  let hist : List SessionRun := images.mapIdx fun i xs =>
    (.array xs, fun _ => (mnistBuilt.sysCfg fl (noise i)).instant, fun _ => y xs i)
  have hrun0 := mnist_runnable hj (.inl rfl : Activation.array (List.replicate 784 0) = _ ∨ _) List.length_replicate
  obtain ⟨s, hs⟩ := C90_any_runs mnist_simulable mnist_build hrun0.unit (by decide +kernel) (by decide +kernel) l js w hist
    (by simpa [hist] using hne) (by
      intro e he
      obtain ⟨i, hi⟩ := List.mem_iff_getElem?.1 he
      simp only [hist, List.getElem?_mapIdx] at hi
      cases hxs : images[i]? with
      | none => rw [hxs] at hi; cases hi
      | some xs =>
        rw [hxs] at hi
        injection hi with hi
        subst hi
        have hm := List.mem_of_getElem? hxs
        refine ⟨(C86_loads (mnist_runnable hj (.inl rfl) (hx xs hm)) l w).2.1, fun j n hn => ?_⟩
        cases hone xs j n hn
        exact hy xs hm i n hn)
  refine ⟨hist, s, hs, ?_, fun i e he => ?_⟩
  · apply List.ext_getElem?
    intro i
    simp only [hist, List.getElem?_map, List.getElem?_mapIdx]
    cases images[i]? <;> rfl
  · simp only [hist, List.getElem?_mapIdx] at he
    cases hxs : images[i]? with
    | none => rw [hxs] at he; cases he
    | some xs =>
      rw [hxs] at he
      injection he with he
      subst he
      exact ⟨rfl, rfl, rfl, rfl⟩

/-- Two images. -/
theorem two_images : ∃ (hist : List SessionRun) (s : Sim), session someLibs (programmed someLibs mnistBuilt
    (mnistFile.map fun p => .obj (fieldsOf true p)) .missing) hist s ∧
      hist.map (·.1) = [List.replicate 784 (1 / 2), List.replicate 784 0].map .array ∧
      ∀ (i : Nat) (e : SessionRun), hist[i]? = some e →
        sameMachine (mnistBuilt.sysCfg someActs fun _ _ _ _ _ => ⟨fun _ _ _ => 0, fun _ _ _ => 0⟩) (e.2.1 0) :=
  C90_mnist_batch _ (writes_fields true mnistFile) someLibs .missing someActs
  (fun _ _ _ _ _ _ => ⟨fun _ _ _ => 0, fun _ _ _ => 0⟩) [List.replicate 784 (1 / 2), List.replicate 784 0]
  (List.cons_ne_nil _ _) (fun xs h => by rcases List.mem_pair.1 h with h | h <;> rw [h, List.length_replicate])

example : ∃ hist s, hist.length = 2 ∧ session someLibs (programmed someLibs mnistBuilt
    (mnistFile.map fun p => .obj (fieldsOf true p)) .missing) hist s ∧ ∃ s', s.reset = (.ok (), s') := by
  obtain ⟨hist, s, h1, h2, -⟩ := two_images
  refine ⟨hist, s, by
    have := congrArg List.length h2
    rw [List.length_map, List.length_map] at this
    exact this, h1, ?_⟩
  exact (C90_session mnist_simulable mnist_build (by decide +kernel) (by decide +kernel) (by decide +kernel) _ _ _ _ _ h1).1

example : ∃ hist act cfg y s, session someLibs (programmed someLibs mnistBuilt
    (mnistFile.map fun p => .obj (fieldsOf true p)) .missing) (hist ++ [(act, cfg, y)]) s ∧ hist ≠ [] ∧
    ∃ x, tileAt s 0 1 = some x ∧ wordsAt (wordsOf x.ctrl.mem) 0 10 =
        (coreParamsWith mnistBuilt someActs).perceptron (mnistMul (coreParamsWith mnistBuilt someActs)
          (weightsIn someLibs.uni mnistBuilt .missing 0) fun _ _ _ => errorsOf fun _ _ => ⟨fun _ _ _ => 0, fun _ _ _ => 0⟩)
          ((List.replicate 784 0).map (fixedPoint 8)) := by
  obtain ⟨hist, s, h1, h2, h3⟩ := two_images
  have hl := congrArg List.length h2
  rw [List.length_map, List.length_map] at hl
  obtain ⟨e, e', rfl⟩ := List.length_eq_two.1 hl
  · obtain ⟨act, cfg, y⟩ := e'
    have ha : act = .array (List.replicate 784 0) := by
      injection h2 with _ h2
      injection h2
    refine ⟨[e], act, cfg, y, s, h1, by simp, ?_⟩
    exact C90_mnist _ (writes_fields true mnistFile) someLibs .missing (fun _ h => nomatch h) [e] act cfg y s h1 _ (.inl ha)
      List.length_replicate (fun x hx => by rw [List.eq_of_mem_replicate hx]; unfold inRange; norm_num) someActs _
      (h3 1 _ rfl)

end Ramwich
