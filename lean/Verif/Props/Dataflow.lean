import Verif.Lemmas.FlowTile
import Verif.Props.StaticCheck

/-! # C87: complete runs solve the equations of their programs -/
namespace Ramwich

open Spec

/-- C87: when all programs have been executed to their ends and no DRAM word has been given two values, the contents of
the DRAMs and the registers are a solution of the equations that the programs state: the result of a parallel run is
described without processes, requests, packets and time. -/
theorem C87_equations (cfg : SysCfg) (c c' : Config) (weights : Nat → Nat → List (Nat × List (List ℚ))) (i : SysInit)
    (h : composed cfg c c' weights i) (as : List SysAct) (s : Sys) (hs : i.start.run cfg as = some s)
    (hf : finished cfg s) (hv : singleAssignment cfg i s) :
    ∃ final, equations cfg c' weights i (fun t => wordsOf (s.tile t).ctrl.mem) final ∧
      ∀ t < cfg.net.tiles, ∀ k < cfg.cores, ∀ (start : Int) (len : Nat), 0 < len →
        (((s.tile t).core k).core.readFromRegister start len).1.map (fun v => v.map BitVec.toInt)
          = (coreParamsWith c' cfg.fl).read (final t k) start len := by
  have hi := sysInv_run h.lists.good as s hs
  have hone : ∀ t < cfg.net.tiles, oneValue (i.mem t) (i.valid t) (writesOf (s.tile t).ctrl.answers) := hv
  have hci := fun t => ctrlInv_of (h.lists.good t) (hi.tile t).ctrl
  -- cores
  have hcore : ∀ t < cfg.net.tiles, ∀ k < cfg.cores, ∃ fin stores,
      (coreParamsWith c' cfg.fl).flow (wordsOf (s.tile t).ctrl.mem) (fun n => errorsOf (cfg.noise t k n)) 0
        (CoreState.loadAll {} (weights t k)) (i.prog t k) = .ok (fin, stores) ∧
      (∀ x ∈ stores, x.2 = wordsAt (wordsOf (s.tile t).ctrl.mem) x.1 x.2.length) ∧
      ∀ (start : Int) (len : Nat), 0 < len →
        (((s.tile t).core k).core.readFromRegister start len).1.map (fun v => v.map BitVec.toInt)
          = (coreParamsWith c' cfg.fl).read fin start len := by
    intro t ht k hk
    obtain ⟨fl0, hc0⟩ := h.cores t ht k hk
    obtain ⟨hkc, hkr⟩ := core_loads c c' fl0 h.simulable h.build h.unit (weights t k) (h.matrices t ht k hk)
    rw [← hc0] at hkc hkr
    obtain ⟨hran, hstores⟩ := finished_core hi hf ht hk
    have hpar : (i.core t k).params cfg.fl = coreParamsWith c' cfg.fl := by
      show coreParamsOf (i.core t k).config _ _ = coreParamsOf c' _ _
      rw [hkc]
    have hloads := (tileHist_run h.lists.good as s hs t).cores k
    have hnot : ∀ d y, ((s.tile t).core k).phase ≠ .loadGot d y := by
      intro d y hd
      rcases (hf.2 t ht).2.2 k hk with h1 | ⟨h1, -⟩ <;> (rw [h1] at hd; cases hd)
    obtain ⟨fin, h1, h2, h3⟩ := flow_of_ran cfg.fl (electrical_of c c' h.simulable h.build) _ _
      (latencies_of c c' h.simulable h.build) (cfg.noise t k) (wordsOf (s.tile t).ctrl.mem) (i.core t k) (i.prog t k)
      ((s.tile t).core k).log [] (i.core t k) (i.prog t k) (CoreState.loadAll {} (weights t k)) ((s.tile t).core k).core
      hkc hkr ⟨rfl, rfl⟩ hran (h.positive t ht k hk) (by
        intro e he dest read w v hop
        obtain ⟨r, tm, g1, g2, g3⟩ := ((hi.tile t).cores k).loads e he dest read w v hop
        have := read_final (hci t) (hone t ht) g1
        rw [this, g2]
        simp only [Req.length, g3]
        rfl) (by
        intro l1 e l2 dest read w v hl hop cv rest c1 g1 g2
        exact hloads.done l1 e l2 dest read w v hl hop cv rest c1 g1 g2 (.inr hnot))
    rw [hpar] at h1
    refine ⟨fin, _, h1, ?_, ?_⟩
    · intro x hx
      unfold storesOf at hx
      rw [List.mem_filterMap] at hx
      obtain ⟨e, he, hx⟩ := hx
      split at hx
      · rename_i dest read w v hop
        injection hx with hx
        subst hx
        obtain ⟨r, tm, g1, g2, g3⟩ := hstores e he dest read w v hop
        have := write_final (hci t) (hone t ht) g1 g3
        rw [g2] at this
        dsimp only
        rw [List.length_map]
        exact this
      · cases hx
    · intro start len hl
      have := (core_read ((s.tile t).core k).core cfg.fl fin h3 start len hl).1
      rw [this]
      congr 1
      show coreParamsOf ((s.tile t).core k).core.config _ _ = coreParamsOf c' _ _
      rw [h2]
  -- sends
  have hsent : ∀ t < cfg.net.tiles, ∀ a tg w v rows, .sent a tg w v rows ∈ (s.tile t).log →
      (rows.length : Int) = v ∧ (∀ r ∈ rows, (r.length : Int) = w) ∧
      rowsAt (wordsOf (s.tile t).ctrl.mem) a w v = rows.map (List.map BitVec.toInt) := by
    intro t ht a tg w v rows hm
    obtain ⟨⟨g1, g2⟩, before, r, tm, after, g3, g4, g5⟩ := sent_length h.lists hi hm
    refine ⟨g1, g2, rowsAt_of_words (by omega) g2 ?_⟩
    have := read_final (hci t) (hone t ht) (r := r) (tm := tm) (d := rows.flatten) (by rw [g3]; simp)
    have hlen := congrArg List.length this
    rw [List.length_map, wordsAt_length] at hlen
    rw [g4, ← hlen] at this
    exact this
  have hsends := fun src (hsrc : src < cfg.net.tiles) dst =>
    sent_rows dst (s.tile src).log (i.ops src) [] (finished_tile hi hf hsrc).1 (hsent src hsrc)
  have : Nonempty CoreState := ⟨{}⟩
  choose! fin stores hfin using hcore
  refine ⟨fin, ⟨fun t ht k hk => ⟨_, (hfin t ht k hk).1, (hfin t ht k hk).2.1⟩, ?_, ?_⟩,
    fun t ht k hk => (hfin t ht k hk).2.2⟩
  · intro src hsrc dst hdst
    obtain ⟨g1, g2⟩ := hsends src hsrc dst
    have hpre : rowsFrom src (s.tile dst).log <+: rowsTo dst (s.tile src).log :=
      (List.prefix_append _ _).trans (rows_prefix hi src dst)
    obtain ⟨htr, hwr⟩ := finished_tile hi hf hdst
    have hrecv := received_rows (mem := wordsOf (s.tile dst).ctrl.mem) src (s.tile dst).log (i.ops dst) [] htr
      (gotShape_nil _) (by
        rw [headRows_nil, List.length_nil, List.drop_zero, ← h.matched src hsrc dst hdst, g2]
        exact hpre.map _) (by
        intro a sr w v rows hm hl hw
        obtain ⟨r, tm, k1, k2, k3⟩ := hwr a sr w v rows hm
        have := write_final (hci dst) (hone dst hdst) k1 k3
        rw [k2] at this
        exact rowsAt_of_words hl hw this)
    rw [headRows_nil, List.nil_append] at hrecv
    have hlen : (rowsFrom src (s.tile dst).log).length = (rowsTo dst (s.tile src).log).length := by
      have k1 := congrArg List.length hrecv
      have k2 := congrArg List.length g2
      rw [recvRows_length, List.length_map] at k1
      rw [List.length_map, h.matched src hsrc dst hdst] at k2
      omega
    rw [hrecv, g1, hpre.eq_of_length hlen]
  · intro t ht a ⟨ha, hval⟩
    show BitVec.toInt _ = BitVec.toInt _
    rw [given_final (hci t) (hone t ht) ha hval]

/-- C87: every complete run of a program that the check of C85 has accepted solves the equations of the program, whatever
the schedule and the latencies. -/
theorem C87_accepted (cfg : SysCfg) (c c' : Config) (size : Nat) (valid : Nat → Nat) (moves : List DryMove)
    (weights : Nat → Nat → List (Nat × List (List ℚ))) (i : SysInit) (hc : checked cfg c c' size valid moves i)
    (h : composed cfg c c' weights i) (as : List SysAct) (s : Sys) (hs : i.start.run cfg as = some s)
    (hf : finished cfg s) :
    ∃ final, equations cfg c' weights i (fun t => wordsOf (s.tile t).ctrl.mem) final ∧
      ∀ t < cfg.net.tiles, ∀ k < cfg.cores, ∀ (start : Int) (len : Nat), 0 < len →
        (((s.tile t).core k).core.readFromRegister start len).1.map (fun v => v.map BitVec.toInt)
          = (coreParamsWith c' cfg.fl).read (final t k) start len := by
  obtain ⟨bs, F, h1, h2, -, h4⟩ := hc.run
  have hF := sysInv_run h.lists.good bs F h1
  have hi := sysInv_run h.lists.good as s hs
  refine C87_equations cfg c c' weights i h as s hs hf fun t ht w hw a hcov => ?_
  have hsub := logsLe_writes (instant_same cfg) hi hF h2 h.lists.good
    (logsLe_run (instant_same cfg) h.lists.good as hs hF h2 h4) (t := t) ht
  obtain ⟨x, hx, hwx⟩ := hsub w hw
  have hcx := (sameWrite_covers hwx a).1 hcov
  rw [sameWrite_value hwx]
  refine ⟨(h4 t ht x hx a hcx).1, fun w' hw' hcov' => ?_⟩
  obtain ⟨y, hy, hwy⟩ := hsub w' hw'
  rw [sameWrite_value hwy]
  exact (h4 t ht x hx a hcx).2 y hy ((sameWrite_covers hwy a).1 hcov')

/-! The program of C42: its equations, with the values of its DRAMs. -/

theorem demo_composed : composed slowSys demoCore demoCoreBuilt (fun _ _ => []) demoInit where
  simulable := demoCore_simulable
  build := demoCore_build
  unit := by decide +kernel
  lists := demoInit_ok
  cores _ _ _ _ := ⟨someActs, rfl⟩
  matrices _ _ _ _ _ hw := nomatch hw
  positive := by decide +kernel
  matched := by decide +kernel

theorem fast_composed : composed demoSys demoCore demoCoreBuilt (fun _ _ => []) demoInit where
  simulable := demoCore_simulable
  build := demoCore_build
  unit := by decide +kernel
  lists := demoInit_ok
  cores _ _ _ _ := ⟨someActs, rfl⟩
  matrices _ _ _ _ _ hw := nomatch hw
  positive := by decide +kernel
  matched := by decide +kernel

example := C87_equations demoSys demoCore demoCoreBuilt (fun _ _ => []) demoInit fast_composed demoRun.1 demoRun.2
  demoRun_runs demoRun_finished demoRun_single
example := C87_accepted slowSys demoCore demoCoreBuilt 8 (fun _ => 3) demoMoves (fun _ _ => []) demoInit demo_checked
  demo_composed otherRun.1 otherRun.2 otherRun_runs otherRun_finished

/-- The equations alone determine what tile 1 has received: tile 0 stores 7, 7, 7, 9 and sends them. -/
example (mem : Nat → Nat → Int) (final : Nat → Nat → CoreState)
    (h : equations slowSys demoCoreBuilt (fun _ _ => []) demoInit mem final) : wordsAt (mem 1) 2 4 = [7, 7, 7, 9] := by
  obtain ⟨stores, h1, h2⟩ := h.core 0 (by decide) 0 (by decide)
  have h3 : ((coreParamsWith demoCoreBuilt slowSys.fl).flow (mem 0) (fun n => errorsOf (slowSys.noise 0 0 n)) 0
    (CoreState.loadAll {} []) (demoInit.prog 0 0)).map Prod.snd = .ok [(4, [7, 7, 7, 9])] := rfl
  rw [h1] at h3
  injection h3 with h3
  dsimp only at h3
  subst h3
  have h4 : [7, 7, 7, 9] = [mem 0 4, mem 0 5, mem 0 6, mem 0 7] := h2 _ (List.mem_cons_self ..)
  have h5 : [[mem 1 2, mem 1 3], [mem 1 4, mem 1 5]] = [[mem 0 4, mem 0 5], [mem 0 6, mem 0 7]] :=
    h.transfer 0 (by decide) 1 (by decide)
  show [mem 1 2, mem 1 3, mem 1 4, mem 1 5] = _
  simp_all

end Ramwich
