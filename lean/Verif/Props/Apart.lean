import Verif.Lemmas.ApartSys
import Verif.Props.Invariant

/-! # C94: programs that always come to their ends -/
namespace Ramwich

open Spec

theorem apart_congr {p : CoreParams} {tiles cores : Nat} {prog prog' : Nat → Nat → List CoreOp}
    {ops ops' : Nat → List TileOp} (hp : ∀ t < tiles, ops t = ops' t ∧ ∀ k < cores, prog t k = prog' t k) :
    apart p tiles cores prog ops ↔ apart p tiles cores prog' ops' := by
  have e : ∀ t < tiles, ((List.range cores).mapM fun k => p.trace [] (prog t k)) =
      (List.range cores).mapM fun k => p.trace [] (prog' t k) := fun t ht =>
    mapM_option_congr fun k hk => by rw [(hp t ht).2 k (List.mem_range.1 hk)]
  unfold apart
  constructor <;> intro h t ht
  · rw [← e t ht, ← (hp t ht).1]; exact h t ht
  · rw [e t ht, (hp t ht).1]; exact h t ht

section
variable {c c' : Config} {size : Nat} {valid : Nat → Nat} {moves : List DryMove}

/-- C94: if no write of a tile has words for two of its processes, then no read of an accepted program is ever skipped:
in no state of any run does a read wait whose words are all valid. -/
theorem C94_no_skipped_read (cfg : SysCfg) (i : SysInit) (h : checked cfg c c' size valid moves i)
    (hp : apart (coreParamsOf c' id id) cfg.net.tiles cfg.cores i.prog i.ops) (as : List SysAct) (s : Sys)
    (hs : i.start.run cfg as = some s) : ¬strandedRead cfg s := by
  rintro ⟨t, ht, r, hr, hy⟩
  have := apart_noReady h.lists.good
    (fun t ht => apart_traced h.simulable h.build h.unit id id h.cores h.check hp ht) hs t ht r hr
  rw [this] at hy
  cases hy

/-- C94: such a program always comes to its end: however a run has begun, it can be continued until nothing happens any
more, and whenever nothing happens any more, all programs have been executed to their ends. -/
theorem C94_finishes (cfg : SysCfg) (i : SysInit) (h : checked cfg c c' size valid moves i) (hl : latenciesOk cfg i)
    (hp : apart (coreParamsOf c' id id) cfg.net.tiles cfg.cores i.prog i.ops) (as : List SysAct) (s : Sys)
    (hs : i.start.run cfg as = some s) :
    (∃ bs s', s.run cfg bs = some s' ∧ atRest cfg s') ∧
    ∀ bs s', s.run cfg bs = some s' → atRest cfg s' → finished cfg s' := by
  obtain ⟨h1, h2⟩ := C85_ends cfg i h hl as s hs
  exact ⟨h1, fun bs s' hb hr => (h2 bs s' hb hr).resolve_right
    (C94_no_skipped_read cfg i h hp _ s' (run_append_some hs hb))⟩

/-- C94: in simulated time, such a program is over once the clock has passed the sum of the times of all operations. -/
theorem C94_done_in_time (cfg : SysCfg) (l : StageLat) (i : SysInit) (h : checked cfg c c' size valid moves i)
    (hl : latenciesOk cfg i) (hp : apart (coreParamsOf c' id id) cfg.net.tiles cfg.cores i.prog i.ops) (as : List FAct)
    (f : FSys) (hf : i.fstart.run cfg l as = some f) (hlate : programCycles cfg l i < f.ts.now) :
    f.ts.finished cfg i ∧ allReturned cfg f := by
  refine ((C85_simulation cfg l i h hl as f hf).2 hlate).resolve_right ?_
  obtain ⟨cs, hr⟩ := plain_run h.lists.good (clocked_reach h.lists hf)
  exact C94_no_skipped_read cfg i h hp cs _ hr

/-- C94: and its result is the solution of the equations of its programs (C87): they have a solution, and every simulation
has, once the clock has passed the sum of the times of all operations, executed all programs to their ends, with the words
of the solution in its DRAMs and the registers of the solution in its cores. -/
theorem C94_result (cfg : SysCfg) (l : StageLat) (weights : Nat → Nat → List (Nat × List (List ℚ))) (i : SysInit)
    (h : checked cfg c c' size valid moves i) (hc : composed cfg c c' weights i) (hl : latenciesOk cfg i)
    (hp : apart (coreParamsOf c' id id) cfg.net.tiles cfg.cores i.prog i.ops) :
    ∃ mem final, equations cfg c' weights i mem final ∧
      ∀ as f, i.fstart.run cfg l as = some f → programCycles cfg l i < f.ts.now →
        f.ts.finished cfg i ∧ allReturned cfg f ∧
        ∀ t < cfg.net.tiles,
          (∀ a < size, (f.ts.sys.tile t).ctrl.valid.getD a false = true → wordsOf (f.ts.sys.tile t).ctrl.mem a = mem t a) ∧
          ∀ k < cfg.cores, ∀ (start : Int) (len : Nat), 0 < len →
            (((f.ts.sys.tile t).core k).core.readFromRegister start len).1.map (fun v => v.map BitVec.toInt)
              = (coreParamsWith c' cfg.fl).read (final t k) start len := by
  have hcheck := h
  obtain ⟨bs, F, h1, h2, -, h4⟩ := h.run
  obtain ⟨final, he, -⟩ := C87_equations cfg.instant c c' weights i
    ⟨hc.simulable, hc.build, hc.unit, hc.lists, hc.cores, hc.matrices, hc.positive, hc.matched⟩ bs F h1 h2 h4
  have he : equations cfg c' weights i (fun t => wordsOf (F.tile t).ctrl.mem) final := he
  refine ⟨_, final, he, fun as f hf hlate => ?_⟩
  obtain ⟨g1, g2⟩ := C94_done_in_time cfg l i h hl hp as f hf hlate
  refine ⟨g1, g2, fun t ht => ?_⟩
  have hI := clocked_reach h.lists hf
  obtain ⟨cs, hr⟩ := plain_run h.lists.good hI
  obtain ⟨k1, k2⟩ := C93_invariant cfg c c' weights i hc _ final he cs _ hr t ht
  have hcr : f.ts.sys.crashed = none := C85_never_raises cfg i h hl cs (f.ts.plain i) hr
  have hrest := C81_no_new_deadlock cfg l i h.lists as f hf hcr
    ((C82_time_bound cfg l i h.lists as f hf).resolve_left (by omega))
  have hfin := (C94_finishes cfg i h hl hp cs _ hr).2 [] _ rfl hrest
  rw [h.words t ht] at k1
  exact ⟨k1, fun k hk start len hlen => k2 k hk ((hfin.2 t ht).2.2 k hk) start len hlen⟩

/-- C94: the condition of C85 is a special case: if at most one process of every tile reads its DRAM, no write has words for
two of them. -/
theorem C94_one_reader (cfg : SysCfg) (i : SysInit) (h : checked cfg c c' size valid moves i) (h1 : oneReader cfg i) :
    apart (coreParamsOf c' id id) cfg.net.tiles cfg.cores i.prog i.ops := by
  intro t ht
  obtain ⟨evs, he⟩ := accepted_traces h.check ht
  rw [he]
  obtain ⟨k1, k2⟩ := mapM_some _ _ he
  rw [List.length_range] at k1
  have hl : ∀ k es, evs[k]? = some es → ∀ b ∈ loadBlocks es, hasLoad (i.prog t k) ∧ k < cfg.cores := by
    intro k es hes b hb
    obtain ⟨k', j1, j2⟩ := k2 k es hes
    obtain ⟨rfl, hk⟩ := range_some j1
    obtain ⟨a, n, hr⟩ := loadBlocks_ne hb
    exact ⟨trace_hasLoad _ _ _ j2 a n hr, hk⟩
  show oneWaits evs (i.ops t)
  unfold oneWaits
  rw [List.pairwise_append]
  refine ⟨List.pairwise_iff_getElem.2 fun k j hk hj hkj w _ => ?_, List.pairwise_singleton .., fun rs hrs rs' hrs' w _ => ?_⟩
  · rintro ⟨⟨b, hb, -⟩, b', hb', -⟩
    rw [List.length_map] at hk hj
    rw [List.getElem_map] at hb hb'
    obtain ⟨g1, g2⟩ := hl k _ (List.getElem?_eq_getElem hk) b hb
    obtain ⟨g3, g4⟩ := hl j _ (List.getElem?_eq_getElem hj) b' hb'
    have := (h1 t ht).1 k g2 j g4 g1 g3
    omega
  · rintro ⟨⟨b, hb, -⟩, b', hb', -⟩
    rw [List.mem_singleton] at hrs'
    subst hrs'
    obtain ⟨es, hes, rfl⟩ := List.mem_map.1 hrs
    obtain ⟨k, hk⟩ := List.mem_iff_getElem?.1 hes
    obtain ⟨g1, g2⟩ := hl k es hk b hb
    exact (h1 t ht).2 (sendBlocks_ne hb') k g2 g1

/-- C94: the condition is not met by a program that C92 shows to hang. -/
theorem C94_not_hanging (cfg : SysCfg) (i : SysInit) (h : checked cfg c c' size valid moves i) {moves' : List WaitMove}
    (h' : hanging cfg c c' size valid moves' i) :
    ¬apart (coreParamsOf c' id id) cfg.net.tiles cfg.cores i.prog i.ops := by
  intro hp
  obtain ⟨cfg', as, s, hm, hs, -, -, -, hk⟩ := C92_hangs cfg i h'
  have hT : cfg'.net.tiles = cfg.net.tiles := hm.tiles
  have hC : cfg'.cores = cfg.cores := hm.cores
  refine C94_no_skipped_read (size := size) (valid := valid) (moves := moves) cfg' i ⟨h.simulable, h.build, h.unit, h.lists, ?_, ?_, ?_, ?_⟩ ?_ as s hs hk
  · rw [hT]; exact h.words
  · rw [hT]; exact h.there
  · rw [hT, hC]; exact h.cores
  · rw [hT, hC]; exact h.check
  · rw [hT, hC]; exact hp

end

section
variable {c c' : Config} {a : Nat} {js : List Json} {ps : List Placed} {act : Activation} {xs : List ℚ}
  {moves : List DryMove}

/-- C94: the same from the files. If no write of a tile has words for two of its processes, every simulation of the node
is over when the clock has passed the number of cycles that the file of operations has in all, and what is then in the DRAMs
and the registers is the solution of the equations of the operations, weights and activation in the files. -/
theorem C94_files (h : runnable c c' a js ps act xs moves) (hp : paired c' ps a)
    (hd : apart (coreParamsOf c' id id) c'.numTilesPerNode c'.numCoresPerTile (coreProgram ps a) (tileProgram ps a))
    (l : Libs) (w : NpzFile) (hw : shortIds l.uni w) (hr : ∀ x ∈ xs, inRange c'.dataConfig.activationFracBits x)
    (fl : FloatActs) (noise : Nat → Nat → Nat → Nat → Nat → Noise) :
    ∃ n mem final, (simulator l c' js w act).nodes[a]? = some n ∧
      solution (coreParamsWith c' fl) c'.numTilesPerNode c'.numCoresPerTile (coreProgram ps a) (tileProgram ps a)
        (fun t k => CoreState.loadAll {} (coreMatrices l.uni c' w a t k)) (fun t k i => errorsOf (noise t k i))
        (fun t i => a = 0 ∧ t = 0 ∧ i < xs.length) (fun _ i => fixedPoint c'.dataConfig.activationFracBits (xs.getD i 0))
        mem final ∧
      ∀ as f, (nodeInit c' n).fstart.run (c'.sysCfg fl noise) c'.stageLat as = some f → fileCycles c' ps a < f.ts.now →
        f.ts.finished (c'.sysCfg fl noise) (nodeInit c' n) ∧ allReturned (c'.sysCfg fl noise) f ∧
        ∀ t < c'.numTilesPerNode,
          (∀ i < c'.tileConfig.edramSize, (f.ts.sys.tile t).ctrl.valid.getD i false = true →
            wordsOf (f.ts.sys.tile t).ctrl.mem i = mem t i) ∧
          ∀ k < c'.numCoresPerTile, ∀ (start : Int) (len : Nat), 0 < len →
            (((f.ts.sys.tile t).core k).core.readFromRegister start len).1.map (fun v => v.map BitVec.toInt)
              = (coreParamsWith c' fl).read (final t k) start len := by
  obtain ⟨n, hn, hs, hch, hl, hprog⟩ := runnable_checked h l w fl noise
  obtain ⟨n1, hn1, h1⟩ := C88_equations h hp l w hw hr fl noise
  cases hn1.symm.trans hn
  obtain ⟨n2, hn2, -, -, h2⟩ := C93_files h hp l w hw hr fl noise
  cases hn2.symm.trans hn
  obtain ⟨bs, F, e1, e2, -, -⟩ := hch.run
  have hm := instant_same (c'.sysCfg fl noise)
  obtain ⟨final, hsol, -⟩ := h1 _ bs F ⟨hm.tiles.symm, hm.cores.symm, hm.fl.symm, hm.noise.symm⟩ (by rw [hs]; exact e1) e2
  have hd' : apart (coreParamsOf c' id id) (c'.sysCfg fl noise).net.tiles (c'.sysCfg fl noise).cores
      (nodeInit c' n).prog (nodeInit c' n).ops := (apart_congr hprog).2 hd
  refine ⟨n, _, final, hn, hsol, fun as f hf hlate => ?_⟩
  rw [fileCycles_eq c' fl noise (nodeInit c' n) ps a hprog] at hlate
  obtain ⟨g1, g2⟩ := C94_done_in_time _ _ _ hch hl hd' as f hf hlate
  have hI := clocked_reach hch.lists hf
  obtain ⟨cs, hrun⟩ := plain_run hch.lists.good hI
  refine ⟨g1, g2, fun t ht => ?_⟩
  have hcr : f.ts.sys.crashed = none := C85_never_raises _ _ hch hl cs (f.ts.plain _) hrun
  have hrest := C81_no_new_deadlock _ _ _ hch.lists as f hf hcr
    ((C82_time_bound _ _ _ hch.lists as f hf).resolve_left (by omega))
  have hfin := (C94_finishes _ _ hch hl hd' cs _ hrun).2 [] _ rfl hrest
  obtain ⟨k1, k2⟩ := h2 _ final hsol (c'.sysCfg fl noise) cs _ ⟨rfl, rfl, rfl, rfl⟩ (by rw [hs]; exact hrun) t ht
  exact ⟨k1, fun k hk start len hlen => k2 k hk ((hfin.2 t ht).2.2 k hk) start len hlen⟩

end

/-! Two tiles with two cores each: the first core of tile 0 copies two words, the second copies them on and the tile sends
them; on tile 1, the first core copies what arrives and the tile sends it back, and the second core copies other words. All
six processes read the DRAMs. -/

def relaySys : SysCfg := { slowSys with cores := 2 }

/-- Load two words at `a`, store them at `b`. -/
def copyProg (a b : Int) : List CoreOp := [.set 16 a 1, .load 20 16 2 1, .set 17 b 1, .store 17 20 2 1, .hlt]

def relayInit : SysInit :=
  { demoInit with
    prog := fun t k => if t = 0 then (if k = 0 then copyProg 0 2 else copyProg 2 4)
      else if k = 0 then copyProg 2 4 else copyProg 0 6
    ops := fun t => if t = 0 then [.send 4 1 2 1, .receive 6 1 2 1, .halt] else [.receive 2 0 2 1, .send 4 0 2 1, .halt] }

def relayMoves : List DryMove :=
  [.core 0 0, .core 0 0, .core 0 0, .core 0 1, .core 0 1, .core 0 1, .tile 0, .tile 1, .core 1 0, .core 1 0, .core 1 0,
    .core 1 1, .core 1 1, .core 1 1, .tile 1, .tile 0, .tile 0, .tile 1]

theorem relay_checked : checked relaySys demoCore demoCoreBuilt 8 (fun _ => 3) relayMoves relayInit where
  simulable := demoCore_simulable
  build := demoCore_build
  unit := by decide +kernel
  lists := fun _ => ⟨rfl, rfl⟩
  words _ _ := rfl
  there t _ a := triple_there t a
  cores _ _ _ _ := ⟨someActs, [], rfl⟩
  check := by decide +kernel

theorem relay_composed : composed relaySys demoCore demoCoreBuilt (fun _ _ => []) relayInit where
  simulable := demoCore_simulable
  build := demoCore_build
  unit := by decide +kernel
  lists := fun _ => ⟨rfl, rfl⟩
  cores _ _ _ _ := ⟨someActs, rfl⟩
  matrices _ _ _ _ _ hw := nomatch hw
  positive := by decide +kernel
  matched := by decide +kernel

theorem copyProg_lat (a b : Int) : ∀ op ∈ copyProg a b, match op with
    | .load _ _ _ vec => 0 ≤ vec
    | .store .. => True
    | op => ∃ d, relaySys.execLat op = .ok d ∧ 0 ≤ d := by
  have hset : ∃ d, demoCoreBuilt.executionLatency (.set 0 0 0) = .ok d ∧ 0 ≤ d := ⟨1, by decide +kernel, by decide⟩
  have hhlt : ∃ d, demoCoreBuilt.executionLatency .hlt = .ok d ∧ 0 ≤ d := ⟨1, by decide +kernel, by decide⟩
  intro op hop
  simp only [copyProg, List.mem_cons, List.not_mem_nil, or_false] at hop
  rcases hop with rfl | rfl | rfl | rfl | rfl
  · exact hset
  · show (0 : Int) ≤ 1
    decide
  · exact hset
  · trivial
  · exact hhlt

theorem relay_latenciesOk : latenciesOk relaySys relayInit := by
  refine ⟨by decide, by decide, ?_, ⟨1, rfl, by decide⟩, by decide⟩
  intro t ht k hk
  show ∀ op ∈ (if t = 0 then (if k = 0 then copyProg 0 2 else copyProg 2 4)
      else if k = 0 then copyProg 2 4 else copyProg 0 6 : List CoreOp), _
  split <;> split <;> exact copyProg_lat _ _

theorem relay_apart : apart (coreParamsOf demoCoreBuilt id id) 2 2 relayInit.prog relayInit.ops := by decide +kernel

example : ¬oneReader relaySys relayInit := fun h =>
  absurd ((h 0 (by decide)).1 0 (by decide) 1 (by decide) ⟨20, 16, 2, 1, by decide⟩ ⟨20, 16, 2, 1, by decide⟩) (by decide)

example := C94_no_skipped_read relaySys relayInit relay_checked relay_apart
example := C94_finishes relaySys relayInit relay_checked relay_latenciesOk relay_apart
example := C94_done_in_time relaySys ⟨3, 2⟩ relayInit relay_checked relay_latenciesOk relay_apart
example := C94_result relaySys ⟨3, 2⟩ (fun _ _ => []) relayInit relay_checked relay_composed relay_latenciesOk relay_apart
example := C94_one_reader slowSys demoInit demo_checked demoInit_oneReader
example := C94_not_hanging oneTileSys tripleInit triple_checked triple_hanging


/-! A file for the node of the MNIST example: the same with six copies in a row, from the activation in tile 0 through tile
1 and back. -/

def copyFrom (a b : Int) : List CoreOp := [.set 1537 a 1, .load 1540 1537 2 1, .set 1538 b 1, .store 1538 1540 2 1, .hlt]

def ringProg (t k : Nat) : List CoreOp :=
  if t < 2 ∧ k < 2 then (if k = 0 then copyFrom (2 * t) (2 * t + 2) else copyFrom (2 * t + 2) (2 * t + 4)) else [.hlt]

def ringOps (t : Nat) : List TileOp :=
  if t = 0 then [.send 4 1 2 1, .receive 6 1 2 1, .halt]
  else if t = 1 then [.receive 2 0 2 1, .send 6 0 2 1, .halt] else [.halt]

def ringFile : List Placed :=
  (List.range 5).flatMap fun t =>
    (ringOps t).map (.tile 0 t) ++ (List.range 8).flatMap fun k => (ringProg t k).map (.core 0 t k)

def ringMoves : List DryMove :=
  [.core 0 0, .core 0 0, .core 0 0, .core 0 1, .core 0 1, .core 0 1, .tile 0, .tile 1, .core 1 0, .core 1 0, .core 1 0,
    .core 1 1, .core 1 1, .core 1 1, .tile 1, .tile 0] ++
  ((List.range 5).flatMap fun t => ((List.range 8).filter fun k => t ≥ 2 || k ≥ 2).map fun k => .core t k) ++
  (List.range 5).map .tile

set_option maxRecDepth 10000 in
theorem ring_runnable {js : List Json} (hj : writes js ringFile) (x y : ℚ) :
    runnable mnistConfig mnistBuilt 0 js ringFile (.array [x, y]) [x, y] ringMoves where
  simulable := mnist_simulable
  build := mnist_build
  node := by decide +kernel
  tiles := by decide +kernel
  unit := by decide +kernel
  alu := by decide +kernel
  dac := by decide +kernel
  adc := by decide +kernel
  entries := hj
  targets := by decide +kernel
  lengths := by decide +kernel
  input := .inl rfl
  fits := by show 2 ≤ _; decide +kernel
  check := by
    show accepted _ _ _ _ (inputWords 2 0) _ _ _
    decide +kernel

theorem ring_paired : paired mnistBuilt ringFile 0 where
  positive := by decide +kernel
  matched := by decide +kernel

theorem ring_apart : apart (coreParamsOf mnistBuilt id id) mnistBuilt.numTilesPerNode mnistBuilt.numCoresPerTile
    (coreProgram ringFile 0) (tileProgram ringFile 0) := by decide +kernel

example := C94_files (ring_runnable (writes_fields true ringFile) (1 / 2) (-3)) ring_paired ring_apart someLibs .missing
  (fun _ h => nomatch h) (fun x hx => by
    rw [mnist_params.2.2.2.2.2]
    rcases List.mem_cons.1 hx with rfl | hx
    · unfold inRange; norm_num
    · rw [List.mem_singleton.1 hx]; unfold inRange; norm_num)

/-- The MNIST example does not meet the condition: several cores of tile 2 read what its tile process receives. -/
example : ¬apart (coreParamsOf mnistBuilt id id) 5 8 mnistProg mnistOps := by decide +kernel

end Ramwich
