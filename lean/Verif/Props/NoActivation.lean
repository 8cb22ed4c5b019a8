import Verif.Props.SysRest
import Verif.Props.Simulation

/-! # C101: `run` without an activation -/
namespace Ramwich

open Spec

/-- Every word is valid and no read waits. -/
def AllThere (c : Ctrl) : Prop := (∀ b ∈ c.valid, b = true) ∧ c.pending = []

theorem ready_all {valid : List Bool} (h : ∀ b ∈ valid, b = true) (r : Req) : ready valid r = true := by
  unfold ready pySlice
  rw [List.all_eq_true]
  exact fun b hb => h b (List.mem_of_mem_drop (List.mem_of_mem_take hb))

theorem allThere_step {lat : Int} (c c' : Ctrl) (act : CtrlAct) (h : AllThere c) (st : CtrlStep lat c act c') : AllThere c' := by
  cases st with
  | toPending r h1 h2 h3 => rw [ready_all h.1] at h3; cases h3
  | write r rest mem data rows h1 h2 h3 h4 =>
    refine ⟨fun b hb => ?_, ?_⟩
    · dsimp only at hb
      unfold pySliceSet at hb
      rcases List.mem_append.1 hb with hb | hb
      · rcases List.mem_append.1 hb with hb | hb
        · exact h.1 b (List.mem_of_mem_take hb)
        · exact List.eq_of_mem_replicate hb
      · exact h.1 b (List.mem_of_mem_drop hb)
    · dsimp only
      rw [h.2]
      rfl
  | _ => exact h

/-- C101: on a tile all of whose words are valid at the start no read ever waits, and no word becomes invalid. -/
theorem C101_never_waits (cfg : SysCfg) (i : SysInit) (h0 : i.ok) (t : Nat) (hv : ∀ b ∈ i.valid t, b = true)
    (as : List SysAct) (s : Sys) (hs : i.start.run cfg as = some s) :
    (s.tile t).ctrl.pending = [] ∧ ∀ b ∈ (s.tile t).ctrl.valid, b = true := by
  obtain ⟨cs, h⟩ := ((sysInv_run h0.good as s hs).tile t).ctrl
  have := run_induction cfg.edramLat AllThere allThere_step cs _ _ ⟨hv, rfl⟩ h
  exact ⟨this.2, this.1⟩

/-- C101: `run()` is `run(np.zeros(edram_size))` (ramwich.py:184-185). -/
theorem C101_zeros (oob : ℚ → I32) (s : Sim) :
    s.prepare oob none = s.prepare oob (some (.array (List.replicate s.config.tileConfig.edramSize 0))) := rfl

section
variable (c : Config) (l : Libs) (calls : List LoadCall) (hn : 0 < c.numNodes) (ht : 0 < c.numTilesPerNode)
include hn ht

/-- The activation of `run()`. -/
abbrev Spec.zeros (c : Config) : Activation := .array (List.replicate c.tileConfig.edramSize 0)

theorem zeros_valid : ∀ b ∈ (startOf (fed l (loaded l (Sim.new c) calls) (zeros c)) 0).valid 0, b = true := by
  obtain ⟨hc, hlen, hr⟩ := C50_loaded c someActs l calls
  generalize hs : loaded l (Sim.new c) calls = s at hc hlen hr ⊢
  have h0 : 0 < s.nodes.length := by omega
  have hr0 := hr s.nodes[0] (List.getElem_mem h0)
  have h1 : 0 < s.nodes[0].tiles.length := by rw [hr0.count]; exact ht
  have hx : tileAt s 0 0 = some s.nodes[0].tiles[0] := by
    unfold tileAt nodeAt
    rw [List.getElem?_eq_getElem h0, Option.bind_some, List.getElem?_eq_getElem h1]
  obtain ⟨-, hc1, hv1⟩ := hr0.size _ (List.getElem_mem h1)
  have hl := loadArray_ok l.oob s _ (List.replicate c.tileConfig.edramSize 0) hx (by rw [hc1, hc]) (by rw [hv1, hc])
    (by rw [hc, List.length_replicate])
  have hset := tileAt_set_same s 0 0 _ { s.nodes[0].tiles[0] with ctrl := { s.nodes[0].tiles[0].ctrl with
      mem := { s.nodes[0].tiles[0].ctrl.mem with
        cells := (List.replicate c.tileConfig.edramSize 0).map
            (fun a => castI32 l.oob (a * 2 ^ s.config.dataConfig.activationFracBits))
          ++ s.nodes[0].tiles[0].ctrl.mem.cells.drop (List.replicate c.tileConfig.edramSize (0 : ℚ)).length }
      valid := List.replicate (List.replicate c.tileConfig.edramSize (0 : ℚ)).length true ++
        s.nodes[0].tiles[0].ctrl.valid.drop (List.replicate c.tileConfig.edramSize (0 : ℚ)).length } } hx
  have hset := (congrArg (fun y : Res Sim Unit => tileAt y.2 0 0) hl).trans hset
  change tileAt (fed l s (zeros c)) 0 0 = _ at hset
  unfold tileAt nodeAt at hset
  cases hn' : (fed l s (zeros c)).nodes[0]? with
  | none => rw [hn'] at hset; cases hset
  | some n =>
    rw [hn', Option.bind_some] at hset
    show ∀ b ∈ (((fed l s (zeros c)).nodes.getD 0 _).tiles.getD 0 _).ctrl.valid, b = true
    rw [List.getD_eq_getElem?_getD (l := (fed l s (zeros c)).nodes), hn', Option.getD_some, List.getD_eq_getElem?_getD, hset,
      Option.getD_some]
    intro b hb
    dsimp only at hb
    rw [List.length_replicate, List.drop_eq_nil_of_le hv1.le, List.append_nil] at hb
    exact List.eq_of_mem_replicate hb

omit hn ht in
theorem zeros_ok (a : Nat) (ha : a < c.numNodes) : (startOf (fed l (loaded l (Sim.new c) calls) (zeros c)) a).ok := by
  have e : fed l (loaded l (Sim.new c) calls) (zeros c) = loaded l (Sim.new c) (calls ++ [.activation (some (zeros c))]) := by
    unfold loaded
    rw [List.foldl_append]
    rfl
  obtain ⟨hc, hlen, hr⟩ := C50_loaded c someActs l (calls ++ [.activation (some (zeros c))])
  rw [← e] at hc hlen hr
  unfold startOf
  rw [hc, List.getD_eq_getElem?_getD, List.getElem?_eq_getElem (by rw [hlen]; exact ha), Option.getD_some]
  exact ready_ok (hr _ (List.getElem_mem _))

/-- C101: in `run()`, with any operations and weights, no read of the first tile of the first node ever waits for its data: the
words that the programs have yet to write are already valid (as zeros). -/
theorem C101_first_tile (fl : FloatActs) (noise : Noises) (es : List WAct) (x : Whole)
    (hx : running l (loaded l (Sim.new c) calls) (zeros c) fl noise es x) :
    ((x.node 0).ts.sys.tile 0).ctrl.pending = [] ∧ ∀ b ∈ ((x.node 0).ts.sys.tile 0).ctrl.valid, b = true := by
  obtain ⟨hc, hlen, hr⟩ := C50_loaded c someActs l calls
  have hev := hx.events
  rw [hlen, hc] at hev
  obtain ⟨as, f, h1, -, h2, -⟩ := C96_alone _ _ _ _ (zeros_ok c l calls) es x hev 0 hn
  have h0 := (zeros_ok c l calls 0 hn)
  obtain ⟨bs, h3⟩ := plain_run h0.good (clocked_reach h0 h1)
  have := C101_never_waits _ _ h0 0 (zeros_valid c l calls hn ht) bs _ h3
  unfold sameButMonitor at h2
  rw [h2]
  exact this

end

/-! ## What this does to programs that write to their first tile -/

/-- Core 0 stores two words, core 1 loads them. -/
def storeLoadInit (valid : Bool) : SysInit :=
  { demoInit with
    mem := fun _ => Memory.new 8
    valid := fun _ => List.replicate 8 valid
    prog := fun _ k => if k = 0 then [.set 16 2 1, .set 20 7 2, .store 16 20 2 1, .hlt]
      else if k = 1 then [.set 16 2 1, .load 24 16 2 1, .hlt] else [.hlt]
    ops := fun _ => [.halt] }

theorem storeLoadInit_ok (v : Bool) : (storeLoadInit v).ok := fun _ => ⟨rfl, by cases v <;> rfl⟩

/-- First the core `k` to its end, then the others. -/
def startsWith (v : Bool) (k : Nat) : List SysAct × Sys :=
  Sys.auto oneTileSys (fun s => ((s.tile 0).core k).phase.isHalted) (.core 0 k :: oneTileActs) [.ctrl 0 .tick] 100
    (storeLoadInit v).start

def thenRest (v : Bool) (k : Nat) : List SysAct × Sys :=
  Sys.auto oneTileSys (fun s => (s.tile 0).log.contains .halted) (.core 0 0 :: .core 0 1 :: .core 0 2 :: oneTileActs)
    [.ctrl 0 .tick] 100 (startsWith v k).2

theorem storeLoad_runs (v : Bool) (k : Nat) :
    (storeLoadInit v).start.run oneTileSys ((startsWith v k).1 ++ (thenRest v k).1) = some (thenRest v k).2 :=
  run_append_some (auto_runs _ _ _ _ _ _) (auto_runs _ _ _ _ _ _)

theorem storeLoad_finished (v : Bool) (k : Nat)
    (h1 : (thenRest v k).2.crashed = none)
    (h : ∀ t < 1, ((thenRest v k).2.tile t).phase = .ready ∧ ((thenRest v k).2.tile t).ops = [] ∧
      ∀ j < 3, (((thenRest v k).2.tile t).core j).phase = .halted) : finished oneTileSys (thenRest v k).2 :=
  ⟨h1, fun t ht => ⟨(h t ht).1, (h t ht).2.1, fun j hj => Or.inl ((h t ht).2.2 j hj)⟩⟩

theorem storeLoad_single : singleAssignment oneTileSys (storeLoadInit false) (thenRest false 0).2 := by
  have hb : ∀ t < 1, ∀ w ∈ writesOf ((thenRest false 0).2.tile t).ctrl.answers, w.start + w.length ≤ 8 := by decide +kernel
  have h : ∀ t < 1, ∀ w ∈ writesOf ((thenRest false 0).2.tile t).ctrl.answers, ∀ a < 8, covers w a →
      (((storeLoadInit false).valid t).getD a false = true → w.value a = ((storeLoadInit false).mem t).cells.getD a 0) ∧
      ∀ w' ∈ writesOf ((thenRest false 0).2.tile t).ctrl.answers, covers w' a → w'.value a = w.value a := by decide +kernel
  intro t ht w hw a ha
  refine h t ht w hw a ?_ ha
  have := hb t ht w hw
  have := ha.2
  omega

/-- C101: the validity bits are the only thing that orders a load after the store of its words. There is a program that
ends with one and the same result in all orders of events if the words that it stores are not valid at the start, and with different
registers in two orders if, as after `run()`, all words are valid zeros. -/
theorem C101_race : ∃ (cfg : SysCfg) (valid zero : SysInit) (as as' : List SysAct) (F F' : Sys),
    valid.ok ∧ (∀ b ∈ valid.valid 0, b = true) ∧ (∀ v ∈ (valid.mem 0).cells, v = 0) ∧
    valid = { zero with valid := valid.valid } ∧
    valid.start.run cfg as = some F ∧ finished cfg F ∧ valid.start.run cfg as' = some F' ∧ finished cfg F' ∧
    (((F.tile 0).core 1).core.readFromRegister 24 2).1 = .ok [7, 7] ∧
    (((F'.tile 0).core 1).core.readFromRegister 24 2).1 = .ok [0, 0] ∧
    (∃ bs G, zero.start.run cfg bs = some G ∧ finished cfg G) ∧
    ∀ cfg' bs G, sameMachine cfg cfg' → zero.start.run cfg' bs = some G → finished cfg' G →
      (((G.tile 0).core 1).core.readFromRegister 24 2).1 = .ok [7, 7] := by
  have hfin : finished oneTileSys (thenRest false 0).2 := storeLoad_finished false 0 (by decide +kernel) (by decide +kernel)
  refine ⟨oneTileSys, storeLoadInit true, storeLoadInit false, _, _, _, _, storeLoadInit_ok true,
    fun b hb => List.eq_of_mem_replicate hb, fun v hv => List.eq_of_mem_replicate hv, rfl,
    storeLoad_runs true 0, storeLoad_finished true 0 (by decide +kernel) (by decide +kernel), storeLoad_runs true 1,
    storeLoad_finished true 1 (by decide +kernel) (by decide +kernel), by decide +kernel, by decide +kernel,
    ⟨_, _, storeLoad_runs false 0, hfin⟩, fun cfg' bs G hm hG hf => ?_⟩
  have := ((C44_same_result oneTileSys cfg' hm _ (storeLoadInit_ok false) _ bs _ G (storeLoad_runs false 0) hG hfin hf
    storeLoad_single 0 (by decide)).2.1 1 (by decide)).2
  rw [this]
  decide +kernel

example := C101_never_waits oneTileSys (storeLoadInit true) (storeLoadInit_ok true) 0
  (fun _ hb => List.eq_of_mem_replicate hb) _ _ (storeLoad_runs true 1)

/-! ## The MNIST example -/

set_option maxRecDepth 10000 in
theorem full_accepted {n : Nat} (hn : n = mnistBuilt.tileConfig.edramSize) : accepted (coreParamsOf mnistBuilt id id)
    mnistBuilt.tileConfig.edramSize mnistBuilt.numTilesPerNode mnistBuilt.numCoresPerTile (inputWords n 0)
    (coreProgram mnistFile 0) (tileProgram mnistFile 0) mnistMoves := by
  rw [hn]
  decide +kernel

set_option maxRecDepth 10000 in
theorem full_runnable {js : List Json} (hj : writes js mnistFile) {xs : List ℚ} (hx : xs.length = mnistBuilt.tileConfig.edramSize) :
    runnable mnistConfig mnistBuilt 0 js mnistFile (.array xs) xs mnistMoves where
  simulable := mnist_simulable
  build := mnist_build
  node := by decide +kernel
  tiles := by decide +kernel
  unit := by decide +kernel
  alu := by decide +kernel
  dac := by decide +kernel
  adc := by decide +kernel
  entries := hj
  targets := by decide +kernel
  lengths := by decide +kernel
  input := .inl rfl
  fits := hx.le
  check := full_accepted hx

theorem zeros_array : ∃ xs : List ℚ, zeros mnistBuilt = .array xs ∧ xs.length = mnistBuilt.tileConfig.edramSize ∧ ∀ x ∈ xs, x = 0 :=
  ⟨_, rfl, List.length_replicate, fun _ h => List.eq_of_mem_replicate h⟩

/-- C101: the MNIST example without an activation: it writes nothing to its first tile, so `run()` never raises, and when it returns
the words 0-9 of tile 1 are the perceptron of an image of zeros. -/
theorem C101_mnist (js : List Json) (hj : writes js mnistFile) (l : Libs) (w : NpzFile) (hw : shortIds l.uni w) (fl : FloatActs)
    (hist : List Completed) (s : Sim) (hbef : before l fl (programmed l mnistBuilt js w) hist s) (noise : Noises) :
    (∀ es y, running l s (zeros mnistBuilt) fl noise es y → y.raised 1 = false ∧ (y.over 1 = true → y.now ≤ 256504)) ∧
    ∀ y s', returns l s (zeros mnistBuilt) fl noise y s' → ∃ x, tileAt s' 0 1 = some x ∧
      wordsAt (wordsOf x.ctrl.mem) 0 10 =
        (coreParamsWith mnistBuilt fl).perceptron (mnistMul (coreParamsWith mnistBuilt fl)
          (weightsIn l.uni mnistBuilt w 0) fun t k i => errorsOf (noise 0 t k i)) (List.replicate 784 0) := by
  obtain ⟨xs, hxs, hx, hzero⟩ := zeros_array
  rw [hxs]
  have h1 : mnistBuilt.numNodes = 1 := by decide +kernel
  have h0 : 0 < mnistBuilt.numNodes := by rw [h1]; exact Nat.one_pos
  have hrun : ∀ a < mnistBuilt.numNodes, runnable mnistConfig mnistBuilt a js mnistFile (.array xs) xs mnistMoves := by
    intro a h
    rw [h1] at h
    obtain rfl : a = 0 := by omega
    exact full_runnable hj hx
  have hrr : mnistBuilt.mvmuConfig.haveRramXbar = true := by decide +kernel
  have hss : mnistBuilt.mvmuConfig.haveSramXbar = false := by decide +kernel
  have hlen : s.nodes.length = 1 := by
    rw [between_length (files_between h0 hrun hrr hss mnist_halts l w fl hist s hbef), h1]
  refine ⟨fun es y hy => ?_, fun y s' hy => ?_⟩
  · have h2 := C97_never_raises h0 hrun hrr hss mnist_halts l w fl hist s hbef noise es y hy
    have h3 := C97_in_time h0 hrun hrr hss mnist_halts l w fl hist s hbef noise 256504 (fun a h => by
      rw [h1] at h
      obtain rfl : a = 0 := by omega
      exact mnist_cycles.le) es y hy
    rw [hlen] at h2 h3
    exact ⟨h2.1, h3.1⟩
  · obtain ⟨-, -, hT, hC, hM, hF⟩ := mnist_params
    obtain ⟨n', final, hn', hsol, -⟩ := C97_result h0 hrun hrr hss mnist_halts l w fl hist s hbef noise y s' hy hw
      (fun x hx => by rw [hzero x hx]; unfold inRange; norm_num) 0 h0 mnist_paired
    rw [hT, hC, hF] at hsol
    have h2 := solution_congr mnist_programs.1 mnist_programs.2 hsol
    have hbig : 784 ≤ xs.length := by rw [hx]; decide +kernel
    have h3 := mnist_solution h2 (fun t a => words_fit (fun t => (n'.tiles.getD t (TileObj.new mnistBuilt t)).ctrl.mem) t a)
      (List.replicate 784 0) List.length_replicate (fun i hi => ⟨⟨rfl, rfl, by omega⟩, by
        have hlt : i < xs.length := by omega
        rw [List.getD_eq_getElem?_getD, List.getElem?_eq_getElem hlt, Option.getD_some, hzero _ (List.getElem_mem hlt),
          List.getD_replicate]
        · unfold fixedPoint
          norm_num
        · exact hi⟩)
    have hall := files_halt h0 hrun mnist_halts l w
    have hobj := C97_objects (hrun 0 h0).simulable (hrun 0 h0).build (hrun 0 h0).unit hrr hss hall hist s hbef _ noise y s' hy
    obtain ⟨n, hn, hready, -⟩ := sim_node (l := l) (js := js) (w := w) (act := .array xs) h0
    rw [hobj, List.getElem?_mapIdx, hn, Option.map_some] at hn'
    injection hn' with hn'
    have hlt : 1 < n'.tiles.length := by
      rw [← hn']
      show 1 < (n.tiles.mapIdx _).length
      rw [List.length_mapIdx, (hready someActs).count, hT]
      omega
    refine ⟨n'.tiles[1], ?_, ?_⟩
    · unfold tileAt nodeAt
      rw [hobj, List.getElem?_mapIdx, hn, Option.map_some, hn', Option.bind_some, List.getElem?_eq_getElem hlt]
    · rw [List.getD_eq_getElem?_getD, List.getElem?_eq_getElem hlt, Option.getD_some] at h3
      rw [h3, mnistMul_congr _ _ fun t k m hm6 => C88_weights l mnistBuilt w 0 t k m (by rw [hM]; exact hm6)]

/-- `run()` can be called in the example. -/
theorem zeros_starts : running someLibs (programmed someLibs mnistBuilt (mnistFile.map fun p => .obj (fieldsOf true p)) .missing)
    (zeros mnistBuilt) someActs calm [] (Whole.start (startOf (fed someLibs (programmed someLibs mnistBuilt
      (mnistFile.map fun p => .obj (fieldsOf true p)) .missing) (zeros mnistBuilt)))) := by
  obtain ⟨xs, hxs, hx, -⟩ := zeros_array
  rw [hxs]
  exact C97_starts (moves := fun _ => mnistMoves) (by decide) (fun a h => by
    obtain rfl : a = 0 := by
      have h1 : mnistBuilt.numNodes = 1 := by decide +kernel
      omega
    exact full_runnable (writes_fields true mnistFile) hx)
    (by decide +kernel) (by decide +kernel) mnist_halts someLibs .missing someActs [] _ .new calm

example := C101_first_tile mnistBuilt someLibs [.operations (.value (.arr (mnistFile.map fun p => .obj (fieldsOf true p)))),
  .weights .missing] (by decide +kernel) (by decide +kernel) someActs calm [] _ zeros_starts

end Ramwich
