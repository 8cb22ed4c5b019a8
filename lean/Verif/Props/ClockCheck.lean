import Verif.Lemmas.ClockStart
import Verif.Lemmas.MnistClock
import Verif.Props.LeastTime

/-! # C100: a check with the clock; how long the example of the repository can take -/
namespace Ramwich

open Spec

/-- The hypotheses of C100: those of C85 (`checked`) with a schedule that comes to the end at the latencies of the
configuration. The check does not look at the data in the DRAMs, the weights or the noise. -/
structure Spec.clocked (c c' : Config) (valid : Nat → Nat) (schedule : List (Nat × Nat)) (T : Nat) (times : List Nat)
    (i : SysInit) : Prop where
  simulable : Simulable c
  build : c.build = .ok c'
  unit : 0 < c'.mvmuConfig.xbarSize * c'.numMvmusPerCore
  nodes : 1 ≤ c'.numNodes
  lists : i.ok
  words : ∀ t < c'.numTilesPerNode, (i.mem t).size = c'.tileConfig.edramSize
  there : ∀ t < c'.numTilesPerNode, ∀ a, (i.valid t).getD a false = (valid t).testBit a
  cores : ∀ t < c'.numTilesPerNode, ∀ k < c'.numCoresPerTile, ∃ fl hist, i.core t k = (Core.new c').after fl hist
  known : ∀ t < c'.numTilesPerNode, ∀ k < c'.numCoresPerTile, ∀ op ∈ i.prog t k,
    match op with
    | .load .. | .store .. => True
    | op => ∃ d, c'.executionLatency op = .ok d ∧ 0 ≤ d
  check : endsAt (clockPar c') (coreParamsOf c' id id) valid i.prog i.ops schedule T times

theorem follow_all {cfg : SysCfg} {cc : Config} {p : CoreParams} {l : StageLat} {q : ClockPar} {size : Nat}
    (ho : ClockOk cfg cc p l q) (hqs : q.size = size) (cs : List (Nat × Nat)) :
    ∀ {A A' : DNode} {f : FSys}, NodeR cfg cc p q size A f → A.followAll q cs = some A' →
      ∃ as f', f.run cfg l as = some f' ∧ NodeR cfg cc p q size A' f' := by
  induction cs with
  | nil =>
    intro A A' f h hd
    injection hd with hd
    subst hd
    exact ⟨[], f, rfl, h⟩
  | cons c cs ih =>
    intro A A' f h hd
    obtain ⟨B, h1, h2⟩ := Option.bind_eq_some_iff.1 hd
    obtain ⟨as, g, k1, k2⟩ := node_follow ho hqs c.1 c.2 h h1
    obtain ⟨bs, f', k3, k4⟩ := ih k2 h2
    exact ⟨as ++ bs, f', by rw [frun_append, k1]; exact k3, k4⟩

variable {c c' : Config} {valid : Nat → Nat} {schedule : List (Nat × Nat)} {T : Nat} {times : List Nat}

/-- C100: what the check finds is there: with the latencies of the configuration, the node has a run in simulated time that
raises nothing and in which the tile processes return at these times. This holds for all data, all weights, all noise and all
activation functions. -/
theorem C100_run (i : SysInit) (h : clocked c c' valid schedule T times i) (fl : FloatActs)
    (noise : Nat → Nat → Nat → Nat → Nat → Noise) :
    ∃ as f, i.fstart.run (c'.sysCfg fl noise) c'.stageLat as = some f ∧ f.ts.sys.crashed = none ∧ f.ts.now = T ∧
      times.length = c'.numTilesPerNode ∧ ∀ t < c'.numTilesPerNode, f.active t = times[t]? := by
  have ho : ClockOk (c'.sysCfg fl noise) c' (coreParamsOf c' id id) c'.stageLat (clockPar c') :=
    { params := ⟨rfl, rfl, rfl⟩
      electrical := electrical_of c c' h.simulable h.build
      latencies := ⟨_, _, latencies_of c c' h.simulable h.build⟩
      mem := rfl, edram := rfl, fetch := rfl, decode := rfl, tiles := rfl, cores := rfl, noc := rfl, nodes := h.nodes }
  obtain ⟨B, h1, h3, h2⟩ := h.check
  obtain ⟨A, h4, h5⟩ := Option.bind_eq_some_iff.1 h1
  have hA : NodeR (c'.sysCfg fl noise) c' (coreParamsOf c' id id) (clockPar c') c'.tileConfig.edramSize A i.fstart :=
    clock_start rfl rfl h.lists h.words h.there (fun t ht k hk => by
      obtain ⟨fl, hist, e⟩ := h.cores t ht k hk
      rw [e]
      exact coreOk_after c c' fl h.simulable h.build h.unit hist) (fun t ht k hk op hop => by
      have := h.known t ht k hk op hop
      cases op <;> simp only [LatOk] at this ⊢
      all_goals
        obtain ⟨d, e1, e2⟩ := this
        rw [show (c'.sysCfg fl noise).execLat = c'.executionLatency from rfl]
        simp only [clockPar, e1, Int.toNat_of_nonneg e2]) h4
  obtain ⟨as, f, k1, k2⟩ := follow_all ho rfl schedule hA h5
  have hlen : times.length = c'.numTilesPerNode := by
    have := congrArg List.length h2
    rw [List.length_map, List.length_map] at this
    rw [← this]
    exact k2.len
  refine ⟨as, f, k1, k2.crashed, by rw [k2.now]; exact h3, hlen, fun t ht => ?_⟩
  have hlt : t < B.tiles.length := by rw [k2.len]; exact ht
  have e := congrArg (fun l => l[t]?) h2
  simp only [List.getElem?_map, List.getElem?_eq_getElem hlt, Option.map_some] at e
  rw [show f.active t = (f.view t).active from rfl, (k2.tiles t _ (List.getElem?_eq_getElem hlt)).active]
  cases hx : times[t]? with
  | none => rw [hx] at e; cases e
  | some T => rw [hx] at e; injection e

/-- `endsAt` only looks at programs of tiles and cores that exist. -/
theorem endsAt_congr {q : ClockPar} {p : CoreParams} {prog prog' : Nat → Nat → List CoreOp} {ops ops' : Nat → List TileOp}
    (hp : ∀ t < q.tiles, ops t = ops' t ∧ ∀ k < q.cores, prog t k = prog' t k) :
    endsAt q p valid prog ops schedule T times ↔ endsAt q p valid prog' ops' schedule T times := by
  have e : clockStart q p valid prog ops = clockStart q p valid prog' ops' := by
    unfold clockStart
    congr 1
    refine mapM_option_congr fun t ht => ?_
    have ht := List.mem_range.1 ht
    rw [(hp t ht).1, mapM_option_congr fun k hk => by rw [(hp t ht).2 k (List.mem_range.1 hk)]]
  unfold endsAt
  rw [e]

section
variable {js : List Json} {ps : List Placed} {act : Activation} {xs : List ℚ} {moves : Nat → List DryMove}
  (hn : 0 < c'.numNodes) (hrun : ∀ a < c'.numNodes, runnable c c' a js ps act xs (moves a))
  (hrr : c'.mvmuConfig.haveRramXbar = true) (hss : c'.mvmuConfig.haveSramXbar = false)
  (hh : ∀ a < c'.numNodes, ∀ t < c'.numTilesPerNode, .halt ∈ tileProgram ps a t)
  (l : Libs) (w : NpzFile) (fl : FloatActs) (hist : List Completed) (s : Sim)
  (hbef : before l fl (programmed l c' js w) hist s) (noise : Noises)
include hn hrun hrr hss hh hbef

/-- C100: from the files: if the programs of every node have a schedule that ends at time `T`, and a tile of a node returns
at that time, then `run` can return at time `T`, with these `active_cycles` of the tiles. -/
theorem C100_returns (T : Nat) (sched : Nat → List (Nat × Nat)) (times : Nat → List Nat)
    (hends : ∀ a < c'.numNodes, endsAt (clockPar c') (coreParamsOf c' id id) (inputWords xs.length a) (coreProgram ps a)
      (tileProgram ps a) (sched a) T (times a)) (hT : ∃ a < c'.numNodes, T ∈ times a) :
    ∃ y s', returns l s act fl noise y s' ∧ y.now = T ∧
      ∀ a < c'.numNodes, ∀ t < c'.numTilesPerNode, (y.node a).active t = (times a)[t]? := by
  have hbt := files_between hn hrun hrr hss hh l w fl hist s hbef
  have hnode : ∀ a, ∃ as f, a < c'.numNodes →
      (startOf (simulator l c' js w act) a).fstart.run (c'.sysCfg fl (noise a)) c'.stageLat as = some f ∧
      f.ts.sys.crashed = none ∧ f.ts.now = T ∧ (times a).length = c'.numTilesPerNode ∧
      ∀ t < c'.numTilesPerNode, f.active t = (times a)[t]? := by
    intro a
    by_cases ha : a < c'.numNodes
    · obtain ⟨n, h1, -, hch, hl, hprog⟩ := runnable_checked (hrun a ha) l w fl (noise a)
      obtain ⟨n', h2, -, he⟩ := sim_node (l := l) (js := js) (w := w) (act := act) ha
      cases h1.symm.trans h2
      rw [he]
      obtain ⟨as, f, h⟩ := C100_run (T := T) (times := times a) (schedule := sched a) (nodeInit c' n)
        { simulable := hch.simulable, build := hch.build, unit := hch.unit, nodes := hn, lists := hch.lists, words := hch.words
          there := hch.there, cores := hch.cores
          known := fun t ht k hk op hop => by
            have := hl.exec t ht k hk op hop
            cases op <;> first | trivial | exact this
          check := (endsAt_congr (q := clockPar c') hprog).2 (hends a ha) } fl (noise a)
      exact ⟨as, f, fun _ => h⟩
    · exact ⟨[], FSys.mk (startOf (simulator l c' js w act) a).tstart {} (fun _ => []) (fun _ => []) (fun _ => none), fun h => absurd h ha⟩
  choose as f hf using hnode
  have hsome : ∀ a < c'.numNodes, ∀ t < c'.numTilesPerNode, ((f a).active t).isSome = true := by
    intro a ha t ht
    obtain ⟨-, -, -, h4, h5⟩ := hf a ha
    rw [h5 t ht, List.getElem?_eq_getElem (by omega)]
    rfl
  have h0 : ∀ a < c'.numNodes, ∀ t, GoodStart ((startOf (simulator l c' js w act) a).mem t)
      ((startOf (simulator l c' js w act) a).valid t) := fun a ha t => ⟨(sim_ok a ha t).1, (sim_ok a ha t).2⟩
  obtain ⟨es, v, k1, k2, k3⟩ := merge (nodes := c'.numNodes) (cfg := fun a => c'.sysCfg fl (noise a)) (l := c'.stageLat)
    (i := startOf (simulator l c' js w act)) h0 T as f (fun a ha => ⟨(hf a ha).1, (hf a ha).2.2.1, (hf a ha).2.1⟩)
    (.inr (by
      obtain ⟨a, ha, hm⟩ := hT
      obtain ⟨t, ht⟩ := List.mem_iff_getElem?.1 hm
      have hlt : t < c'.numTilesPerNode := by
        rw [← (hf a ha).2.2.2.1]; exact (List.getElem?_eq_some_iff.1 ht).1
      exact ⟨a, ha, t, hlt, .inr (by rw [(hf a ha).2.2.2.2 t hlt]; exact ht)⟩))
  obtain ⟨es', y, j1, j2, j3, j4⟩ := leave_all (nodes := c'.numNodes) (cfg := fun a => c'.sysCfg fl (noise a)) (l := c'.stageLat)
    f (fun a ha => (hf a ha).2.1) k2 c'.numNodes le_rfl
  have hover : y.over c'.numNodes = true := by
    unfold Whole.over
    rw [List.all_eq_true]
    intro a ha
    have ha := List.mem_range.1 ha
    refine j4 a ha ?_
    unfold FSys.tilesDone
    rw [List.all_eq_true]
    exact fun t ht => hsome a ha t (List.mem_range.1 ht)
  have hst := C97_starts hn hrun hrr hss hh l w fl hist s hbef noise
  have hrunning : running l s act fl noise (es ++ es') y := by
    refine ⟨hst.loads, hst.tracks, ?_⟩
    rw [startOf_same hbt, between_length hbt, between_config hbt]
    exact wrun_append_some k1 j1
  refine ⟨y, _, ⟨⟨_, hrunning⟩, ?_, ?_, rfl⟩, by omega, fun a ha t ht => ?_⟩
  · rw [between_length hbt]
    exact raised_of fun a ha => by rw [(j2 a ha).ts]; exact (hf a ha).2.1
  · rw [between_length hbt]; exact hover
  · rw [← (hf a ha).2.2.2.2 t ht]
    rcases j2 a ha with ⟨-, h⟩ | ⟨T', -, h, -⟩
    · rw [h]
    · rw [h]; rfl

end

/-! ## The example of the repository -/

/-- The schedule, in ten parts. -/
def Spec.mnistSchedule : List (Nat × Nat) :=
  [mnistPart1, mnistPart2, mnistPart3, mnistPart4, mnistPart5, mnistPart6, mnistPart7, mnistPart8, mnistPart9, mnistPart10]

theorem followAll_cons {q : ClockPar} {A B : DNode} {p : Nat × Nat} {cs : List (Nat × Nat)} {r : Option DNode}
    (h1 : A.follow q p.1 p.2 = some B) (h2 : B.followAll q cs = r) : A.followAll q (p :: cs) = r := by
  rw [DNode.followAll, h1, Option.bind_some, h2]

theorem endsAt_of {q : ClockPar} {p : CoreParams} {prog : Nat → Nat → List CoreOp} {ops : Nat → List TileOp}
    {c : Nat × Nat} {cs : List (Nat × Nat)} {A : Option DNode} {B C : DNode}
    (hA : clockStart q p valid prog ops = A) (hB : A.bind (fun s => s.follow q c.1 c.2) = some B)
    (hC : B.followAll q cs = some C) (hT : C.now = T) (ht : C.tiles.map (·.active) = times.map some) :
    endsAt q p valid prog ops (c :: cs) T times := by
  refine ⟨C, ?_, hT, ht⟩
  obtain ⟨s0, h0, h1⟩ := Option.bind_eq_some_iff.1 hB
  rw [hA, h0, Option.bind_some]
  exact followAll_cons h1 hC

theorem mnist_rest : mnistAt1.followAll mnistPar [mnistPart2, mnistPart3, mnistPart4, mnistPart5, mnistPart6, mnistPart7,
    mnistPart8, mnistPart9, mnistPart10] = some mnistAt10 :=
  followAll_cons mnist_part2 <| followAll_cons mnist_part3 <| followAll_cons mnist_part4 <| followAll_cons mnist_part5 <|
  followAll_cons mnist_part6 <| followAll_cons mnist_part7 <| followAll_cons mnist_part8 <| followAll_cons mnist_part9 <|
  followAll_cons mnist_part10 rfl

theorem mnist_endsAt : endsAt (clockPar mnistBuilt) (coreParamsOf mnistBuilt id id) (inputWords 784 0) (coreProgram mnistFile 0)
    (tileProgram mnistFile 0) mnistSchedule 86797 [4057, 86797, 57212, 84004, 86747] := by
  rw [mnist_par]
  exact endsAt_of (A := mnistAt0) (by rw [mnistAt0]) mnist_part1 mnist_rest (by decide +kernel) (by decide +kernel)

/-- C100: the example of the repository, with the shipped latencies: for every way to write its operations to a file, every
file of weights, every activation of 784 values, all noise and all activation functions, and whatever runs the simulator has
made before, `run` can return after 86797 cycles, where the five tiles have been active for the cycles listed. So C97, C98 and
C99 speak about something (C98 allows 36850 to 256504 cycles). -/
theorem C100_mnist (js : List Json) (hj : writes js mnistFile) (act : Activation) (xs : List ℚ)
    (ha : act = .array xs ∨ act = .file 1 xs) (hx : xs.length = 784) (l : Libs) (w : NpzFile) (fl : FloatActs)
    (hist : List Completed) (s : Sim) (hbef : before l fl (programmed l mnistBuilt js w) hist s) (noise : Noises) :
    ∃ y s', returns l s act fl noise y s' ∧ y.now = 86797 ∧
      ∀ t < 5, (y.node 0).active t = [4057, 86797, 57212, 84004, 86747][t]? := by
  have h1 : mnistBuilt.numNodes = 1 := by decide +kernel
  have h0 : 0 < mnistBuilt.numNodes := by rw [h1]; exact Nat.one_pos
  have only : ∀ a < mnistBuilt.numNodes, a = 0 := by intro a h; omega
  have hrun : ∀ a < mnistBuilt.numNodes, runnable mnistConfig mnistBuilt a js mnistFile act xs mnistMoves := by
    intro a h
    rw [only a h]
    exact mnist_runnable hj ha hx
  have hrr : mnistBuilt.mvmuConfig.haveRramXbar = true := by decide +kernel
  have hss : mnistBuilt.mvmuConfig.haveSramXbar = false := by decide +kernel
  obtain ⟨y, s', k1, k2, k3⟩ := C100_returns (moves := fun _ => mnistMoves) h0 hrun hrr hss mnist_halts l w fl hist s hbef noise
    86797 (fun _ => mnistSchedule) (fun _ => [4057, 86797, 57212, 84004, 86747]) (fun a h => by
      rw [only a h, hx]; exact mnist_endsAt) ⟨0, h0, by decide⟩
  exact ⟨y, s', k1, k2, fun t ht => k3 0 h0 t (by rw [show mnistBuilt.numTilesPerNode = 5 by decide +kernel]; exact ht)⟩

example := C100_mnist _ (writes_fields false mnistFile) (.array (List.replicate 784 (1 / 2))) _ (.inl rfl)
  List.length_replicate someLibs .missing someActs [] _ .new calm

/-- No time passes while something is left to do. -/
example : (mnistAt0.bind fun s => s.follow mnistPar 1 32) = none := by decide +kernel

end Ramwich
