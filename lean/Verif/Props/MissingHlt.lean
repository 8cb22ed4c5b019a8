import Verif.Props.Simulation
import Verif.Spec.TileTest

/-! # C102: a tile whose program has a Halt returns only if all of its cores have a `hlt` -/
namespace Ramwich

open Pipeline (upd)
open Spec

/-- What a core has done is in its program. -/
theorem ran_mem {fl : FloatActs} {noise : Nat → Nat → Nat → Noise} (log : List CoreEv) :
    ∀ (n : Nat) (c : Core) (p : List CoreOp) (cv : Core) (rest : List CoreOp),
    coreRan fl noise n c p log cv rest → ∀ e ∈ log, e.op ∈ p := by
  induction log with
  | nil => intro _ _ _ _ _ _ e he; cases he
  | cons x log ih =>
    rintro n c p cv rest ⟨r, rfl, -, h⟩ e he
    rcases List.mem_cons.1 he with rfl | he
    · exact List.mem_cons_self ..
    · have := ih _ _ _ _ _ h e he
      split at this
      · cases this
      · exact List.mem_cons_of_mem _ this

/-- C102: a core without a `hlt` in its program never ends, and then, whatever else happens, its tile never gets past a
Halt. -/
theorem C102_never_halted (cfg : SysCfg) (i : SysInit) (h0 : i.ok) (t k : Nat) (hk : k < cfg.cores)
    (hno : .hlt ∉ i.prog t k) (as : List SysAct) (s : Sys) (hrun : i.start.run cfg as = some s) :
    ((s.tile t).core k).phase ≠ .halted ∧ .halted ∉ (s.tile t).log := by
  have hph : ((s.tile t).core k).phase ≠ .halted := by
    intro h
    obtain ⟨e, he, ho⟩ := (tileEnd_run as s hrun t).hlt k (.inr h)
    obtain ⟨cv, rest, h1, -⟩ := (((sysInv_run h0.good as s hrun).tile t).cores k).ran
    have := ran_mem _ _ _ _ _ _ h1 e (List.mem_of_getLast? he)
    rw [ho] at this
    exact hno this
  exact ⟨hph, fun h => hph ((C45_halted cfg i h0 as s hrun t h).1 k hk).1⟩

/-- The program of C42 without the `hlt` of tile 0. -/
def noHltInit : SysInit :=
  { demoInit with prog := fun t _ => if t = 0 then [.set 16 4 1, .set 20 7 3, .set 23 9 1, .store 16 20 2 2]
      else [.set 16 2 1, .load 24 16 2 2, .hlt] }

example := C102_never_halted demoSys noHltInit demoInit_ok 0 0 (by decide) (by decide)

section
variable (cfg : SysCfg) (l : StageLat) (i : SysInit) (h0 : i.ok) (t k : Nat) (ht : t < cfg.net.tiles) (hk : k < cfg.cores)
variable (hhalt : .halt ∈ i.ops t) (hno : .hlt ∉ i.prog t k)
include h0 ht hk hhalt hno

theorem unreturned {f : FSys} (hI : FInv cfg l i f) (hc : f.ts.sys.crashed = none) : f.active t = none := by
  cases ha : f.active t with
  | none => rfl
  | some c =>
    exfalso
    have h1 : f.active t = _ := (hI.tile hc t ht).active
    rw [h1] at ha
    split at ha
    · rename_i h2
      rw [Bool.and_eq_true, List.isEmpty_iff] at h2
      obtain ⟨cs, hcs⟩ := plain_run h0.good hI
      refine (C102_never_halted cfg i h0 t k hk hno cs _ hcs).2 ?_
      have hcl := ((sysInv_run h0.good cs _ hcs).tile t).tile
      have hp : ((f.ts.plain i).tile t).phase = .ready := by
        have h3 := h2.1
        change (f.ts.sys.tile t).phase.isReady = true at h3
        change (f.ts.sys.tile t).phase = .ready
        cases hp : (f.ts.sys.tile t).phase <;> rw [hp] at h3 <;> first | rfl | cases h3
      have hq : ((f.ts.plain i).tile t).ops = [] := h2.2
      rw [hp, hq] at hcl
      obtain ⟨rest, got, h4, h5, h6⟩ := hcl.ran
      exact halted_mem _ _ _ got (by rw [h4, h5]) hhalt
    · cases ha

omit h0 ht hk hhalt hno in
theorem crash_active {f f' : FSys} {b : FAct} (h : f.act cfg l b = some f') (hc : f'.ts.sys.crashed.isSome = true) :
    f'.active = f.active := by
  have hal := fact_alive h
  unfold FSys.act at h
  rw [if_neg (by rw [hal]; simp)] at h
  cases b with
  | recheck j =>
    dsimp only at h
    split at h
    · rw [Option.map_eq_some_iff] at h
      obtain ⟨k, -, rfl⟩ := h
      rfl
    · cases h
  | monitor =>
    dsimp only at h
    rw [Option.map_eq_some_iff] at h
    obtain ⟨k, -, rfl⟩ := h
    rfl
  | t b =>
    dsimp only at h
    split at h
    · split at h
      · rw [Option.map_eq_some_iff] at h
        obtain ⟨k, -, rfl⟩ := h
        rfl
      · cases h
    · obtain ⟨ts, k, -, -, h3, h4⟩ := other_cases h
      rcases h4 with ⟨-, rfl⟩ | ⟨h5, -⟩
      · rfl
      · rw [h3, h5] at hc; cases hc
    · rw [Option.map_eq_some_iff] at h
      obtain ⟨ts, -, rfl⟩ := h
      rfl

/-- C102: with clock and pipelines: the tile process never returns. -/
theorem C102_never_returns (acts : List FAct) (f : FSys) (hrun : i.fstart.run cfg l acts = some f) : f.active t = none := by
  induction acts using List.reverseRecOn generalizing f with
  | nil => cases hrun; exact unreturned cfg l i h0 t k ht hk hhalt hno (clocked_reach h0 (acts := []) rfl) rfl
  | append_singleton bs b ih =>
    obtain ⟨g, h1, h2⟩ := frun_snoc bs hrun
    cases hc : f.ts.sys.crashed with
    | none => exact unreturned cfg l i h0 t k ht hk hhalt hno (clocked_reach h0 hrun) hc
    | some e =>
      have hg := ih g h1
      cases ha : f.active t with
      | none => rfl
      | some c =>
        exfalso
        rw [crash_active cfg l h2 (by rw [hc]; rfl), hg] at ha
        cases ha

end

section
variable (nodes : Nat) (cfg : Nat → SysCfg) (l : StageLat) (i : Nat → SysInit) (h0 : ∀ a < nodes, (i a).ok)
variable (a : Nat) (ha : a < nodes) (t k : Nat) (ht : t < (cfg a).net.tiles) (hk : k < (cfg a).cores)
variable (hhalt : .halt ∈ (i a).ops t) (hno : .hlt ∉ (i a).prog t k)
include h0 ha ht hk hhalt hno

theorem stays (es : List WAct) (w : Whole) (hrun : (Whole.start i).run nodes cfg l es = some w) : w.over nodes = false := by
  have hl : w.left a = none := by
    cases hl : w.left a with
    | none => rfl
    | some T =>
      exfalso
      obtain ⟨-, -, -, as, g, h1, -, h2, -⟩ := C96_left nodes cfg l i h0 es w hrun a ha T hl
      exact h2 t ht (C102_never_returns (cfg a) l (i a) (h0 a ha) t k ht hk hhalt hno as g h1)
  unfold Whole.over
  rw [List.all_eq_false]
  exact ⟨a, List.mem_range.2 ha, by rw [hl]; simp⟩

theorem goes_on (n : Nat) : ∀ (es : List WAct) (w : Whole), (Whole.start i).run nodes cfg l es = some w →
    ∃ es' w', w.run nodes cfg l es' = some w' ∧ (w'.raised nodes = true ∨ es'.length = n) := by
  induction n with
  | zero => intro es w _; exact ⟨[], w, rfl, .inr rfl⟩
  | succ n ih =>
    intro es w hrun
    cases hr : w.raised nodes with
    | true => exact ⟨[], w, rfl, .inl hr⟩
    | false =>
      obtain ⟨e, w1, h1⟩ := C96_always_events nodes cfg l i h0 es w hrun hr
        (stays nodes cfg l i h0 a ha t k ht hk hhalt hno es w hrun)
      have h2 : w.run nodes cfg l [e] = some w1 := by
        show (w.act nodes cfg l e).bind _ = _
        rw [h1]; rfl
      obtain ⟨es', w', h3, h4⟩ := ih (es ++ [e]) w1 (wrun_append_some hrun h2)
      refine ⟨e :: es', w', wrun_append_some (es := [e]) h2 h3, h4.imp_right fun h => ?_⟩
      rw [List.length_cons, h]

/-- C102: all nodes in one environment: `env.run` never returns; either a process raises some time, or the simulation goes
on for ever: for every time there is a continuation up to that time. -/
theorem C102_hangs (es : List WAct) (w : Whole) (hrun : (Whole.start i).run nodes cfg l es = some w) :
    w.over nodes = false ∧
    ∀ T, ∃ es' w', w.run nodes cfg l es' = some w' ∧ (w'.raised nodes = true ∨ T ≤ w'.now) := by
  refine ⟨stays nodes cfg l i h0 a ha t k ht hk hhalt hno es w hrun, fun T => ?_⟩
  obtain ⟨es', w', h1, h2⟩ := goes_on nodes cfg l i h0 a ha t k ht hk hhalt hno
    ((∑ a ∈ Finset.range nodes, ((cfg a).net.tiles + 2) * (clockedWork (cfg a) (i a) + 2 + T)) + nodes + T + 1) es w hrun
  refine ⟨es', w', h1, h2.imp_right fun h => ?_⟩
  by_contra hT
  have h3 := C96_time_passes nodes cfg l i h0 _ w' (wrun_append_some hrun h1)
  have h4 : (∑ a ∈ Finset.range nodes, ((cfg a).net.tiles + 2) * (clockedWork (cfg a) (i a) + 2 + w'.now)) ≤
      ∑ a ∈ Finset.range nodes, ((cfg a).net.tiles + 2) * (clockedWork (cfg a) (i a) + 2 + T) :=
    Finset.sum_le_sum fun a _ => Nat.mul_le_mul_left _ (by omega)
  rw [List.length_append] at h3
  omega

end

/-! ## Simulators loaded from files -/

/-- The operations of a tile and of its cores. -/
def progsOf (x : TileObj) : List TileOp × List (List CoreOp) := (x.operations, x.cores.map (·.operations))

theorem fed_progs (l : Libs) (s : Sim) (act : Activation) (a t : Nat) :
    (tileAt (fed l s act) a t).map progsOf = (tileAt s a t).map progsOf := by
  rcases prepare_cases l.oob s act with e | ⟨x, m, v, hx, e⟩
  · rw [fed, e]
  · rw [fed, e, tileAt_setTile]
    split
    · rename_i h
      rw [← h.1, ← h.2, hx]
      rfl
    · rfl

theorem file_progs {l : Libs} {c : Config} {js : List Json} {ps : List Placed} (hj : writes js ps)
    (hp : ∀ p ∈ ps, addressed c p) (w : NpzFile) (act : Activation) {a t : Nat} (ha : a < c.numNodes)
    (ht : t < c.numTilesPerNode) : (startOf (simulator l c js w act) a).ops t = tileProgram ps a t ∧
      ∀ k < c.numCoresPerTile, (startOf (simulator l c js w act) a).prog t k = coreProgram ps a t k := by
  obtain ⟨n, hn, -, h2⟩ := sim_node (l := l) (js := js) (w := w) (act := act) ha
  rw [h2]
  have hx : (tileAt (simulator l c js w act) a t).map progsOf =
      some (tileProgram ps a t, (List.range c.numCoresPerTile).map (coreProgram ps a t)) := by
    have h1 := (face_operations l c hj hp a t ha ht).2
    rw [← face_weights l _ w] at h1
    refine (fed_progs l (programmed l c js w) act a t).trans ?_
    change (tileAt (programmed l c js w) a t).map face = _ at h1
    generalize tileAt (programmed l c js w) a t = o at h1
    cases o with
    | none => cases h1
    | some x =>
      simp only [Option.map_some, Option.some.injEq] at h1 ⊢
      exact congrArg (fun y => (y.1, y.2.1)) h1
  unfold tileAt nodeAt at hx
  rw [hn] at hx
  simp only [Option.bind_some] at hx
  cases hx' : n.tiles[t]? with
  | none => rw [hx'] at hx; cases hx
  | some x =>
    rw [hx'] at hx
    simp only [Option.map_some, Option.some.injEq] at hx
    have h3 : x.operations = _ := congrArg Prod.fst hx
    have h4 : x.cores.map (·.operations) = _ := congrArg Prod.snd hx
    refine ⟨?_, fun k hk => ?_⟩
    · show (n.tiles.getD t _).operations = _
      rw [List.getD_eq_getElem?_getD, hx']; exact h3
    · show ((n.tiles.getD t _).cores.getD k _).operations = _
      rw [List.getD_eq_getElem?_getD (l := n.tiles), hx', List.getD_eq_getElem?_getD]
      have h5 := congrArg (fun y => y[k]?) h4
      simp only [List.getElem?_map, List.getElem?_range hk, Option.map_some] at h5
      change (x.cores[k]?.getD _).operations = _
      cases ho : x.cores[k]? with
      | none => rw [ho] at h5; cases h5
      | some o => rw [ho] at h5; simpa using h5

/-- C102: for an operation file with a Halt for a tile of which some core has no `hlt` (for instance because the core is not
used), `run` never returns, with any weights, activation, activation functions, noise and order of events; unless a process
raises, it goes on for ever. -/
theorem C102_files (l : Libs) (c : Config) (js : List Json) (ps : List Placed) (hj : writes js ps)
    (hp : ∀ p ∈ ps, addressed c p) (w : NpzFile) (act : Activation) (fl : FloatActs) (noise : Noises) (a t k : Nat)
    (ha : a < c.numNodes) (ht : t < c.numTilesPerNode) (hk : k < c.numCoresPerTile)
    (hhalt : .halt ∈ tileProgram ps a t) (hno : .hlt ∉ coreProgram ps a t k) :
    (∀ y s', ¬ returns l (programmed l c js w) act fl noise y s') ∧
    ∀ es y, running l (programmed l c js w) act fl noise es y → ∀ T, ∃ es' y',
      running l (programmed l c js w) act fl noise (es ++ es') y' ∧ (y'.raised c.numNodes = true ∨ T ≤ y'.now) := by
  obtain ⟨hc, hlen, -⟩ := C50_loaded c someActs l [.operations (.value (.arr js)), .weights w]
  have hc : (programmed l c js w).config = c := hc
  have hlen : (programmed l c js w).nodes.length = c.numNodes := hlen
  have key : ∀ es y, running l (programmed l c js w) act fl noise es y → y.over c.numNodes = false ∧
      ∀ T, ∃ es' y', y.run c.numNodes (fun a => c.sysCfg fl (noise a)) c.stageLat es' = some y' ∧
        (y'.raised c.numNodes = true ∨ T ≤ y'.now) := by
    intro es y hy
    have hev := hy.events
    rw [hlen, hc] at hev
    obtain ⟨h1, h2⟩ := file_progs (l := l) hj hp w act ha ht
    exact C102_hangs c.numNodes (fun a => c.sysCfg fl (noise a)) c.stageLat (startOf (simulator l c js w act)) sim_ok a ha t k ht hk
      (by rw [h1]; exact hhalt) (by rw [h2 k hk]; exact hno) es y hev
  refine ⟨fun y s' hr => ?_, fun es y hy T => ?_⟩
  · obtain ⟨es, hes⟩ := hr.runs
    have h1 := (key es y hes).1
    have h2 := hr.over
    rw [hlen, h1] at h2
    cases h2
  · obtain ⟨es', y', h1, h2⟩ := (key es y hy).2 T
    refine ⟨es', y', ⟨hy.loads, hy.tracks, ?_⟩, h2⟩
    refine wrun_append_some hy.events ?_
    rw [hlen, hc]
    exact h1

/-! ## tests/test_tile_features.py -/

/-- C102: the test of the tiles hangs: with three tiles of two cores and its operations, with any weights, activation,
latencies and order of events, `env.run()` (test_tile_features.py:56) does not return; unless a process raises, it goes on for
ever, and the assertion is never reached. -/
theorem C102_test_tile_features (cfg : SysCfg) (l : StageLat) (i : SysInit) (h0 : i.ok) (ht : cfg.net.tiles = 3)
    (hk : cfg.cores = 2) (ho : i.ops = tileFeatureOps) (hp : i.prog = tileFeatureProg) (es : List WAct) (w : Whole)
    (hrun : (Whole.start fun _ => i).run 1 (fun _ => cfg) l es = some w) :
    w.over 1 = false ∧
    ∀ T, ∃ es' w', w.run 1 (fun _ => cfg) l es' = some w' ∧ (w'.raised 1 = true ∨ T ≤ w'.now) :=
  C102_hangs 1 (fun _ => cfg) l (fun _ => i) (fun _ _ => h0) 0 Nat.one_pos 0 0 (by rw [ht]; decide) (by rw [hk]; decide)
    (by rw [ho]; decide) (by rw [hp]; decide) es w hrun

/-- The programs of the test, with the memories and cores of C42. -/
example := C102_test_tile_features { demoSys with net := ⟨1, 3, some 31, some 36⟩, cores := 2 } ⟨3, 2⟩
  { demoInit with ops := tileFeatureOps, prog := tileFeatureProg } (fun _ => ⟨rfl, rfl⟩) rfl rfl rfl rfl [] _ rfl

/-- A file that uses only the second core. -/
example := C102_files someLibs tileTestBuilt _ [.core 0 0 1 .hlt, .tile 0 0 .halt] (writes_fields true _) (by decide +kernel)
  .missing (.array [0]) someActs calm 0 0 0 (by decide +kernel) (by decide +kernel) (by decide +kernel) (by decide) (by decide)

end Ramwich
