import Verif.Lemmas.ReportTime
import Verif.Lemmas.ReportText
import Verif.Props.LeastTime
import Verif.Props.ConfigTables

/-! # Energies between two bounds (C99)

The times in the objects are the only numbers of the report that depend on the order of events: all others are sums over the
texts of the programs (C97). Longer times never cost less, and the times are bounded from both sides (C82, C98). -/
namespace Ramwich

open Spec Tables

/-! ## Longer times -/

theorem coreNeeds_times (p : Power) (o : CoreObj) (c : Int) : coreNeeds p { o with activeCycles := c } = coreNeeds p o := rfl

theorem flatMap_mapIdx {α β γ : Type} {f : Nat → α → β} {F : β → List γ} {G : α → List γ} (h : ∀ i x, F (f i x) = G x) :
    ∀ l : List α, (l.mapIdx f).flatMap F = l.flatMap G := by
  intro l
  induction l generalizing f with
  | nil => rfl
  | cons x l ih => rw [List.mapIdx_cons, List.flatMap_cons, List.flatMap_cons, h, ih fun i x => h (i + 1) x]

theorem tileNeeds_times (p : Power) (x : TileObj) (c : Nat → Int) (a : Int) :
    tileNeeds p { x with cores := x.cores.mapIdx fun k o => { o with activeCycles := c k }, activeCycles := a } = tileNeeds p x := by
  unfold tileNeeds
  dsimp only
  rw [flatMap_mapIdx (G := coreNeeds p) fun k o => coreNeeds_times p o _]

theorem simNeeds_times (p : Power) (s : Sim) (u : Nat → RunTimes) : simNeeds p (simWithTimes s u) = simNeeds p s := by
  unfold simNeeds simWithTimes nodeWithTimes
  dsimp only
  refine flatMap_mapIdx (fun a n => ?_) _
  dsimp only
  rw [flatMap_mapIdx (G := tileNeeds p) fun t x => tileNeeds_times p x _ _]

/-- C99: whether there is a report does not depend on the times. -/
theorem C99_reportable (p : Power) (s : Sim) (u : Nat → RunTimes) (h : Heap) :
    (∃ d h', (simWithTimes s u).getStats p h = .ok (d, h')) ↔ ∃ d h', s.getStats p h = .ok (d, h') := by
  rw [C48_succeeds, C48_succeeds, simNeeds_times]
  refine and_congr_right fun _ => ?_
  unfold simWithTimes nodeWithTimes
  constructor
  · intro h n hn hz
    obtain ⟨a, ha⟩ := List.mem_iff_getElem?.1 hn
    refine h _ (List.mem_of_getElem? (i := a) (by rw [List.getElem?_mapIdx, ha]; rfl)) ?_
    dsimp only
    rw [hz]
    rfl
  · intro h n hn
    obtain ⟨a, ha⟩ := List.mem_iff_getElem?.1 hn
    rw [List.getElem?_mapIdx] at ha
    cases hm : s.nodes[a]? with
    | none => rw [hm] at ha; cases ha
    | some m =>
      rw [hm] at ha
      injection ha with ha
      subst ha
      have := h m (List.mem_of_getElem? hm)
      dsimp only
      intro hz
      exact this (by simpa using hz)

theorem longer_reports (p : Power) (hp : PowerNonneg p) (s : Sim) (tiles cores : Nat)
    (hs : ∀ n ∈ s.nodes, n.tiles.length ≤ tiles ∧ ∀ x ∈ n.tiles, x.cores.length ≤ cores)
    (u v : Nat → RunTimes) (huv : ∀ a < s.nodes.length, TimesLe tiles cores (u a) (v a))
    (x y : Heap) (d e : StatsDict) (x' y' : Heap) (hd : (simWithTimes s u).getStats p x = .ok (d, x'))
    (he : (simWithTimes s v).getStats p y = .ok (e, y')) :
    (∀ k, LongerStats (statOf d x' k) (statOf e y' k)) ∧ LongerStats (d.summary x') (e.summary y') := by
  have h := longer_sim hp s tiles cores hs u v huv
  refine ⟨fun k => ?_, ?_⟩
  · rw [(C48_report p _ x d x' hd).1 k, (C48_report p _ y e y' he).1 k]
    exact longer_total h k
  · rw [C48_summary p _ x d x' hd, C48_summary p _ y e y' he]
    exact longer_sum h

/-- C99: longer times never cost less. For sizes in the tables and numbers of the user that are not negative: of two reports on
one simulator with different times, none of them larger in the first, the second has no smaller count and no smaller energy
under any name, and the same areas; the same holds for the totals. -/
theorem C99_longer (r8 : ℚ) (hr : 0 ≤ r8) (n n' : Numbers) (hsup : Supported (sizesOf n)) (hn : NonnegScalars n)
    (h : n.init r8 = .ok n') (p : Power) (hp : n'.power = .ok p) (s : Sim) (tiles cores : Nat)
    (hs : ∀ n ∈ s.nodes, n.tiles.length ≤ tiles ∧ ∀ x ∈ n.tiles, x.cores.length ≤ cores)
    (u v : Nat → RunTimes) (huv : ∀ a < s.nodes.length, TimesLe tiles cores (u a) (v a))
    (x y : Heap) (d e : StatsDict) (x' y' : Heap) (hd : (simWithTimes s u).getStats p x = .ok (d, x'))
    (he : (simWithTimes s v).getStats p y = .ok (e, y')) :
    (∀ k, LongerStats (statOf d x' k) (statOf e y' k)) ∧ LongerStats (d.summary x') (e.summary y') := by
  rw [init_done h] at hp
  exact longer_reports p (powerNonneg_done r8 hr n hsup hn p hp) s tiles cores hs u v huv x y d e x' y' hd he

/-! ## The report of a call of `run` -/

/-- A simulator with the components of a text. -/
def textSim (c : Config) (ps : List Placed) (u : Nat → RunTimes) : Sim :=
  { config := c, nodes := (List.range c.numNodes).map fun a => ledgerNode c (textNode c ps a) (u a) }

theorem textSim_components (p : Power) (c : Config) (ps : List Placed) (u : Nat → RunTimes) :
    simComponents p (textSim c ps u) = textComponents p c ps u := by
  unfold simComponents textSim textComponents
  rw [List.flatMap_map]

theorem textComponents_times (p : Power) (c : Config) (ps : List Placed) (u v : Nat → RunTimes) :
    textComponents p c ps u = simComponents p (simWithTimes (textSim c ps v) u) := by
  unfold textComponents simComponents simWithTimes textSim
  rw [List.flatMap_def, List.flatMap_def]
  congr 1
  apply List.ext_getElem?
  intro a
  simp only [List.getElem?_map, List.getElem?_mapIdx]
  cases h : (List.range c.numNodes)[a]? with
  | none => rfl
  | some b =>
    obtain ⟨h1, h2⟩ := List.getElem?_eq_some_iff.1 h
    obtain rfl : a = b := by simpa using h2
    simp only [Option.map_some, Option.some.injEq]
    unfold nodeComponents ledgerNode nodeWithTimes
    simp only [List.mapIdx_mapIdx, Function.comp_def]

/-- C99: longer times never cost less, for a text. -/
theorem text_longer (p : Power) (hp : PowerNonneg p) (c : Config) (ps : List Placed) (u v : Nat → RunTimes)
    (huv : ∀ a < c.numNodes, TimesLe c.numTilesPerNode c.numCoresPerTile (u a) (v a)) :
    List.Forall₂ Longer (textComponents p c ps u) (textComponents p c ps v) := by
  rw [textComponents_times p c ps u u, textComponents_times p c ps v u]
  refine longer_sim hp _ c.numTilesPerNode c.numCoresPerTile (fun n hn => ?_) u v (fun a ha => huv a ?_)
  · obtain ⟨a, -, rfl⟩ := List.mem_map.1 hn
    refine ⟨by simp [ledgerNode, textNode], fun x hx => ?_⟩
    obtain ⟨t, ht⟩ := List.mem_iff_getElem?.1 hx
    simp only [ledgerNode, List.getElem?_mapIdx, textNode, List.getElem?_map] at ht
    cases h : (List.range c.numTilesPerNode)[t]? with
    | none => rw [h] at ht; cases ht
    | some b =>
      rw [h] at ht
      injection ht with ht
      subst ht
      simp
  · simpa [textSim] using ha

section
variable {c c' : Config} {js : List Json} {ps : List Placed} {act : Activation} {xs : List ℚ} {moves : Nat → List DryMove}
  (hn : 0 < c'.numNodes) (hrun : ∀ a < c'.numNodes, runnable c c' a js ps act xs (moves a))
  (hrr : c'.mvmuConfig.haveRramXbar = true) (hss : c'.mvmuConfig.haveSramXbar = false)
  (hh : ∀ a < c'.numNodes, ∀ t < c'.numTilesPerNode, .halt ∈ tileProgram ps a t)
  (hp : ∀ a < c'.numNodes, paired c' ps a)
  (hs : ∀ a < c'.numNodes, ∀ t < c'.numTilesPerNode, ∀ b i w v : Int, .receive b i w v ∈ tileProgram ps a t →
    0 ≤ i ∧ i < c'.numTilesPerNode)
  (l : Libs) (w : NpzFile) (fl : FloatActs) (hist : List Completed) (s : Sim)
  (hbef : before l fl (programmed l c' js w) hist s) (noise : Noises) (x : Whole) (s' : Sim)
  (hr : returns l s act fl noise x s')
include hn hrun hrr hss hh hp hs hbef hr

/-- C99: the times of a call of `run` that has returned are between those of C98 and those of C82. -/
theorem C99_times (a : Nat) (ha : a < c'.numNodes) :
    TimesLe c'.numTilesPerNode c'.numCoresPerTile (leastTimes c' ps hist a) (timesAfter hist x a) ∧
    TimesLe c'.numTilesPerNode c'.numCoresPerTile (timesAfter hist x a) (mostTimes c' ps hist a) := by
  have hall := files_halt hn hrun hh l w
  have hbt := files_between hn hrun hrr hss hh l w fl hist s hbef
  obtain ⟨es, hes⟩ := hr.runs
  have hev := running_events hbt hes
  have hlow := least_times hn hrun hrr hss hh hp hs l w fl hist s hbef noise x s' hr a ha
  obtain ⟨htimes, hleft⟩ := times_eq (hrun 0 hn).simulable (hrun 0 hn).build (hrun 0 hn).unit hrr hss hall hist s hbef act noise x s' hr a ha
  have hcyc := (files_node hn hrun hrr hss hh l w fl hist s hbef noise a ha).2.1
  obtain ⟨as, f, h1, -, h3, -⟩ := C96_alone _ _ _ _ sim_ok es x hev a ha
  have hact : (x.node a).active = f.active := by rw [h3]
  have hle : ∀ t k, (x.node a).active t = some k → k ≤ fileCycles c' ps a := by
    intro t k hk
    rw [hact] at hk
    have := C82_active_cycles _ _ _ (sim_ok a ha) as f h1 t _ hk
    rwa [hcyc] at this
  constructor
  · refine ⟨fun t ht => (hlow t ht).1, fun t ht k hk => (hlow t ht).2.2 k hk, ?_⟩
    simp only [leastTimes, timesAfter, busyBefore]
    omega
  · refine ⟨fun t ht => ?_, fun t ht k hk => ?_, ?_⟩
    · obtain ⟨k, -, e, -⟩ := htimes t ht
      have := hle t k e
      simp only [mostTimes, timesAfter, e, Option.getD_some]
      exact_mod_cast this
    · obtain ⟨j, -, e, hd⟩ := htimes t ht
      obtain ⟨d, hdj, e2⟩ := hd k hk
      have := hle t j e
      simp only [mostTimes, timesAfter, e2, Option.getD_some]
      exact_mod_cast hdj.trans this
    · obtain ⟨T, hT⟩ := Option.isSome_iff_exists.1 hleft
      obtain ⟨-, -, h5, as', g, h6, h7, -, h8, -⟩ := C96_left _ _ _ _ sim_ok es x hev a ha T hT
      have hTle : T ≤ fileCycles c' ps a := by
        rcases h5 with h5 | ⟨t, -, h5⟩
        · omega
        · exact hle t T h5
      obtain ⟨bs, hb⟩ := C73_routers _ _ _ (sim_ok a ha) as' g h6
      have hbusy := (C71_counts _ _ bs _ hb).2.2
      have hbusy' : g.clk.busy ≤ g.ts.now + 1 := hbusy
      rw [h7] at hbusy'
      simp only [mostTimes, timesAfter, busyBefore, h8]
      omega

omit hp hs hbef hr hrr hss hh in
theorem text_nodes (u : Nat → RunTimes) (p : Power) :
    simComponents p { simulator l c' js w act with
      nodes := (simulator l c' js w act).nodes.mapIdx fun a n => ledgerNode c' n (u a) } = textComponents p c' ps u := by
  have hlen : (simulator l c' js w act).nodes.length = c'.numNodes := (C50_loaded c' someActs l _).2.1
  unfold simComponents textComponents
  rw [List.flatMap_def, List.flatMap_def]
  congr 1
  apply List.ext_getElem?
  intro a
  simp only [List.getElem?_map, List.getElem?_mapIdx]
  by_cases ha : a < c'.numNodes
  · rw [List.getElem?_eq_getElem (by rw [hlen]; exact ha), List.getElem?_range ha]
    simp only [Option.map_some, Option.some.injEq]
    obtain ⟨n, hn⟩ : ∃ n, (simulator l c' js w act).nodes[a]? = some n := ⟨_, List.getElem?_eq_getElem (by rw [hlen]; exact ha)⟩
    have e : (simulator l c' js w act).nodes[a] = n := (List.getElem?_eq_some_iff.1 hn).2
    rw [e]
    have hready : readyNode c' someActs n := (C50_loaded c' someActs l _).2.2 n (List.mem_of_getElem? hn)
    refine nodeComponents_text hready (fun t ht => ?_) (u a)
    have h1 := runnable_face (hrun a ha) l w t ht
    have h2 := runnable_bill (hrun a ha) l w t ht
    unfold tileAt nodeAt at h1 h2
    rw [hn] at h1 h2
    simp only [Option.bind_some] at h1 h2
    cases hx : n.tiles[t]? with
    | none => rw [hx] at h1; cases h1
    | some x =>
      rw [hx] at h1 h2
      simp only [Option.map_some, Option.some.injEq, face, bill, Prod.mk.injEq] at h1 h2
      exact ⟨x, rfl, h1.1, h1.2.1, h2.1, h2.2⟩
  · rw [List.getElem?_eq_none (by rw [hlen]; omega), List.getElem?_eq_none (by simp; omega)]
    rfl

/-- C99: the report that `run` prints, from the texts of the programs and the times of the run: under every name, and in total,
it is the sum over the components of a simulator that has executed these texts. Nothing else of the files, and nothing of what
was computed, has a part in it. -/
theorem C99_report (p : Power) (y : Heap) (d : StatsDict) (y' : Heap) (hd : s'.getStats p y = .ok (d, y')) :
    (∀ k, statOf d y' k = reportTotal (textComponents p c' ps (timesAfter hist x)) k) ∧
    d.summary y' = ((textComponents p c' ps (timesAfter hist x)).map Component.contribution).sum := by
  have hall := files_halt hn hrun hh l w
  have hfit := files_fit hn hrun hh l w hp hs
  have hrep := C97_report (hrun 0 hn).simulable (hrun 0 hn).build (hrun 0 hn).unit hrr hss hall hist s hbef act noise x s' hr hfit p
  rw [hrep] at hd
  have e := text_nodes hn hrun l w (timesAfter hist x) p
  rw [← e]
  exact ⟨fun k => (C48_report p _ y d y' hd).1 k, C48_summary p _ y d y' hd⟩

/-- C99: the energies of a call of `run` between two bounds, which only depend on the texts of the programs: as times, what the
programs need at least (C98) and at most (C82). No count and no energy that `run` prints is smaller than the first bound or
larger than the second, under any name and in total; the areas are the same. -/
theorem C99_between (r8 : ℚ) (hr8 : 0 ≤ r8) (n n' : Numbers) (hsup : Supported (sizesOf n)) (hnn : NonnegScalars n)
    (h : n.init r8 = .ok n') (p : Power) (hpow : n'.power = .ok p) (y : Heap) (d : StatsDict) (y' : Heap)
    (hd : s'.getStats p y = .ok (d, y')) :
    (∀ k, LongerStats (reportTotal (textComponents p c' ps (leastTimes c' ps hist)) k) (statOf d y' k) ∧
      LongerStats (statOf d y' k) (reportTotal (textComponents p c' ps (mostTimes c' ps hist)) k)) ∧
    LongerStats ((textComponents p c' ps (leastTimes c' ps hist)).map Component.contribution).sum (d.summary y') ∧
    LongerStats (d.summary y') ((textComponents p c' ps (mostTimes c' ps hist)).map Component.contribution).sum := by
  obtain ⟨h1, h2⟩ := C99_report hn hrun hrr hss hh hp hs l w fl hist s hbef noise x s' hr p y d y' hd
  rw [init_done h] at hpow
  have hpos := powerNonneg_done r8 hr8 n hsup hnn p hpow
  have htimes := C99_times hn hrun hrr hss hh hp hs l w fl hist s hbef noise x s' hr
  have b0 := text_longer p hpos c' ps _ _ fun a ha => (htimes a ha).1
  have b1 := text_longer p hpos c' ps _ _ fun a ha => (htimes a ha).2
  rw [h2]
  exact ⟨fun k => by rw [h1 k]; exact ⟨longer_total b0 k, longer_total b1 k⟩, longer_sum b0, longer_sum b1⟩

end

/-! ## Examples -/

/-- Other times for the demonstration simulator of C48. -/
def slowerTimes (_ : Nat) : RunTimes := ⟨fun _ => 20, fun _ k => 9 + k, 30, false⟩

theorem demo_shape : ∀ n ∈ demoSim.nodes, n.tiles.length ≤ 3 ∧ ∀ x ∈ n.tiles, x.cores.length ≤ 2 := by decide +kernel

example : ∃ d e x y, (simWithTimes demoSim fun _ => ⟨fun _ => 7, fun _ _ => 5, 11, false⟩).getStats ({} : Numbers).madePower [] = .ok (d, x) ∧
    (simWithTimes demoSim slowerTimes).getStats ({} : Numbers).madePower [] = .ok (e, y) ∧
    (∀ k, LongerStats (statOf d x k) (statOf e y k)) ∧ LongerStats (d.summary x) (e.summary y) := by
  obtain ⟨d, x, h1⟩ := (C99_reportable ({} : Numbers).madePower demoSim (fun _ => ⟨fun _ => 7, fun _ _ => 5, 11, false⟩) []).2
    ⟨_, _, default_report⟩
  obtain ⟨e, y, h2⟩ := (C99_reportable ({} : Numbers).madePower demoSim slowerTimes []).2 ⟨_, _, default_report⟩
  exact ⟨d, e, x, y, h1, h2, C99_longer (14 / 5) (by norm_num) {} _ default_supported (by unfold NonnegScalars; decide +kernel)
    default_init _ default_power demoSim 3 2 demo_shape _ slowerTimes
    (fun a _ => ⟨fun t _ => by show (7 : Int) ≤ 20; decide, fun t _ k _ => by show (5 : Int) ≤ 9 + k; omega, by show (11 : Int) ≤ 30; decide⟩) [] [] d e x y h1 h2⟩

/-- The two nodes of C97, second call. -/
example : ∃ hist z s' d y, batch someLibs someActs twoSim hist s' ∧ s'.getStats ({} : Numbers).madePower [] = .ok (d, y) ∧
    LongerStats ((textComponents ({} : Numbers).madePower twoBuilt twoFile (leastTimes twoBuilt twoFile z)).map
      Component.contribution).sum (d.summary y) ∧
    LongerStats (d.summary y) ((textComponents ({} : Numbers).madePower twoBuilt twoFile (mostTimes twoBuilt twoFile z)).map
      Component.contribution).sum := by
  obtain ⟨z, z', s1, s', h1, h2, h3⟩ := two_calls
  have hr := two_runnable (writes_fields true twoFile) 5 (1 / 4)
  have hsrc : ∀ a < twoBuilt.numNodes, ∀ t < twoBuilt.numTilesPerNode, ∀ b i w v : Int,
      .receive b i w v ∈ tileProgram twoFile a t → 0 ≤ i ∧ i < twoBuilt.numTilesPerNode := by
    intro a ha t ht b i w v h
    simpa using two_sources a ha t ht _ h
  obtain ⟨n', p', e1, e2, e3⟩ := C68_supported (14 / 5) {} default_supported
  cases default_init.symm.trans e1
  cases default_power.symm.trans e2
  have hobj := C97_objects two_simulable (hr 0 (by decide)).build (hr 0 (by decide)).unit (by decide +kernel) (by decide +kernel)
    (files_halt (by decide) hr two_halts someLibs .missing) _ _ h1 _ _ _ _ h2
  obtain ⟨d, y, hd⟩ := e3 s' [] (fun nd hnd => by
    rw [hobj] at hnd
    obtain ⟨a, ha⟩ := List.mem_iff_getElem?.1 hnd
    rw [List.getElem?_mapIdx] at ha
    cases hm : (simulator someLibs twoBuilt (twoFile.map fun p => .obj (fieldsOf true p)) .missing (.array [5, 1 / 4])).nodes[a]? with
    | none => rw [hm] at ha; cases ha
    | some m =>
      rw [hm] at ha
      injection ha with ha
      subst ha
      have hready : readyNode twoBuilt someActs m := (C50_loaded twoBuilt someActs someLibs _).2.2 m (List.mem_of_getElem? hm)
      intro h0
      have := congrArg List.length h0
      simp only [NodeObj.afterRun, List.length_mapIdx, hready.count] at this
      exact absurd this (by decide))
  obtain ⟨-, b1, b2⟩ := C99_between (by decide) hr (by decide +kernel) (by decide +kernel) two_halts two_paired hsrc someLibs .missing
    someActs _ _ h1 calm z' s' h2 (14 / 5) (by norm_num) {} _ default_supported (by unfold NonnegScalars; decide +kernel)
    default_init _ default_power [] d y hd
  exact ⟨_, _, s', d, y, h3, hd, b1, b2⟩

set_option maxRecDepth 10000 in
theorem mnist_low :
    5281836 ≤ (((textComponents ({} : Numbers).madePower mnistBuilt mnistFile (leastTimes mnistBuilt mnistFile [])).map
      Component.contribution).sum).dynamicEnergy ∧
    18667403 ≤ (((textComponents ({} : Numbers).madePower mnistBuilt mnistFile (leastTimes mnistBuilt mnistFile [])).map
      Component.contribution).sum).leakageEnergy := by decide +kernel

set_option maxRecDepth 10000 in
theorem mnist_high :
    (((textComponents ({} : Numbers).madePower mnistBuilt mnistFile (mostTimes mnistBuilt mnistFile [])).map
      Component.contribution).sum).dynamicEnergy ≤ 10936818 ∧
    (((textComponents ({} : Numbers).madePower mnistBuilt mnistFile (mostTimes mnistBuilt mnistFile [])).map
      Component.contribution).sum).leakageEnergy ≤ 493360701 := by decide +kernel

/-- C99: the MNIST example, first call, with the power numbers of config.py for the sizes in its config.yaml (which are the
defaults): if `run` returns, then there is a report, and in its summary the dynamic energy is between 5281836 and 10936818 and
the leakage energy between 18667403 and 493360701, with any weights, any image and any noise, and for every order of events. -/
theorem C99_mnist (js : List Json) (hj : writes js mnistFile) (act : Activation) (xs : List ℚ)
    (ha : act = .array xs ∨ act = .file 1 xs) (hx : xs.length = 784) (l : Libs) (w : NpzFile) (fl : FloatActs)
    (noise : Noises) (y : Whole) (s' : Sim) (hr : returns l (programmed l mnistBuilt js w) act fl noise y s') (h : Heap) :
    ∃ d h', s'.getStats ({} : Numbers).madePower h = .ok (d, h') ∧
      5281836 ≤ (d.summary h').dynamicEnergy ∧ (d.summary h').dynamicEnergy ≤ 10936818 ∧
      18667403 ≤ (d.summary h').leakageEnergy ∧ (d.summary h').leakageEnergy ≤ 493360701 := by
  have h1 : mnistBuilt.numNodes = 1 := by decide +kernel
  have h0 : 0 < mnistBuilt.numNodes := by rw [h1]; exact Nat.one_pos
  have only : ∀ a < mnistBuilt.numNodes, a = 0 := by intro a h; omega
  have hrun : ∀ a < mnistBuilt.numNodes, runnable mnistConfig mnistBuilt a js mnistFile act xs mnistMoves := by
    intro a h
    rw [only a h]
    exact mnist_runnable hj ha hx
  have hrr : mnistBuilt.mvmuConfig.haveRramXbar = true := by decide +kernel
  have hss : mnistBuilt.mvmuConfig.haveSramXbar = false := by decide +kernel
  have hobj := C97_objects mnist_simulable mnist_build (hrun 0 h0).unit hrr hss (files_halt (moves := fun _ => mnistMoves) h0 hrun mnist_halts l w)
    [] _ .new act noise y s' hr
  obtain ⟨n', p', e1, e2, e3⟩ := C68_supported (14 / 5) {} default_supported
  cases default_init.symm.trans e1
  cases default_power.symm.trans e2
  obtain ⟨d, h', hd⟩ := e3 s' h (fun nd hnd => by
    rw [hobj] at hnd
    obtain ⟨a, ha⟩ := List.mem_iff_getElem?.1 hnd
    rw [List.getElem?_mapIdx] at ha
    cases hm : (simulator l mnistBuilt js w act).nodes[a]? with
    | none => rw [hm] at ha; cases ha
    | some m =>
      rw [hm] at ha
      injection ha with ha
      subst ha
      have hready : readyNode mnistBuilt fl m := (C50_loaded mnistBuilt fl l _).2.2 m (List.mem_of_getElem? hm)
      intro h0
      have := congrArg List.length h0
      simp only [NodeObj.afterRun, List.length_mapIdx, hready.count] at this
      exact absurd this (by decide +kernel))
  obtain ⟨-, b1, b2⟩ := C99_between (moves := fun _ => mnistMoves) h0 hrun hrr hss mnist_halts
    (fun a h => by rw [only a h]; exact mnist_paired)
    (fun a h t ht b i w v hm => by
      rw [only a h] at hm
      simpa using mnist_sources t ht _ hm) l w fl [] _ .new noise y s' hr (14 / 5) (by norm_num) {} _ default_supported
    (by unfold NonnegScalars; decide +kernel) default_init _ default_power h d h' hd
  exact ⟨d, h', hd, mnist_low.1.trans b1.dynamic, b2.dynamic.trans mnist_high.1, mnist_low.2.trans b1.leakage,
    b2.leakage.trans mnist_high.2⟩

end Ramwich
