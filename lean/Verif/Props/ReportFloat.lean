import Verif.Spec.ReportFloat
import Verif.Lemmas.ReportFloat
import Verif.Props.GetStatsFloat

/-! # What a run prints in float64 (C108)

The report of a finished call of `run` in float64 arithmetic: bit for bit a function of the texts of the programs and the times
of the run, and as close to the exact energies as C107 says. -/
namespace Ramwich

open Spec Tables

/-! ## Nothing is negative -/

theorem filterMap_mem {ps : List Placed} {a t k : Nat} {op : CoreOp} (h : op ∈ coreProgram ps a t k) :
    ∃ n b c, Placed.core n b c op ∈ ps := by
  unfold coreProgram at h
  obtain ⟨p, hp, e⟩ := List.mem_filterMap.1 h
  cases p with
  | tile n b o => cases e
  | core n b c o =>
    dsimp only at e
    split at e
    · injection e with e; subst e; exact ⟨n, b, c, hp⟩
    · cases e

theorem tileProgram_mem {ps : List Placed} {a t : Nat} {op : TileOp} (h : op ∈ tileProgram ps a t) :
    ∃ n b, Placed.tile n b op ∈ ps := by
  unfold tileProgram at h
  obtain ⟨p, hp, e⟩ := List.mem_filterMap.1 h
  cases p with
  | core n b c o => cases e
  | tile n b o =>
    dsimp only at e
    split at e
    · injection e with e; subst e; exact ⟨n, b, hp⟩
    · cases e

theorem rowsOf_nonneg {l : List (Int × Int)} (h : ∀ x ∈ l, 0 ≤ x.1) : 0 ≤ rowsOf l :=
  List.sum_nonneg fun v hv => by
    obtain ⟨x, hx, rfl⟩ := List.mem_map.1 hv
    exact h x hx

theorem upToHlt_mem {ops : List CoreOp} {op : CoreOp} (h : op ∈ upToHlt ops) : op ∈ ops := by
  induction ops with
  | nil => cases h
  | cons x ops ih =>
    unfold upToHlt at h
    split at h
    · simp at h; simp [h]
    · rcases List.mem_cons.1 h with rfl | h
      · exact List.mem_cons_self
      · exact List.mem_cons_of_mem _ (ih h)

theorem traffic_nonneg {ps : List Placed} (h : ∀ p ∈ ps, rowsOk p) (a t cores : Nat) :
    let tr := traffic ((List.range cores).map (coreProgram ps a t)) (tileProgram ps a t)
    0 ≤ rowsOf tr.1 ∧ 0 ≤ rowsOf tr.2 := by
  have hc : ∀ k op, op ∈ upToHlt (coreProgram ps a t k) → ∃ n b c, Placed.core n b c op ∈ ps := fun k op ho =>
    filterMap_mem (upToHlt_mem ho)
  constructor
  · refine rowsOf_nonneg fun x hx => ?_
    rcases List.mem_append.1 hx with hx | hx
    · obtain ⟨p, hp, hx⟩ := List.mem_flatMap.1 hx
      obtain ⟨k, -, rfl⟩ := List.mem_map.1 hp
      obtain ⟨op, ho, e⟩ := List.mem_filterMap.1 hx
      obtain ⟨n, b, c, hm⟩ := hc k op ho
      have := h _ hm
      cases op <;> simp at e
      subst e
      exact this
    · obtain ⟨op, ho, e⟩ := List.mem_filterMap.1 hx
      obtain ⟨n, b, hm⟩ := tileProgram_mem ho
      have := h _ hm
      cases op <;> simp at e
      subst e
      exact this
  · refine rowsOf_nonneg fun x hx => ?_
    rcases List.mem_append.1 hx with hx | hx
    · obtain ⟨p, hp, hx⟩ := List.mem_flatMap.1 hx
      obtain ⟨k, -, rfl⟩ := List.mem_map.1 hp
      obtain ⟨op, ho, e⟩ := List.mem_filterMap.1 hx
      obtain ⟨n, b, c, hm⟩ := hc k op ho
      have := h _ hm
      cases op <;> simp at e
      subst e
      exact this
    · obtain ⟨op, ho, e⟩ := List.mem_filterMap.1 hx
      obtain ⟨n, b, hm⟩ := tileProgram_mem ho
      have := h _ hm
      cases op <;> simp at e
      subst e
      exact this

theorem accessCounts_nonneg (r w : List (Int × Nat)) (a b c d : Nat) :
    0 ≤ (accessCounts r w a b c d).readOperations ∧ 0 ≤ (accessCounts r w a b c d).writeCells ∧
    0 ≤ (accessCounts r w a b c d).totalOperatedCells := by
  unfold accessCounts
  dsimp only
  refine ⟨by omega, by positivity, by positivity⟩

theorem text_counters {c : Config} {ps : List Placed} (h : ∀ p ∈ ps, rowsOk p) (u : Nat → RunTimes)
    (hu : ∀ a, 0 ≤ (u a).busy ∧ (∀ t, 0 ≤ (u a).tile t) ∧ ∀ t k, 0 ≤ (u a).core t k) :
    ∀ n ∈ allCounters (textSim c ps u), 0 ≤ n := by
  intro v hv
  unfold allCounters textSim at hv
  obtain ⟨n, hn, hv⟩ := List.mem_flatMap.1 hv
  obtain ⟨a, -, rfl⟩ := List.mem_map.1 hn
  rcases List.mem_cons.1 hv with rfl | hv
  · exact (hu a).1
  obtain ⟨x, hx, hv⟩ := List.mem_flatMap.1 hv
  obtain ⟨t, ht⟩ := List.mem_iff_getElem?.1 hx
  unfold ledgerNode textNode at ht
  dsimp only at ht
  rw [List.getElem?_mapIdx, List.getElem?_map] at ht
  cases hr : (List.range c.numTilesPerNode)[t]? with
  | none => rw [hr] at ht; cases ht
  | some b =>
    obtain rfl : t = b := by have := (List.getElem?_eq_some_iff.1 hr).2; simpa using this
    rw [hr] at ht
    simp only [Option.map_some, Option.some.injEq] at ht
    have htr := traffic_nonneg h a t c.numCoresPerTile
    have e : (((List.range c.numCoresPerTile).map fun k => ({ CoreObj.new c with operations := coreProgram ps a t k } : CoreObj)).map
        fun o => o.operations) = (List.range c.numCoresPerTile).map (coreProgram ps a t) := by
      rw [List.map_map]; rfl
    rw [e] at ht
    subst ht
    unfold Spec.tileCounters at hv
    rcases List.mem_append.1 hv with hv | hv
    · simp only [List.mem_cons, List.not_mem_nil, or_false] at hv
      obtain ⟨g1, g2⟩ := htr
      rcases hv with rfl | rfl | rfl
      · exact (hu a).2.1 t
      · show 0 ≤ (0 : Int) + (_ + _)
        omega
      · show 0 ≤ rowsOf _ + rowsOf _
        omega
    · obtain ⟨o, ho, hv⟩ := List.mem_flatMap.1 hv
      obtain ⟨k, hk⟩ := List.mem_iff_getElem?.1 ho
      dsimp only at hk
      rw [List.getElem?_mapIdx] at hk
      cases hm : ((List.range c.numCoresPerTile).map fun k => ({ CoreObj.new c with operations := coreProgram ps a t k } : CoreObj))[k]? with
      | none => rw [hm] at hk; cases hk
      | some m =>
        rw [hm] at hk
        simp only [Option.map_some, Option.some.injEq] at hk
        subst hk
        unfold Spec.coreCounters at hv
        rcases List.mem_append.1 hv with hv | hv
        · simp only [List.mem_cons, List.not_mem_nil, or_false] at hv
          rcases hv with rfl | rfl
          · exact (hu a).2.2 t k
          · exact (accessCounts_nonneg _ _ _ _ _ _).2.2
        · obtain ⟨mv, hmv, hv⟩ := List.mem_flatMap.1 hv
          unfold coreLedger ledger at hmv
          dsimp only at hmv
          obtain ⟨i, -, rfl⟩ := List.mem_map.1 hmv
          unfold Spec.mvmuCounters ledgerUnit at hv
          simp only [List.mem_cons, List.not_mem_nil, or_false] at hv
          rcases hv with rfl | rfl | rfl
          · exact (accessCounts_nonneg _ _ _ _ _ _).1
          · exact (accessCounts_nonneg _ _ _ _ _ _).2.1
          · exact (accessCounts_nonneg _ _ _ _ _ _).2.2

theorem powerNumbers_nonneg {p : Power} (hp : PowerNonneg p) (hport : 0 < p.numPort) : ∀ q ∈ powerNumbers p, 0 ≤ q := by
  have hq : (0 : ℚ) < p.numPort := by exact_mod_cast hport
  have h1 : 0 ≤ p.nocIntraPowLeak := by
    have := mul_nonneg hp.nocIntraPowLeak hq.le
    rwa [div_mul_cancel₀ _ hq.ne'] at this
  have h2 : 0 ≤ p.nocIntraArea := by
    have := mul_nonneg hp.nocIntraArea hq.le
    rwa [div_mul_cancel₀ _ hq.ne'] at this
  obtain ⟨_, _, _, _, _, _, _, _, _, _, _, _, _, _, _, _, _, _, _, _, _, _, _, _, _, _, _, _, _, _, _, _, _, _, _, _, _, _, _, _, _, _, _, _, _, _, _, _, _, _, _, _, _, _, _, _, _, _, _, _, _, _, _, _, _, _, _, _, _⟩ := hp
  unfold powerNumbers
  simp only [List.map_cons, List.map_nil, List.cons_append, List.nil_append, List.forall_mem_cons]
  refine ⟨?_, ?_, ?_, ?_, ?_, ?_, ?_, ?_, ?_, ?_, ?_, ?_, ?_, ?_, ?_, ?_, ?_, ?_, ?_, ?_, ?_, ?_, ?_, ?_, ?_, ?_, ?_, ?_, ?_, ?_,
    ?_, ?_, ?_, ?_, ?_, ?_, ?_, ?_, ?_, ?_, ?_, ?_, ?_, ?_, ?_, ?_, ?_, ?_, ?_, ?_, ?_, ?_, ?_, ?_, ?_, ?_, ?_, ?_, ?_, ?_,
    ?_, ?_, ?_, ?_, ?_, ?_, ?_, ?_, ?_, ?_⟩ <;> first | assumption | simp

/-- C108: no number of a configuration is negative, for sizes in the tables and numbers of the user that are not negative. -/
theorem C108_numbers (r8 : ℚ) (hr8 : 0 ≤ r8) (n n' : Numbers) (hsup : Supported (sizesOf n)) (hnn : NonnegScalars n)
    (h : n.init r8 = .ok n') (p : Power) (hpow : n'.power = .ok p) : ∀ q ∈ powerNumbers p, 0 ≤ q := by
  rw [init_done h] at hpow
  refine powerNumbers_nonneg (powerNonneg_done r8 hr8 n hsup hnn p hpow) ?_
  obtain ⟨hpa, l, ar, e1, e2⟩ := power_parts hpow
  unfold Numbers.power at hpow
  rw [if_neg hpa, e1, e2] at hpow
  simp only [Except.ok.injEq] at hpow
  subst hpow
  exact Nat.pos_of_ne_zero hpa

theorem within_of_close {m : Nat} {a x lo hi : ℚ} (h : closeTo m a x) (hm : m ≤ 2 ^ 52) (h1 : lo ≤ x) (h2 : x ≤ hi) :
    within m lo a hi := by
  unfold closeTo at h
  rw [abs_le] at h
  obtain ⟨g1, g2⟩ := h
  have hq : (m : ℚ) / 2 ^ 52 ≤ 1 := by
    rw [div_le_one (by positivity)]
    exact_mod_cast hm
  have hq0 : (0 : ℚ) ≤ (m : ℚ) / 2 ^ 52 := by positivity
  unfold within
  generalize (m : ℚ) / 2 ^ 52 = q at *
  constructor
  · nlinarith
  · nlinarith

theorem text_nonneg {c : Config} {ps : List Placed} (hrows : ∀ p ∈ ps, rowsOk p) {p : Power} (hnum : ∀ q ∈ powerNumbers p, 0 ≤ q)
    (hist : List Completed) (x : Whole) : nonNegative p (textSim c ps (timesAfter hist x)) := by
  refine ⟨hnum, text_counters hrows _ fun a => ⟨?_, fun t => ?_, fun t k => ?_⟩⟩
  · have : (0 : Int) ≤ (hist.map fun e => ((e.2.2.node a).clk.busy : Int)).sum :=
      List.sum_nonneg fun v hv => by
        obtain ⟨e, -, rfl⟩ := List.mem_map.1 hv
        exact Int.natCast_nonneg _
    simp only [timesAfter]
    omega
  · simp only [timesAfter]
    exact Int.natCast_nonneg _
  · simp only [timesAfter]
    exact Int.natCast_nonneg _

section
variable {c c' : Config} {js : List Json} {ps : List Placed} {act : Activation} {xs : List ℚ} {moves : Nat → List DryMove}
  (hn : 0 < c'.numNodes) (hrun : ∀ a < c'.numNodes, runnable c c' a js ps act xs (moves a))
  (hrr : c'.mvmuConfig.haveRramXbar = true) (hss : c'.mvmuConfig.haveSramXbar = false)
  (hh : ∀ a < c'.numNodes, ∀ t < c'.numTilesPerNode, .halt ∈ tileProgram ps a t)
  (hp : ∀ a < c'.numNodes, paired c' ps a)
  (hs : ∀ a < c'.numNodes, ∀ t < c'.numTilesPerNode, ∀ b i w v : Int, .receive b i w v ∈ tileProgram ps a t →
    0 ≤ i ∧ i < c'.numTilesPerNode)
  (l : Libs) (w : NpzFile) (fl : FloatActs) (hist : List Completed) (s : Sim)
  (hbef : before l fl (programmed l c' js w) hist s) (noise : Noises) (x : Whole) (s' : Sim)
  (hr : returns l s act fl noise x s')
include hn hrun hrr hss hh hp hs hbef hr

/-- **C108, bit for bit.** The float64 report of a call of `run` that has returned is that of a simulator of which only the
texts of the programs and the times of the run are known: the same dictionary with the same float64 numbers, or the same
exception. Nothing that was computed has a part in the rounding. -/
theorem C108_text (p : Power) : s'.getStatsF p = (textSim c' ps (timesAfter hist x)).getStatsF p := by
  have hall := files_halt hn hrun hh l w
  have hfit := files_fit hn hrun hh l w hp hs
  have hsim := (hrun 0 hn).simulable
  have hb := (hrun 0 hn).build
  have hbt := before_between hsim hb (hrun 0 hn).unit hrr hss hall hbef
  have hlen : (simulator l c' js w act).nodes.length = c'.numNodes := (C50_loaded c' someActs l _).2.1
  unfold Sim.getStatsF textSim
  rw [C97_objects hsim hb (hrun 0 hn).unit hrr hss hall hist s hbef act noise x s' hr]
  congr 1
  apply List.ext_getElem?
  intro a
  simp only [List.getElem?_map, List.getElem?_mapIdx]
  by_cases ha : a < c'.numNodes
  · obtain ⟨n, hn'⟩ : ∃ n, (simulator l c' js w act).nodes[a]? = some n := ⟨_, List.getElem?_eq_getElem (by rw [hlen]; exact ha)⟩
    rw [hn', List.getElem?_range ha]
    have hready : readyNode c' fl n := (C50_loaded c' fl l _).2.2 n (List.mem_of_getElem? hn')
    have hend := (between_run hbt (returns_once hbt hall hr)).2.1 a n hn'
    simp only [Option.map_some, Option.some.injEq]
    rw [← afterRun_plain n (x.node a) (startOf (simulator l c' js w act) a),
      nodeF_ledger c c' hsim hb fl n hready (by rw [hready.count]; exact hfit n (List.mem_of_getElem? hn')) _ _ hend p _]
    refine nodeF_text hready (fun t ht => ?_) _
    have h1 := runnable_face (hrun a ha) l w t ht
    have h2 := runnable_bill (hrun a ha) l w t ht
    unfold tileAt nodeAt at h1 h2
    rw [hn'] at h1 h2
    simp only [Option.bind_some] at h1 h2
    cases hx : n.tiles[t]? with
    | none => rw [hx] at h1; cases h1
    | some x =>
      rw [hx] at h1 h2
      simp only [Option.map_some, Option.some.injEq, face, bill, Prod.mk.injEq] at h1 h2
      exact ⟨x, rfl, h1.1, h1.2.1, h2.1, h2.2⟩
  · rw [List.getElem?_eq_none (by rw [hlen]; omega), List.getElem?_eq_none (by simp; omega)]
    rfl

/-- **C108, the totals that `run` prints.** For sizes in the tables and numbers that are not negative: in float64, the energies
in joules are between what the programs need at least (C98) and at most (C82), up to `(m + 9) · 2^-52` of these bounds, where `m`
is the number of components; the area is that of the components with the same relative error. -/
theorem C108_printed (hrows : ∀ p ∈ ps, rowsOk p) (r8 : ℚ) (hr8 : 0 ≤ r8) (n n' : Numbers) (hsup : Supported (sizesOf n))
    (hnn : NonnegScalars n) (h : n.init r8 = .ok n') (p : Power) (hpow : n'.power = .ok p) (y : Heap) (d : StatsDict) (y' : Heap)
    (hd : s'.getStatsF p y = .ok (d, y')) (m : Nat)
    (hm : m = (textComponents p c' ps (leastTimes c' ps hist)).length + 9) (hsize : m ≤ 2 ^ 52) :
    let low := ((textComponents p c' ps (leastTimes c' ps hist)).map Component.contribution).sum
    let high := ((textComponents p c' ps (mostTimes c' ps hist)).map Component.contribution).sum
    within m (low.dynamicEnergy / 10 ^ 12) (d.printedTotals y').1 (high.dynamicEnergy / 10 ^ 12) ∧
    within m (low.leakageEnergy / 10 ^ 12) (d.printedTotals y').2.1 (high.leakageEnergy / 10 ^ 12) ∧
    within m low.area (d.printedTotals y').2.2 low.area := by
  have hnum := C108_numbers r8 hr8 n n' hsup hnn h p hpow
  rw [init_done h] at hpow
  have hpos := powerNonneg_done r8 hr8 n hsup hnn p hpow
  have htimes := C99_times hn hrun hrr hss hh hp hs l w fl hist s hbef noise x s' hr
  have b0 := text_longer p hpos c' ps _ _ fun a ha => (htimes a ha).1
  have b1 := text_longer p hpos c' ps _ _ fun a ha => (htimes a ha).2
  have g0 := longer_sum b0
  have g1 := longer_sum b1
  rw [C108_text hn hrun hrr hss hh hp hs l w fl hist s hbef noise x s' hr p] at hd
  have hneg := text_nonneg hrows hnum hist x (c := c')
  have hlen : m = (simComponents p (textSim c' ps (timesAfter hist x))).length + 9 := by
    rw [textSim_components, ← b0.length_eq, hm]
  obtain ⟨k1, k2, k3⟩ := C107_printed p _ hneg y d y' hd m hlen hsize
  rw [textSim_components] at k1 k2 k3
  refine ⟨within_of_close k1 hsize ?_ ?_, within_of_close k2 hsize ?_ ?_, within_of_close k3 hsize ?_ ?_⟩
  · exact div_le_div_of_nonneg_right g0.dynamic (by positivity)
  · exact div_le_div_of_nonneg_right g1.dynamic (by positivity)
  · exact div_le_div_of_nonneg_right g0.leakage (by positivity)
  · exact div_le_div_of_nonneg_right g1.leakage (by positivity)
  · exact g0.area.le
  · exact g0.area.ge

/-- **C108, there is a report.** For sizes in the tables and numbers that are not negative, the report of a call of `run` that has
returned raises no exception in float64. -/
theorem C108_prints (hrows : ∀ p ∈ ps, rowsOk p) (r8 : ℚ) (hr8 : 0 ≤ r8) (n n' : Numbers) (hsup : Supported (sizesOf n))
    (hnn : NonnegScalars n) (h : n.init r8 = .ok n') (p : Power) (hpow : n'.power = .ok p) (y : Heap) :
    ∃ d y', s'.getStatsF p y = .ok (d, y') := by
  have hnum := C108_numbers r8 hr8 n n' hsup hnn h p hpow
  rw [C108_text hn hrun hrr hss hh hp hs l w fl hist s hbef noise x s' hr p]
  obtain ⟨m', q, e1, e2, e3⟩ := C68_supported r8 n hsup
  cases h.symm.trans e1
  cases hpow.symm.trans e2
  obtain ⟨d, y1, hd⟩ := e3 (textSim c' ps (timesAfter hist x)) y (fun nd hnd => by
    obtain ⟨a, -, rfl⟩ := List.mem_map.1 hnd
    intro h0
    have := congrArg List.length h0
    have ht := (hrun 0 hn).tiles
    simp [ledgerNode, textNode] at this
    omega)
  rcases C107_outcome p _ (text_nonneg hrows hnum hist x) y with ⟨e, g, -⟩ | ⟨-, dF, -, hF, -, g, -⟩
  · rw [hd] at g; cases g
  · exact ⟨dF, hF, g⟩

end

/-! ## Examples -/

theorem two_rows : ∀ p ∈ twoFile, rowsOk p := by decide +kernel

theorem mnist_rows : ∀ p ∈ mnistFile, rowsOk p := by decide +kernel

example : ∃ (z' : Nat → RunTimes) (s' : Sim) (d : StatsDict) (y : Heap), s'.getStatsF ({} : Numbers).madePower [] = .ok (d, y) ∧
    s'.getStatsF ({} : Numbers).madePower = (textSim twoBuilt twoFile z').getStatsF ({} : Numbers).madePower := by
  obtain ⟨z, z', s1, s', h1, h2, h3⟩ := two_calls
  have hr := two_runnable (writes_fields true twoFile) 5 (1 / 4)
  have hsrc : ∀ a < twoBuilt.numNodes, ∀ t < twoBuilt.numTilesPerNode, ∀ b i w v : Int,
      .receive b i w v ∈ tileProgram twoFile a t → 0 ≤ i ∧ i < twoBuilt.numTilesPerNode := by
    intro a ha t ht b i w v h
    simpa using two_sources a ha t ht _ h
  obtain ⟨d, y, hd⟩ := C108_prints (by decide) hr (by decide +kernel) (by decide +kernel) two_halts two_paired hsrc someLibs .missing
    someActs _ _ h1 calm z' s' h2 two_rows (14 / 5) (by norm_num) {} _ default_supported (by unfold NonnegScalars; decide +kernel)
    default_init _ default_power []
  exact ⟨_, s', d, y, hd, C108_text (by decide) hr (by decide +kernel) (by decide +kernel) two_halts two_paired hsrc someLibs .missing
    someActs _ _ h1 calm z' s' h2 _⟩

set_option maxRecDepth 10000 in
theorem mnist_components : (textComponents ({} : Numbers).madePower mnistBuilt mnistFile (leastTimes mnistBuilt mnistFile [])).length = 1667 := by
  decide +kernel

set_option maxRecDepth 10000 in
theorem mnist_area : (((textComponents ({} : Numbers).madePower mnistBuilt mnistFile (leastTimes mnistBuilt mnistFile [])).map
      Component.contribution).sum).area = 2219929759 / 62500000 := by
  decide +kernel

/-- C108: what the MNIST example prints, first call, with the power numbers of config.py for the sizes in its config.yaml (which
are the defaults). If `run` returns, then there is a report in float64. The dynamic energy in it is between 5.281835 and
10.936819 microjoules, the leakage energy between 18.667402 and 493.360702 microjoules, and the area 35.518876144, up to a
billionth; with any weights, any image and any noise, and for every order of events. -/
theorem C108_mnist (js : List Json) (hj : writes js mnistFile) (act : Activation) (xs : List ℚ)
    (ha : act = .array xs ∨ act = .file 1 xs) (hx : xs.length = 784) (l : Libs) (w : NpzFile) (fl : FloatActs)
    (noise : Noises) (y : Whole) (s' : Sim) (hr : returns l (programmed l mnistBuilt js w) act fl noise y s') (h : Heap) :
    ∃ d h', s'.getStatsF ({} : Numbers).madePower h = .ok (d, h') ∧
      5281835 / 10 ^ 12 ≤ (d.printedTotals h').1 ∧ (d.printedTotals h').1 ≤ 10936819 / 10 ^ 12 ∧
      18667402 / 10 ^ 12 ≤ (d.printedTotals h').2.1 ∧ (d.printedTotals h').2.1 ≤ 493360702 / 10 ^ 12 ∧
      |(d.printedTotals h').2.2 - 35518876144 / 10 ^ 9| ≤ 1 / 10 ^ 9 := by
  have h1 : mnistBuilt.numNodes = 1 := by decide +kernel
  have h0 : 0 < mnistBuilt.numNodes := by rw [h1]; exact Nat.one_pos
  have only : ∀ a < mnistBuilt.numNodes, a = 0 := by intro a h; omega
  have hrun : ∀ a < mnistBuilt.numNodes, runnable mnistConfig mnistBuilt a js mnistFile act xs mnistMoves := by
    intro a h
    rw [only a h]
    exact mnist_runnable hj ha hx
  have hrr : mnistBuilt.mvmuConfig.haveRramXbar = true := by decide +kernel
  have hss : mnistBuilt.mvmuConfig.haveSramXbar = false := by decide +kernel
  have hpair : ∀ a < mnistBuilt.numNodes, paired mnistBuilt mnistFile a := fun a h => by rw [only a h]; exact mnist_paired
  have hsrc : ∀ a < mnistBuilt.numNodes, ∀ t < mnistBuilt.numTilesPerNode, ∀ b i w v : Int,
      .receive b i w v ∈ tileProgram mnistFile a t → 0 ≤ i ∧ i < mnistBuilt.numTilesPerNode := fun a h t ht b i w v hm => by
    rw [only a h] at hm
    simpa using mnist_sources t ht _ hm
  have hnn : NonnegScalars {} := by unfold NonnegScalars; decide +kernel
  obtain ⟨d, h', hd⟩ := C108_prints (moves := fun _ => mnistMoves) h0 hrun hrr hss mnist_halts hpair hsrc l w fl [] _ .new noise y s' hr
    mnist_rows (14 / 5) (by norm_num) {} _ default_supported hnn default_init _ default_power h
  obtain ⟨⟨a1, a2⟩, ⟨b1, b2⟩, c1, c2⟩ := C108_printed (moves := fun _ => mnistMoves) h0 hrun hrr hss mnist_halts hpair hsrc l w fl [] _
    .new noise y s' hr mnist_rows (14 / 5) (by norm_num) {} _ default_supported hnn default_init _ default_power h d h' hd 1676
    (by rw [mnist_components]) (by norm_num)
  have l1 := mnist_low
  have l2 := mnist_high
  rw [mnist_area] at c1 c2
  generalize ((textComponents ({} : Numbers).madePower mnistBuilt mnistFile (leastTimes mnistBuilt mnistFile [])).map
      Component.contribution).sum = low at *
  generalize ((textComponents ({} : Numbers).madePower mnistBuilt mnistFile (mostTimes mnistBuilt mnistFile [])).map
      Component.contribution).sum = high at *
  norm_num at a1 a2 b1 b2 c1 c2
  refine ⟨d, h', hd, ?_, ?_, ?_, ?_, ?_⟩
  · linarith [l1.1]
  · linarith [l2.1]
  · linarith [l1.2]
  · linarith [l2.2]
  · rw [abs_le]; constructor <;> linarith

end Ramwich
