import Verif.Props.Ledger
import Verif.Props.Mnist

/-! # What the MNIST example costs (C95) -/
namespace Ramwich

open Spec

/-- The sum over all cores of a node with 5 tiles of 8 cores. -/
def overCores (f : Nat → Nat → Int) : Int := ((List.range 5).map fun t => ((List.range 8).map (f t)).sum).sum

/-- The sum over the tiles. -/
def overTiles (f : Nat → Int) : Int := ((List.range 5).map f).sum

theorem overCores_congr {f g : Nat → Nat → Int} (h : ∀ t < 5, ∀ k < 8, f t k = g t k) : overCores f = overCores g := by
  unfold overCores
  congr 1
  refine List.map_congr_left fun t ht => ?_
  congr 1
  exact List.map_congr_left fun k hk => h t (List.mem_range.1 ht) k (List.mem_range.1 hk)

theorem overTiles_congr {f g : Nat → Int} (h : ∀ t < 5, f t = g t) : overTiles f = overTiles g := by
  unfold overTiles
  congr 1
  exact List.map_congr_left fun t ht => h t (List.mem_range.1 ht)

theorem mnist_transfers : transfersFit 5 mnistOps := transfersFit_check 5 mnistOps (by decide +kernel) (by decide +kernel)

theorem transfersFit_congr {n : Nat} {f g : Nat → List TileOp} (h : ∀ t < n, f t = g t) (hf : transfersFit n f) :
    transfersFit n g :=
  ⟨fun t ht => h t ht ▸ hf.source t ht, fun s hs d hd => by rw [← h s hs, ← h d hd]; exact hf.rows s hs d hd⟩

set_option maxRecDepth 10000 in
theorem mnistFile_programs : ∀ t < 5, tileProgram mnistFile 0 t = mnistOps t ∧ ∀ k < 8, coreProgram mnistFile 0 t k = mnistProg t k := by
  decide +kernel

theorem dram_total (s : MemoryStats) (tr : List (Int × Int) × List (Int × Int)) :
    (dramLedger s tr).readCells - s.readCells = dramWords tr.1 ∧ (dramLedger s tr).writeCells - s.writeCells = dramWords tr.2 := by
  simp [dramLedger]

/-- C95: the example of the repository. For every file of weights, every image, all noise, all latencies and every order
of the processes, a complete simulation has made 12544 products of crossbars and 1605632 conversions of ADCs, has read
983 rows of 15674 words from the DRAMs and written 433 rows of 6868 words, and has sent 169 packets, all of which were
received and read. -/
theorem C95_mnist (js : List Json) (hj : writes js mnistFile) (act : Activation) (xs : List ℚ)
    (ha : act = .array xs ∨ act = .file 1 xs) (hx : xs.length = 784) (l : Libs) (w : NpzFile) (fl : FloatActs)
    (noise : Nat → Nat → Nat → Nat → Nat → Noise) :
    ∃ n, (simulator l mnistBuilt js w act).nodes[0]? = some n ∧
      ∀ cfg as s, sameMachine (mnistBuilt.sysCfg fl noise) cfg → (n.start mnistBuilt).run cfg as = some s →
        finished cfg s →
        overCores (fun t k => (((s.tile t).core k).core.mvmus.map fun m => (m.rram.mvmOperations : Int)).sum) = 12544 ∧
        overCores (fun t k => (((s.tile t).core k).core.mvmus.map fun m => (m.adcStats.conversions : Int)).sum) = 1605632 ∧
        overTiles (fun t => (s.tile t).ctrl.stats.readRequests) = 983 ∧
        overTiles (fun t => (s.tile t).ctrl.mem.stats.readCells - ((nodeInit mnistBuilt n).mem t).stats.readCells) = 15674 ∧
        overTiles (fun t => (s.tile t).ctrl.stats.writeRequests) = 433 ∧
        overTiles (fun t => (s.tile t).ctrl.mem.stats.writeCells - ((nodeInit mnistBuilt n).mem t).stats.writeCells) = 6868 ∧
        overTiles (fun t => (s.net.stats t).sent) = 169 ∧ overTiles (fun t => (s.net.stats t).received) = 169 ∧
        overTiles (fun t => (s.net.stats t).read) = 169 := by
  obtain ⟨n, hn, hs, hch, -, hp⟩ := runnable_checked (mnist_runnable hj ha hx) l w fl noise
  refine ⟨n, hn, fun cfg as s hm hr hf => ?_⟩
  have hready : readyNode mnistBuilt fl n := (C50_loaded mnistBuilt fl l
    [.operations (.value (.arr js)), .weights w, .activation (some act)]).2.2 n (List.mem_of_getElem? hn)
  rw [hs] at hr
  have hok := ready_ok hready
  have hT : cfg.net.tiles = 5 := hm.tiles
  have hK : cfg.cores = 8 := hm.cores
  have hops : ∀ t < 5, (nodeInit mnistBuilt n).ops t = mnistOps t := fun t ht => (hp t ht).1.trans (mnistFile_programs t ht).1
  have hprog : ∀ t < 5, ∀ k < 8, (nodeInit mnistBuilt n).prog t k = mnistProg t k :=
    fun t ht k hk => ((hp t ht).2 k hk).trans ((mnistFile_programs t ht).2 k hk)
  have hfit : transfersFit cfg.net.tiles (nodeInit mnistBuilt n).ops := by
    rw [hT]; exact transfersFit_congr (fun t ht => (hops t ht).symm) mnist_transfers
  have hcore : ∀ t < 5, ∀ k < 8, ((s.tile t).core k).core.books = coreLedger mnistBuilt (upToHlt (mnistProg t k)) := by
    intro t ht k hk
    rw [← hprog t ht k hk]
    exact C95_core mnistConfig mnistBuilt mnist_simulable mnist_build cfg _ hok (ready_newCores hready cfg) as s hr hf t
      (hT ▸ ht) k (hK ▸ hk)
  have hdram : ∀ t < 5, _ := fun t ht => C95_dram mnistConfig mnistBuilt mnist_simulable mnist_build cfg _ hok
    (ready_newCores hready cfg) hfit as s hr hf t (hT ▸ ht)
  have hlist : ∀ t < 5, traffic ((List.range cfg.cores).map ((nodeInit mnistBuilt n).prog t)) ((nodeInit mnistBuilt n).ops t)
      = traffic ((List.range 8).map (mnistProg t)) (mnistOps t) := by
    intro t ht
    rw [hops t ht, hK]
    congr 1
    exact List.map_congr_left fun k hk => hprog t ht k (List.mem_range.1 hk)
  have hhalt : ∀ t < 5, .halt ∈ mnistOps t := by decide +kernel
  have hrouter : ∀ t < 5, s.net.stats t = routerLedger 5 mnistOps t := by
    intro t ht
    rw [C95_router cfg _ hok hfit (fun t ht => by rw [hops t (hT ▸ ht)]; exact hhalt t (hT ▸ ht)) as s hr hf t (hT ▸ ht), hT]
    unfold routerLedger
    rw [hops t ht]
    congr 1
    push_cast
    exact Finset.sum_congr rfl fun j hj => by rw [hops j (Finset.mem_range.1 hj)]
  have hunits : ∀ (f : Mvmu → Int), (∀ m, f m.books = f m) → ∀ t < 5, ∀ k < 8,
      (((s.tile t).core k).core.mvmus.map f).sum = ((coreLedger mnistBuilt (upToHlt (mnistProg t k))).mvmus.map f).sum := by
    intro f hfb t ht k hk
    rw [← hcore t ht k hk]
    simp only [Core.books, List.map_map]
    congr 1
    exact List.map_congr_left fun m _ => (hfb m).symm
  refine ⟨?_, ?_, ?_, ?_, ?_, ?_, ?_, ?_, ?_⟩
  · rw [overCores_congr (hunits _ fun _ => rfl)]; decide +kernel
  · rw [overCores_congr (hunits _ fun _ => rfl)]; decide +kernel
  · rw [overTiles_congr fun t ht => (hdram t ht).2.1.trans (by rw [hlist t ht])]; decide +kernel
  · rw [overTiles_congr fun t ht => by rw [(hdram t ht).1, (dram_total _ _).1, hlist t ht]]; decide +kernel
  · rw [overTiles_congr fun t ht => (hdram t ht).2.2.1.trans (by rw [hlist t ht])]; decide +kernel
  · rw [overTiles_congr fun t ht => by rw [(hdram t ht).1, (dram_total _ _).2, hlist t ht]]; decide +kernel
  · rw [overTiles_congr fun t ht => by rw [hrouter t ht]]; decide +kernel
  · rw [overTiles_congr fun t ht => by rw [hrouter t ht]]; decide +kernel
  · rw [overTiles_congr fun t ht => by rw [hrouter t ht]]; decide +kernel

example := C95_mnist _ (writes_fields false mnistFile) (.array (List.replicate 784 (1 / 2))) _ (.inl rfl) List.length_replicate
  someLibs .missing someActs
-- complete runs exist (C86_mnist_result)

end Ramwich
