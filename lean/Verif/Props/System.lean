import Verif.Lemmas.SysDead
import Verif.Props.SystemDemo

/-! # Properties of a node that runs its program (C41-C46)

A run is any sequence of actions of the processes of a node (`Model/System.lean`): the theorems hold for
every program, every setting of the latencies and every schedule. -/
namespace Ramwich

open Spec

theorem SysInit.ok.good {i : SysInit} (h : i.ok) (t : Nat) : GoodStart (i.mem t) (i.valid t) := ⟨(h t).1, (h t).2⟩

theorem demoInit_ok : demoInit.ok := fun _ => ⟨rfl, rfl⟩

theorem demoRun_runs : demoInit.start.run demoSys demoRun.1 = some demoRun.2 :=
  auto_runs demoSys bothHalted twoTiles twoClocks 200 demoInit.start

/-! ## C42: a Send and a Recv move a block -/

/-- C42: the rows that a tile has received from another are, in order, the first ones that the other has read
from its DRAM for it. Nothing is lost, duplicated, reordered or altered. -/
theorem C42_rows (cfg : SysCfg) (i : SysInit) (h0 : i.ok) (as : List SysAct) (s : Sys)
    (hrun : i.start.run cfg as = some s) (src dst : Nat) :
    rowsFrom src (s.tile dst).log <+: rowsTo dst (s.tile src).log := by
  have := rows_prefix (sysInv_run h0.good as s hrun) src dst
  exact (List.prefix_append _ _).trans this

example := C42_rows demoSys demoInit demoInit_ok demoRun.1 demoRun.2 demoRun_runs 0 1
example : rowsFrom 0 (demoRun.2.tile 1).log = [[7, 7], [7, 9]] := by decide +kernel

theorem sent_length {cfg : SysCfg} {i : SysInit} (h0 : i.ok) {s : Sys} (hi : SysInv cfg i s) {t : Nat}
    {a tg w v : Int} {rows : List (List I32)} (hm : .sent a tg w v rows ∈ (s.tile t).log) :
    ((rows.length : Int) = v ∧ ∀ r ∈ rows, (r.length : Int) = w) ∧
    ∃ before r tm after, (s.tile t).ctrl.answers = before ++ .read r tm rows.flatten :: after ∧
      r.start = a ∧ r.kind = .read w v := by
  obtain ⟨hw, hv, r, tm, data, h1, h2, h3, h4⟩ := (hi.tile t).tile.sent a tg w v rows hm
  obtain ⟨before, after, hl⟩ := List.append_of_mem h1
  have g := (ctrlInv_of (h0.good t) (hi.tile t).ctrl).ans.reads before r tm data after hl
  have hlen : data.length = w.toNat * v.toNat := by
    rw [g.value, List.length_map, List.length_range]
    simp only [Req.length, h3]
    rw [Int.toNat_mul hw hv]
  refine ⟨⟨?_, ?_⟩, before, r, tm, after, ?_, h2, h3⟩
  · rw [h4, reshape_length]; omega
  · intro x hx
    rw [h4] at hx
    have := reshape_rows v.toNat w.toNat data hlen x hx
    omega
  · rw [h4, reshape_flatten _ _ _ hlen]; exact hl

/-- C42: if the Sends of tile `src` to tile `dst` and the Recvs of `dst` from `src` have, in program order, the
same widths and numbers of rows, then the `n`-th of these Recvs, when it has all its rows, has got exactly the
block that the `n`-th Send has read: the words `[a, a + w * v)` of the DRAM of `src` as they were at the time of
that read, all of them valid. The Recv submits a write of this block at its own address, and continues only
when this write has been answered. -/
theorem C42_transfer (cfg : SysCfg) (i : SysInit) (h0 : i.ok) (as : List SysAct) (s : Sys)
    (hrun : i.start.run cfg as = some s) (src dst : Nat)
    (hshape : sendShapes dst (i.ops src) = recvShapes src (i.ops dst))
    (hpos : ∀ x ∈ recvShapes src (i.ops dst), 0 < x.2)
    (n : Nat) (b w v : Int) (rows : List (List I32))
    (hn : (receivedFrom src (s.tile dst).log)[n]? = some (b, w, v, rows)) :
    ∃ a, (sentTo dst (s.tile src).log)[n]? = some (a, w, v, rows) ∧
      (rows.flatten.length : Int) = w * v ∧
      (∃ before r tm after, (s.tile src).ctrl.answers = before ++ .read r tm rows.flatten :: after ∧
        r.start = a ∧ 0 ≤ a ∧ a + w * v ≤ (i.mem src).size ∧
        ∀ j : Nat, (j : Int) < w * v →
          wordValid ((i.valid src).getD (a.toNat + j) false) (writesOf before) (a.toNat + j) = true ∧
          rows.flatten[j]? =
            some (wordAfter ((i.mem src).cells.getD (a.toNat + j) 0) (writesOf before) (a.toNat + j))) ∧
      ((∃ q tm, .wrote q tm ∈ (s.tile dst).ctrl.answers ∧ q.start = b ∧ q.kind = .write rows.flatten v.toNat) ∨
        ∃ q ∈ (s.tile dst).ctrl.submitted, q.start = b ∧ q.kind = .write rows.flatten v.toNat ∧
          (s.tile dst).phase = .recvWrite q.id) := by
  have hi := sysInv_run h0.good as s hrun
  obtain ⟨ra, ga, hra, -⟩ := (hi.tile src).tile.ran
  obtain ⟨rb, gb, hrb, -⟩ := (hi.tile dst).tile.ran
  have hcs : ∀ x ∈ sentTo dst (s.tile src).log,
      (x.2.2.2.length : Int) = x.2.2.1 ∧ ∀ r ∈ x.2.2.2, (r.length : Int) = x.2.1 := by
    intro x hx
    unfold sentTo at hx
    rw [List.mem_filterMap] at hx
    obtain ⟨e, he, hx⟩ := hx
    split at hx
    · split at hx
      · injection hx with hx
        subst hx
        exact (sent_length h0 hi he).1
      · cases hx
    · cases hx
  have hblocks := received_blocks src (s.tile dst).log (i.ops dst) [] _ (sentTo dst (s.tile src).log) hrb
    (fun a w v rows hm => ((hi.tile dst).tile.received a src w v rows hm).1.1) hcs
    (by rw [← hshape]; exact sentTo_shapes dst _ _ _ _ hra) hpos
    (by rw [gotFrom_nil, List.nil_append, ← rowsTo_sentTo]; exact C42_rows cfg i h0 as s hrun src dst)
  have hx : ((sentTo dst (s.tile src).log).map Prod.snd)[n]? = some (w, v, rows) := by
    refine prefix_getElem? hblocks ?_
    rw [List.getElem?_map, hn]
    rfl
  rw [List.getElem?_map, Option.map_eq_some_iff] at hx
  obtain ⟨⟨a, x⟩, hx, he⟩ := hx
  dsimp only at he
  subst he
  refine ⟨a, hx, ?_⟩
  have hm : ∃ tg, .sent a tg w v rows ∈ (s.tile src).log := by
    have := List.mem_of_getElem? hx
    unfold sentTo at this
    rw [List.mem_filterMap] at this
    obtain ⟨e, he, h1⟩ := this
    split at h1
    · split at h1
      · simp only [Option.some.injEq, Prod.mk.injEq] at h1
        obtain ⟨rfl, rfl, rfl, rfl⟩ := h1
        exact ⟨_, he⟩
      · cases h1
    · cases h1
  obtain ⟨tg, hm⟩ := hm
  obtain ⟨⟨hl1, hl2⟩, before, r, tm, after, h1, h2, h3⟩ := sent_length h0 hi hm
  have g := (ctrlInv_of (h0.good src) (hi.tile src).ctrl).ans.reads before r tm _ after h1
  have hrl : r.length = w * v := by simp only [Req.length, h3]
  have hlen : (rows.flatten.length : Int) = w * v := by
    have := congrArg List.length g.value
    rw [List.length_map, List.length_range, hrl] at this
    have hp := g.pos
    rw [hrl] at hp
    omega
  have hin := g.inside
  unfold inDram at hin
  rw [hrl, h2] at hin
  refine ⟨hlen, ⟨before, r, tm, after, h1, h2, hin.1, hin.2, fun j hj => ?_⟩, ?_⟩
  · refine ⟨g.valid _ ?_, ?_⟩
    · unfold covers
      rw [hrl, h2]
      omega
    · have hv := g.value
      rw [h2, hrl] at hv
      rw [hv, List.getElem?_map, List.getElem?_range (by omega)]
      rfl
  · have hmr : .received b (src : Int) w v rows ∈ (s.tile dst).log := by
      have := List.mem_of_getElem? hn
      unfold receivedFrom at this
      rw [List.mem_filterMap] at this
      obtain ⟨e, he, h1⟩ := this
      split at h1
      · split at h1
        · rename_i hsrc
          simp only [Option.some.injEq, Prod.mk.injEq] at h1
          obtain ⟨rfl, rfl, rfl, rfl⟩ := h1
          rw [← hsrc]
          exact he
        · cases h1
      · cases h1
    rcases ((hi.tile dst).tile.received b src w v rows hmr).2 with h4 | h4
    · exact Or.inl h4
    · right
      unfold recvOpen at h4
      split at h4
      · rename_i id hp
        obtain ⟨q, h5, h6, h7, h8⟩ := h4
        refine ⟨q, List.mem_of_getElem? h5, h7, h8, ?_⟩
        rw [(ctrlInv_of (h0.good dst) (hi.tile dst).ctrl).line.ids _ _ h5]
        exact hp
      · cases h4

example := C42_transfer demoSys demoInit demoInit_ok demoRun.1 demoRun.2 demoRun_runs 0 1 rfl (by decide)
  0 2 2 2 [[7, 7], [7, 9]] (by decide +kernel)

/-- C42, the effect on the DRAM: after an answered write, each word that it covers holds the value from the
request and is valid as long as no later write has covered it. -/
theorem C42_block_written (cfg : SysCfg) (i : SysInit) (h0 : i.ok) (as : List SysAct) (s : Sys)
    (hrun : i.start.run cfg as = some s) (t : Nat) (before after : List Answer) (q : Req) (tm : Nat)
    (data : List I32) (n : Nat) (hq : q.kind = .write data n)
    (ha : (s.tile t).ctrl.answers = before ++ .wrote q tm :: after) :
    0 ≤ q.start ∧ q.start + data.length ≤ (i.mem t).size ∧
    ∀ j < data.length, (∀ q' ∈ writesOf after, ¬covers q' (q.start.toNat + j)) →
      (s.tile t).ctrl.mem.cells[q.start.toNat + j]? = data[j]? ∧
      (s.tile t).ctrl.valid[q.start.toNat + j]? = some true := by
  have hi := sysInv_run h0.good as s hrun
  have hc := ctrlInv_of (h0.good t) (hi.tile t).ctrl
  have hin := hc.ans.writes q tm (by rw [ha]; simp)
  have hql : q.length = data.length := by simp only [Req.length, hq]
  unfold inDram at hin
  rw [hql] at hin
  refine ⟨hin.1, hin.2, fun j hj hno => ?_⟩
  obtain ⟨bs, hb⟩ := (hi.tile t).ctrl
  have hcov : covers q (q.start.toNat + j) := by unfold covers; rw [hql]; omega
  have hlt : q.start.toNat + j < (i.mem t).size := by omega
  have hw : writesOf (s.tile t).ctrl.answers = (writesOf before ++ [q]) ++ writesOf after := by
    rw [ha, writesOf_append]; simp [writesOf]
  have hcells := hc.mem.cells _ hlt
  have hvals := hc.mem.vals _ hlt
  have hskip : ∀ (ws : List Req) (old : I32), (∀ q' ∈ ws, ¬covers q' (q.start.toNat + j)) →
      wordAfter old ws (q.start.toNat + j) = old := by
    intro ws old h
    rcases wordAfter_cases (q.start.toNat + j) ws old with ⟨h1, -⟩ | ⟨x, h1, h2, -⟩
    · exact h1
    · exact absurd h2 (h x h1)
  constructor
  · rw [List.getElem?_eq_getElem (by rw [hc.mem.len]; exact hlt), List.getElem?_eq_getElem hj]
    rw [List.getD_eq_getElem?_getD, List.getElem?_eq_getElem (by rw [hc.mem.len]; exact hlt)] at hcells
    rw [Option.getD_some] at hcells
    rw [hcells, hw, wordAfter, List.foldl_append]
    rw [show ∀ old, List.foldl (fun v w => if covers w (q.start.toNat + j) then Req.value w (q.start.toNat + j) else v)
      old (writesOf after) = wordAfter old (writesOf after) (q.start.toNat + j) from fun _ => rfl, hskip _ _ hno]
    rw [List.foldl_append, List.foldl_cons, List.foldl_nil, if_pos hcov]
    simp only [Req.value, hq]
    rw [show (((q.start.toNat + j : Nat) : Int) - q.start).toNat = j by omega, List.getD_eq_getElem?_getD,
      List.getElem?_eq_getElem hj]
    rfl
  · rw [List.getElem?_eq_getElem (by rw [hc.mem.vlen]; exact hlt)]
    rw [List.getD_eq_getElem?_getD, List.getElem?_eq_getElem (by rw [hc.mem.vlen]; exact hlt)] at hvals
    rw [Option.getD_some] at hvals
    rw [hvals, Option.some.injEq, wordValid_iff]
    exact Or.inr ⟨q, by rw [hw]; simp, hcov⟩

/-- The answers of the controller of tile 1: the write of the Recv, then the load that has waited for it. -/
def demoWrite : Req := ⟨1, -1, 2, .write [7, 7, 7, 9] 2, 6⟩
def demoLoad : Answer := .read ⟨0, 0, 2, .read 2 2, 0⟩ 14 [7, 7, 7, 9]
theorem demoRun_answers : (demoRun.2.tile 1).ctrl.answers = [] ++ .wrote demoWrite 10 :: [demoLoad] := by decide +kernel

example := C42_block_written demoSys demoInit demoInit_ok demoRun.1 demoRun.2 demoRun_runs 1 [] [demoLoad] demoWrite 10
  [7, 7, 7, 9] 2 rfl demoRun_answers
example : ((demoRun.2.tile 1).ctrl.mem.cells, (demoRun.2.tile 1).ctrl.valid) =
    ([5, 6, 7, 7, 7, 9, 0, 0], [true, true, true, true, true, true, false, false]) := by decide +kernel

/-- C42, all other cells: a word changes its value or validity in a step of the node only if the step answers a
write request that covers the word. -/
theorem C42_others_unchanged (cfg : SysCfg) (i : SysInit) (h0 : i.ok) (as : List SysAct) (s s' : Sys)
    (hrun : i.start.run cfg as = some s) (act : SysAct) (hact : s.act cfg act = some s') (t : Nat) :
    ∃ more, (s'.tile t).ctrl.answers = (s.tile t).ctrl.answers ++ more ∧
      ∀ a < (i.mem t).size, (∀ q ∈ writesOf more, ¬covers q a) →
        (s'.tile t).ctrl.mem.cells[a]? = (s.tile t).ctrl.mem.cells[a]? ∧
        (s'.tile t).ctrl.valid[a]? = (s.tile t).ctrl.valid[a]? := by
  have hi := sysInv_run h0.good as s hrun
  have st := sys_step hact
  have hi' := sysInv_step h0.good s s' hi st
  have hc := (ctrlInv_of (h0.good t) (hi.tile t).ctrl).mem
  have hc' := (ctrlInv_of (h0.good t) (hi'.tile t).ctrl).mem
  have hpre : (s.tile t).ctrl.answers <+: (s'.tile t).ctrl.answers := by
    rcases st.tile t with ⟨h1, -⟩ | ⟨-, h1⟩
    · rw [h1]
    · generalize s'.tile t = x' at h1 ⊢
      generalize s'.net.view t = v' at h1
      cases h1 with
      | ctrl a c h => exact (act_mono h).2
      | load k dest read width vec rest addr c c' hk hp hq he hc => exact (act_mono hc).2
      | stored k addr data rows c' hk hp hc => exact (act_mono hc).2
      | send addr target width vec rest c' hp hq hc => exact (act_mono hc).2
      | recvAll addr source width vec got c' hp hg hc => exact (act_mono hc).2
      | haltEnd c' hp hs hc => exact (act_mono hc).2
      | _ => exact List.prefix_refl _
  obtain ⟨more, hmore⟩ := hpre
  refine ⟨more, hmore.symm, fun a ha hno => ?_⟩
  have get : ∀ {α : Type} (l l' : List α) (d : α), l.length = (i.mem t).size → l'.length = (i.mem t).size →
      l'.getD a d = l.getD a d → l'[a]? = l[a]? := by
    intro α l l' d h1 h2 h3
    have e1 : a < l.length := by omega
    have e2 : a < l'.length := by omega
    rw [List.getElem?_eq_getElem e1, List.getElem?_eq_getElem e2]
    rw [List.getD_eq_getElem?_getD, List.getD_eq_getElem?_getD, List.getElem?_eq_getElem e1,
      List.getElem?_eq_getElem e2] at h3
    simpa using h3
  constructor
  · refine get _ _ 0 hc.len hc'.len ?_
    rw [hc'.cells a ha, hc.cells a ha, ← hmore, writesOf_append, wordAfter, List.foldl_append]
    rcases wordAfter_cases a (writesOf more) (wordAfter ((i.mem t).cells.getD a 0) (writesOf (s.tile t).ctrl.answers) a)
      with ⟨h1, -⟩ | ⟨q, h1, h2, -⟩
    · exact h1
    · exact absurd h2 (hno q h1)
  · refine get _ _ false hc.vlen hc'.vlen ?_
    rw [hc'.vals a ha, hc.vals a ha, ← hmore, writesOf_append]
    rw [Bool.eq_iff_iff, wordValid_iff, wordValid_iff]
    constructor
    · rintro (h | ⟨w, h1, h2⟩)
      · exact Or.inl h
      · rcases List.mem_append.1 h1 with h1 | h1
        · exact Or.inr ⟨w, h1, h2⟩
        · exact absurd h2 (hno w h1)
    · rintro (h | ⟨w, h1, h2⟩)
      · exact Or.inl h
      · exact Or.inr ⟨w, List.mem_append_left _ h1, h2⟩

/-- The node before and after the write of the Recv. -/
def beforeWrite : Sys := (demoInit.start.run demoSys (demoRun.1.take 83)).getD demoInit.start
def afterWrite : Sys := (beforeWrite.act demoSys (.ctrl 1 .complete)).getD beforeWrite
theorem beforeWrite_runs : demoInit.start.run demoSys (demoRun.1.take 83) = some beforeWrite := by
  have h : (demoInit.start.run demoSys (demoRun.1.take 83)).isSome = true := by decide +kernel
  obtain ⟨x, hx⟩ := Option.isSome_iff_exists.1 h
  unfold beforeWrite; rw [hx]; rfl
theorem afterWrite_act : beforeWrite.act demoSys (.ctrl 1 .complete) = some afterWrite := by
  have h : (beforeWrite.act demoSys (.ctrl 1 .complete)).isSome = true := by decide +kernel
  obtain ⟨x, hx⟩ := Option.isSome_iff_exists.1 h
  unfold afterWrite; rw [hx]; rfl

example := C42_others_unchanged demoSys demoInit demoInit_ok _ beforeWrite afterWrite beforeWrite_runs _ afterWrite_act 1
example : ((beforeWrite.tile 1).ctrl.mem.cells, (afterWrite.tile 1).ctrl.mem.cells) =
    ([5, 6, 0, 0, 0, 0, 0, 0], [5, 6, 7, 7, 7, 9, 0, 0]) := by decide +kernel

/-! ## C43: a row of another width -/

/-- C43: when the row that a Recv has taken has not the width of the Recv, the next step of the tile process ends
the Recv: the row is consumed (it is in no buffer, and the tile has read it), the rows received so far are
dropped, nothing is submitted to the controller and the DRAM stays as it is. -/
theorem C43_mismatch (cfg : SysCfg) (i : SysInit) (h0 : i.ok) (as : List SysAct) (s : Sys)
    (hrun : i.start.run cfg as = some s) (hc : s.crashed = none) (d : Nat) (hd : d < cfg.net.tiles)
    (b src w v : Int) (got : List (List I32)) (z : Nat) (row : List I32)
    (hp : (s.tile d).phase = .recvWait b src w v got) (hr : s.net.reader d = .got z row)
    (hw : (row.length : Int) ≠ w) :
    ∃ s', s.act cfg (.tile d) = some s' ∧ s'.crashed = none ∧
      (s'.tile d).phase = .ready ∧ (s'.tile d).ops = (s.tile d).ops ∧ (s'.tile d).ctrl = (s.tile d).ctrl ∧
      (s'.tile d).log = (s.tile d).log ++ [.row src row] ∧ (s'.tile d).core = (s.tile d).core ∧
      s'.net.reader d = .idle ∧ s'.net.buf = s.net.buf ∧ (∀ t, t ≠ d → s'.tile t = s.tile t) := by
  have hi := sysInv_run h0.good as s hrun
  have hnc := (hi.alive hc).1
  have hnet : s.net.act cfg.net (.readDone d) = some { s.net with
      reader := Pipeline.upd s.net.reader d .idle
      stats := Pipeline.upd s.net.stats d { s.net.stats d with read := (s.net.stats d).read + 1 }
      readLog := Pipeline.upd s.net.readLog d (Pipeline.upd (s.net.readLog d) z (s.net.readLog d z ++ [row])) } := by
    unfold Net.act
    rw [if_neg (by simp [hnc, NetAct.tile, hd])]
    simp [Net.readDone, hr]
  refine ⟨?_, ?_, ?_⟩
  rotate_left
  · unfold Sys.act
    rw [if_neg (by simp [hc])]
    dsimp only
    rw [if_pos hd]
    unfold Sys.tileStep
    dsimp only
    rw [hp]
    dsimp only
    rw [hr]
    dsimp only
    unfold Sys.netAct
    rw [hnet]
    dsimp only [Option.map_some]
    rw [hnc, if_neg hw]
  · refine ⟨hc, ?_, ?_, ?_, ?_, ?_, ?_, rfl, ?_⟩
    all_goals simp only [Sys.logPhase, Sys.setTile, upd_same]
    intro t ht
    rw [upd_ne _ _ _ _ ht]

theorem mismatchRun_runs : mismatchInit.start.run demoSys mismatchRun.1 = some mismatchRun.2 :=
  auto_runs demoSys firstTaken twoTiles twoClocks 200 mismatchInit.start

example := C43_mismatch demoSys mismatchInit (fun _ => ⟨rfl, rfl⟩) mismatchRun.1 mismatchRun.2 mismatchRun_runs
  (by decide +kernel) 1 (by decide) 2 0 3 2 [] 0 [7, 7] (by decide +kernel) (by decide +kernel) (by decide)

/-- C43, for whole programs: a tile process does the operations of its program in order, as the transition
function `tileNext` says (after a row of another width the next operation follows, with no `received`), and a
request to write comes either from a store of a core or from a Recv that got all its rows, all of its width. -/
theorem C43_only_complete_receives_write (cfg : SysCfg) (i : SysInit) (h0 : i.ok) (as : List SysAct) (s : Sys)
    (hrun : i.start.run cfg as = some s) (d : Nat) :
    (∃ st, tileRan (i.ops d, []) (s.tile d).log = some st) ∧
    ∀ q ∈ (s.tile d).ctrl.submitted, ∀ data n, q.kind = .write data n →
      (∃ k < cfg.cores, ∃ e ∈ ((s.tile d).core k).log, ∃ dest read w v,
        e.op = .store dest read w v ∧ e.addr = q.start ∧ e.data = data) ∨
      ∃ src w v rows, .received q.start src w v rows ∈ (s.tile d).log ∧ rows.flatten = data ∧
        (rows.length : Int) = v ∧ ∀ r ∈ rows, (r.length : Int) = w := by
  have hi := sysInv_run h0.good as s hrun
  refine ⟨?_, fun q hq data n hk => ?_⟩
  · obtain ⟨rest, got, h1, -⟩ := (hi.tile d).tile.ran
    exact ⟨_, h1⟩
  · rcases (hi.tile d).writes q hq data n hk with ⟨k, hkc, h⟩ | ⟨a, src, w, v, rows, h1, rfl, h3⟩
    · exact Or.inl ⟨k, hkc, h⟩
    · exact Or.inr ⟨src, w, v, rows, h1, h3, ((hi.tile d).tile.received _ src w v rows h1).1⟩

example := C43_only_complete_receives_write demoSys demoInit demoInit_ok demoRun.1 demoRun.2 demoRun_runs 1
example : (demoRun.2.tile 1).ctrl.submitted.map Req.kind = [.write [7, 7, 7, 9] 2, .read 2 2] ∨
    (demoRun.2.tile 1).ctrl.submitted.map Req.kind = [.read 2 2, .write [7, 7, 7, 9] 2] := by decide +kernel

/-! ## C44: the result does not depend on time -/

/-- C44: let one run of a program be finished, with no DRAM word having been given two different values. Then in
every run of the program, with any latencies and any schedule, everything that has happened so far is the
beginning of what happened in the finished run: each core has executed the same operations with the same loaded
and stored data and the same registers after each of them, and each tile process has sent and received the same
rows. -/
theorem C44_prefix (cfg cfg' : SysCfg) (hm : sameMachine cfg cfg') (i : SysInit) (h0 : i.ok)
    (as as' : List SysAct) (F s : Sys) (hF : i.start.run cfg as = some F) (hs : i.start.run cfg' as' = some s)
    (hfin : finished cfg F) (hv : singleAssignment cfg i F) (t : Nat) :
    (∀ k, ((s.tile t).core k).log <+: ((F.tile t).core k).log) ∧ (s.tile t).log <+: (F.tile t).log :=
  logsLe_run hm h0.good as' hs (sysInv_run h0.good as F hF) hfin hv t

/-- C44: if the other run is finished too, the results are the same: the history of every core and tile process,
the registers, the contents of the DRAMs and their validity. -/
theorem C44_same_result (cfg cfg' : SysCfg) (hm : sameMachine cfg cfg') (i : SysInit) (h0 : i.ok)
    (as as' : List SysAct) (F F' : Sys) (hF : i.start.run cfg as = some F) (hF' : i.start.run cfg' as' = some F')
    (hfin : finished cfg F) (hfin' : finished cfg' F') (hv : singleAssignment cfg i F)
    (t : Nat) (ht : t < cfg.net.tiles) :
    (F'.tile t).log = (F.tile t).log ∧
    (∀ k < cfg.cores, ((F'.tile t).core k).log = ((F.tile t).core k).log ∧
      ((F'.tile t).core k).core = ((F.tile t).core k).core) ∧
    (∀ a < (i.mem t).size, (F'.tile t).ctrl.valid[a]? = (F.tile t).ctrl.valid[a]? ∧
      (F'.tile t).ctrl.mem.cells[a]? = (F.tile t).ctrl.mem.cells[a]?) := by
  have hi := sysInv_run h0.good as F hF
  have hi' := sysInv_run h0.good as' F' hF'
  have hle := logsLe_run hm h0.good as' hF' hi hfin hv
  have ht' : t < cfg'.net.tiles := by rw [hm.tiles]; exact ht
  have hcore : ∀ t < cfg.net.tiles, ∀ k < cfg.cores, ((F'.tile t).core k).log = ((F.tile t).core k).log ∧
      ((F'.tile t).core k).core = ((F.tile t).core k).core := by
    intro t ht k hk
    have h1 := (finished_core hi hfin ht hk).1
    have h2 := (finished_core hi' hfin' (by rw [hm.tiles]; exact ht) (by rw [hm.cores]; exact hk)).1
    rw [hm.fl, hm.noise] at h2
    exact coreRan_eq ((hle t).1 k) h2 h1
  have htile : ∀ t < cfg.net.tiles, (F'.tile t).log = (F.tile t).log := by
    intro t ht
    exact tileRan_eq (hle t).2 (finished_tile hi' hfin' (by rw [hm.tiles]; exact ht)).1 (finished_tile hi hfin ht).1
  refine ⟨htile t ht, hcore t ht, fun a ha => ?_⟩
  have hsub' := logsLe_writes hm hi' hi hfin h0.good hle ht
  -- the writes of the first run are writes of the second
  have hsub : subWrites (writesOf (F.tile t).ctrl.answers) (writesOf (F'.tile t).ctrl.answers) := by
    intro w hw
    have hline : CtrlLine (F.tile t).ctrl := (ctrlInv_of (h0.good t) (hi.tile t).ctrl).line
    obtain ⟨tm, hw⟩ := writesOf_mem.1 hw
    have hs := answer_submitted hline hw
    have hkind : w.isWrite = true := hline.kinds _ hw
    cases hk : w.kind with
    | read => simp [Req.isWrite, hk] at hkind
    | write data rows =>
      rcases (hi.tile t).writes w hs data rows hk with ⟨k, hkc, e, he, dest, read, wd, v, h1, h2, h3⟩ |
        ⟨b, src, wd, n, rws, h1, h2, h3⟩
      · obtain ⟨r, tm', h4, h5, h6⟩ := (finished_core hi' hfin' ht' (by rw [hm.cores]; exact hkc)).2 e
          (by rw [(hcore t ht k hkc).1]; exact he) dest read wd v h1
        exact ⟨r, writesOf_mem.2 ⟨tm', h4⟩, by rw [h5, h2], data, _, _, hk, by rw [h6, h3]⟩
      · obtain ⟨r, tm', h4, h5, h6⟩ := (finished_tile hi' hfin' ht').2 b src wd n rws (by rw [htile t ht]; exact h1)
        exact ⟨r, writesOf_mem.2 ⟨tm', h4⟩, by rw [h5, h2], data, _, _, hk, by rw [h6, h3]⟩
  have hc := (ctrlInv_of (h0.good t) (hi.tile t).ctrl)
  have hc' := (ctrlInv_of (h0.good t) (hi'.tile t).ctrl)
  have get : ∀ {α : Type} (l l' : List α) (d : α), l.length = (i.mem t).size → l'.length = (i.mem t).size →
      l'.getD a d = l.getD a d → l'[a]? = l[a]? := by
    intro α l l' d h1 h2 h3
    have e1 : a < l.length := by omega
    have e2 : a < l'.length := by omega
    rw [List.getElem?_eq_getElem e1, List.getElem?_eq_getElem e2]
    rw [List.getD_eq_getElem?_getD, List.getD_eq_getElem?_getD, List.getElem?_eq_getElem e1,
      List.getElem?_eq_getElem e2] at h3
    simpa using h3
  have hcov : (∃ w ∈ writesOf (F'.tile t).ctrl.answers, covers w a) ↔ ∃ w ∈ writesOf (F.tile t).ctrl.answers, covers w a := by
    constructor
    · rintro ⟨w, h1, h2⟩
      obtain ⟨w', h3, h4⟩ := hsub' w h1
      exact ⟨w', h3, (sameWrite_covers h4 a).1 h2⟩
    · rintro ⟨w, h1, h2⟩
      obtain ⟨w', h3, h4⟩ := hsub w h1
      exact ⟨w', h3, (sameWrite_covers h4 a).1 h2⟩
  have hval : wordValid ((i.valid t).getD a false) (writesOf (F'.tile t).ctrl.answers) a =
      wordValid ((i.valid t).getD a false) (writesOf (F.tile t).ctrl.answers) a := by
    rw [Bool.eq_iff_iff, wordValid_iff, wordValid_iff, hcov]
  refine ⟨get _ _ false hc.mem.vlen hc'.mem.vlen ?_, get _ _ 0 hc.mem.len hc'.mem.len ?_⟩
  · rw [hc'.mem.vals a ha, hc.mem.vals a ha, hval]
  · rw [hc'.mem.cells a ha, hc.mem.cells a ha]
    cases hb : wordValid ((i.valid t).getD a false) (writesOf (F.tile t).ctrl.answers) a with
    | true =>
      exact word_agree (hv t ht) hsub' (subWrites_refl (writesOf_isWrite hc.line)) a (by rw [hval, hb]) hb
    | false =>
      have hno : ¬∃ w ∈ writesOf (F.tile t).ctrl.answers, covers w a := by
        intro h
        have := (wordValid_iff a (writesOf (F.tile t).ctrl.answers) ((i.valid t).getD a false)).2 (Or.inr h)
        rw [hb] at this
        cases this
      have hno' := fun h => hno (hcov.1 h)
      rcases wordAfter_cases a (writesOf (F.tile t).ctrl.answers) ((i.mem t).cells.getD a 0) with ⟨h1, -⟩ | ⟨w, h1, h2, -⟩
      · rcases wordAfter_cases a (writesOf (F'.tile t).ctrl.answers) ((i.mem t).cells.getD a 0) with ⟨h3, -⟩ | ⟨w, h3, h4, -⟩
        · rw [h1, h3]
        · exact absurd ⟨w, h3, h4⟩ hno'
      · exact absurd ⟨w, h1, h2⟩ hno

theorem demoRun_finished : finished demoSys demoRun.2 := by
  refine ⟨by decide +kernel, ?_⟩
  have h : ∀ t < 2, (demoRun.2.tile t).phase = .ready ∧ (demoRun.2.tile t).ops = [] ∧
      ∀ k < 1, ((demoRun.2.tile t).core k).phase = .halted := by decide +kernel
  exact fun t ht => ⟨(h t ht).1, (h t ht).2.1, fun k hk => Or.inl ((h t ht).2.2 k hk)⟩

theorem otherRun_finished : finished slowSys otherRun.2 := by
  refine ⟨by decide +kernel, ?_⟩
  have h : ∀ t < 2, (otherRun.2.tile t).phase = .ready ∧ (otherRun.2.tile t).ops = [] ∧
      ∀ k < 1, ((otherRun.2.tile t).core k).phase = .halted := by decide +kernel
  exact fun t ht => ⟨(h t ht).1, (h t ht).2.1, fun k hk => Or.inl ((h t ht).2.2 k hk)⟩

theorem demoRun_single : singleAssignment demoSys demoInit demoRun.2 := by
  have hb : ∀ t < 2, ∀ w ∈ writesOf (demoRun.2.tile t).ctrl.answers, w.start + w.length ≤ 8 := by decide +kernel
  have h : ∀ t < 2, ∀ w ∈ writesOf (demoRun.2.tile t).ctrl.answers, ∀ a < 8, covers w a →
      ((demoInit.valid t).getD a false = true → w.value a = (demoInit.mem t).cells.getD a 0) ∧
      ∀ w' ∈ writesOf (demoRun.2.tile t).ctrl.answers, covers w' a → w'.value a = w.value a := by decide +kernel
  intro t ht w hw a ha
  refine h t ht w hw a ?_ ha
  have := hb t ht w hw
  have := ha.2
  omega

theorem otherRun_runs : demoInit.start.run slowSys otherRun.1 = some otherRun.2 :=
  auto_runs slowSys bothHalted twoTiles.reverse twoClocks.reverse 300 demoInit.start

/-- Two different schedules with different latencies; the requests of tile 1 are answered at different times. -/
example := C44_same_result demoSys slowSys ⟨rfl, rfl, rfl, rfl⟩ demoInit demoInit_ok demoRun.1 otherRun.1 demoRun.2
  otherRun.2 demoRun_runs otherRun_runs demoRun_finished otherRun_finished demoRun_single 1 (by decide)

example := C44_prefix demoSys slowSys ⟨rfl, rfl, rfl, rfl⟩ demoInit demoInit_ok demoRun.1 (otherRun.1.take 60) demoRun.2
  ((demoInit.start.run slowSys (otherRun.1.take 60)).getD demoInit.start) demoRun_runs (by
    have h : (demoInit.start.run slowSys (otherRun.1.take 60)).isSome = true := by decide +kernel
    obtain ⟨x, hx⟩ := Option.isSome_iff_exists.1 h
    rw [hx]; rfl) demoRun_finished demoRun_single 1

example : otherRun.1 ≠ demoRun.1 := by decide +kernel

/-! ## C45: Halt -/

/-- C45: when the Halt of a tile has been executed, all its cores have ended, with a `hlt` as their last operation;
its router has stopped, no packet is in its queue or held by its send thread; its controller has been stopped,
every request has been answered and none is queued, being served or waiting for data. -/
theorem C45_halted (cfg : SysCfg) (i : SysInit) (h0 : i.ok) (as : List SysAct) (s : Sys)
    (hrun : i.start.run cfg as = some s) (t : Nat) (hh : .halted ∈ (s.tile t).log) :
    (∀ k < cfg.cores, ((s.tile t).core k).phase = .halted ∧
      ∃ e, ((s.tile t).core k).log.getLast? = some e ∧ e.op = .hlt) ∧
    s.net.stopper t = .stopped ∧ s.net.queue t = [] ∧ s.net.sender t = .idle ∧
    (s.tile t).ctrl.running = false ∧ (∀ r ∈ (s.tile t).ctrl.submitted, answered (s.tile t).ctrl r) ∧
    (s.tile t).ctrl.queue = [] ∧ (s.tile t).ctrl.handed = none ∧ (s.tile t).ctrl.bus = [] ∧
    (s.tile t).ctrl.pending = [] := by
  have hi := sysInv_run h0.good as s hrun
  have he := tileEnd_run as s hrun t
  have hcores := (hi.tile t).halting (Or.inr hh)
  have hph : ∀ k < cfg.cores, ((s.tile t).core k).phase = .halted := by
    intro k hk
    have := hcores k hk
    unfold CorePhase.isHalted at this
    split at this
    · assumption
    · cases this
  have hst : s.net.stopper t = .stopped := he.router hh
  have hrunning := (hi.tile t).stopped hh
  obtain ⟨bs, hb⟩ := hi.net
  have hsender : s.net.sender t = .idle := by
    have := netStop_run cfg.net bs _ hb t
    rw [hst] at this
    exact this
  have hans := answered_of_halting (hi.tile t) hcores (by
    intro id hw
    have : (s.tile t).phase.inService = true := by
      cases hp : (s.tile t).phase <;> rw [hp] at hw <;> first | rfl | exact hw.elim
    rw [(hi.tile t).service this] at hrunning
    cases hrunning)
  obtain ⟨h1, h2⟩ := answered_all (ctrlInv_of (h0.good t) (hi.tile t).ctrl).line hans
  simp only [Ctrl.line, List.append_eq_nil_iff] at h1
  exact ⟨fun k hk => ⟨hph k hk, he.hlt k (Or.inr (hph k hk))⟩, hst, hi.queue t hst, hsender, hrunning, hans, h1.2,
    by simpa using h1.1.2, h1.1.1, h2⟩

example : (.halted ∈ (demoRun.2.tile 0).log) ∧ .halted ∈ (demoRun.2.tile 1).log := by decide +kernel

example := C45_halted demoSys demoInit demoInit_ok demoRun.1 demoRun.2 demoRun_runs 1 (by decide +kernel)

/-- C45: stopping the controller fails no request: once the router of the tile has stopped, the last step of
Halt succeeds. -/
theorem C45_stop_fails_nothing (cfg : SysCfg) (i : SysInit) (h0 : i.ok) (as : List SysAct) (s : Sys)
    (hrun : i.start.run cfg as = some s) (hc : s.crashed = none) (t : Nat) (ht : t < cfg.net.tiles)
    (hp : (s.tile t).phase = .haltRouter) (hst : s.net.stopper t = .stopped) :
    ∃ s', s.act cfg (.tile t) = some s' ∧ s'.crashed = none ∧ (s'.tile t).log = (s.tile t).log ++ [.halted] ∧
      (s'.tile t).phase = .ready ∧ (s'.tile t).ctrl.answers = (s.tile t).ctrl.answers ∧
      (s'.tile t).ctrl.mem = (s.tile t).ctrl.mem := by
  have hi := sysInv_run h0.good as s hrun
  have hcc := (hi.alive hc).2 t
  have hans := answered_of_halting (hi.tile t) ((hi.tile t).halting (Or.inl hp)) (by
    intro id hw; rw [hp] at hw; cases hw)
  have hpend := (answered_all (ctrlInv_of (h0.good t) (hi.tile t).ctrl).line hans).2
  have hstop : ∃ c', (s.tile t).ctrl.act cfg.edramLat .stop = some c' ∧ c'.crashed = none ∧
      c'.answers = (s.tile t).ctrl.answers ∧ c'.mem = (s.tile t).ctrl.mem := by
    unfold Ctrl.act
    rw [if_neg (by simp [hcc])]
    dsimp only
    unfold Ctrl.stop
    split
    · exact ⟨_, rfl, hcc, rfl, rfl⟩
    · dsimp only
      rw [if_pos hpend]
      exact ⟨_, rfl, hcc, rfl, rfl⟩
  obtain ⟨c', h1, h2, h3, h4⟩ := hstop
  refine ⟨?_, ?_, ?_⟩
  rotate_left
  · unfold Sys.act
    rw [if_neg (by simp [hc])]
    dsimp only
    rw [if_pos ht]
    unfold Sys.tileStep
    dsimp only
    rw [hp]
    dsimp only
    rw [hst]
    dsimp only
    unfold Sys.ctrlAct
    rw [h1]
    dsimp only [Option.map_some]
    rw [h2]
  · dsimp only
    refine ⟨hc, ?_, ?_, ?_, ?_⟩
    all_goals simp only [Sys.logPhase, Sys.setTile, upd_same]
    · exact h3
    · exact h4

/-- Tile 1 is about to stop its controller. -/
def aboutToStop (s : Sys) : Bool :=
  decide ((s.tile 1).phase = .haltRouter) && decide (s.net.stopper 1 = .stopped)

def stopRun : List SysAct × Sys := Sys.auto demoSys aboutToStop twoTiles twoClocks 200 demoInit.start

example := C45_stop_fails_nothing demoSys demoInit demoInit_ok stopRun.1 stopRun.2
  (auto_runs demoSys aboutToStop twoTiles twoClocks 200 demoInit.start) (by decide +kernel) 1 (by decide)
  (by decide +kernel) (by decide +kernel)

/-! ## C46: a core uses the DRAM sequentially -/

/-- C46: a core (and the tile process, `core = -1`) has at most one request that has not been answered. -/
theorem C46_one_outstanding (cfg : SysCfg) (i : SysInit) (h0 : i.ok) (as : List SysAct) (s : Sys)
    (hrun : i.start.run cfg as = some s) (t : Nat) (r r' : Req)
    (hr : r ∈ (s.tile t).ctrl.submitted) (hr' : r' ∈ (s.tile t).ctrl.submitted)
    (ha : ¬answered (s.tile t).ctrl r) (ha' : ¬answered (s.tile t).ctrl r') (hc : r.core = r'.core) : r = r' := by
  have hi := sysInv_run h0.good as s hrun
  have hline := (ctrlInv_of (h0.good t) (hi.tile t).ctrl).line
  have hid : r.id = r'.id := by
    have tileOne : ∀ {p : TilePhase} {a b : Nat}, p.waits a → p.waits b → a = b := by
      intro p a b h1 h2
      cases p <;> simp only [TilePhase.waits] at h1 h2 <;> omega
    have coreOne : ∀ {p : CorePhase} {a b : Nat}, p.waits a → p.waits b → a = b := by
      intro p a b h1 h2
      cases p <;> simp only [CorePhase.waits] at h1 h2 <;> omega
    rcases (hi.tile t).owner r hr with h | ⟨h1, h2⟩ | ⟨k, -, h1, h2⟩
    · exact absurd h ha
    · rcases (hi.tile t).owner r' hr' with h | ⟨h3, h4⟩ | ⟨k', -, h3, h4⟩
      · exact absurd h ha'
      · exact tileOne h2 h4
      · omega
    · rcases (hi.tile t).owner r' hr' with h | ⟨h3, h4⟩ | ⟨k', -, h3, h4⟩
      · exact absurd h ha'
      · omega
      · have : k = k' := by omega
        subst this
        exact coreOne h2 h4
  have h1 := (submitted_mem _ hline r hr).2
  have h2 := (submitted_mem _ hline r' hr').2
  rw [hid, h2] at h1
  injection h1 with h1
  exact h1.symm

/-- The load of tile 1 and the write of its Recv are both waiting to be answered. -/
def twoOpen (s : Sys) : Bool :=
  decide ((s.tile 1).ctrl.submitted.length = 2) && decide ((s.tile 1).ctrl.answers = [])

def openRun : List SysAct × Sys := Sys.auto demoSys twoOpen twoTiles twoClocks 200 demoInit.start

example : twoOpen openRun.2 = true := by decide +kernel
example : (openRun.2.tile 1).ctrl.submitted = [⟨0, 0, 2, .read 2 2, 0⟩, demoWrite] := by decide +kernel
-- the waiting request of core 0 is the only one
example (r : Req) (hr : r ∈ (openRun.2.tile 1).ctrl.submitted) (hc : r.core = 0) : r = ⟨0, 0, 2, .read 2 2, 0⟩ :=
  have hno : ∀ r, ¬answered (openRun.2.tile 1).ctrl r := by
    have : (openRun.2.tile 1).ctrl.answers = [] := by decide +kernel
    rintro r ⟨a, ha, -⟩
    rw [this] at ha; cases ha
  C46_one_outstanding demoSys demoInit demoInit_ok openRun.1 openRun.2
    (auto_runs demoSys twoOpen twoTiles twoClocks 200 demoInit.start) 1 r _ hr (by decide +kernel) (hno _) (hno _) hc

/-- C46: when a core is about to execute its next operation, it is in the state that its program leads to when
executed operation by operation (`coreRan`): the registers of every load are written, with the data that a read
of its address has returned, and every store has been applied to the DRAM. -/
theorem C46_sequential (cfg : SysCfg) (i : SysInit) (h0 : i.ok) (as : List SysAct) (s : Sys)
    (hrun : i.start.run cfg as = some s) (t k : Nat) (hp : ((s.tile t).core k).phase = .ready) :
    coreRan cfg.fl (cfg.noise t k) 0 (i.core t k) (i.prog t k) ((s.tile t).core k).log
      ((s.tile t).core k).core ((s.tile t).core k).prog ∧
    (∀ e ∈ ((s.tile t).core k).log, ∀ dest read w v, e.op = .load dest read w v →
      ∃ r tm, .read r tm e.data ∈ (s.tile t).ctrl.answers ∧ r.start = e.addr ∧ r.kind = .read w v) ∧
    (∀ e ∈ ((s.tile t).core k).log, ∀ dest read w v, e.op = .store dest read w v →
      ∃ r tm, .wrote r tm ∈ (s.tile t).ctrl.answers ∧ r.start = e.addr ∧ r.kind = .write e.data v.toNat) := by
  have hi := sysInv_run h0.good as s hrun
  have hc := (hi.tile t).cores k
  obtain ⟨cv, rest, h1, h2⟩ := hc.ran
  unfold CorePhaseOk at h2
  rw [hp] at h2
  refine ⟨by rw [h2.1, h2.2]; exact h1, hc.loads, fun e he dest read w v hop => ?_⟩
  rcases hc.stores e he dest read w v hop with h3 | h3
  · exact h3
  · rw [hp] at h3; cases h3

/-- Core 0 of tile 0 has executed its store. -/
def storeAnswered (s : Sys) : Bool :=
  decide (((s.tile 0).core 0).phase = .ready) && decide (((s.tile 0).core 0).log.length = 4)

def storeRun : List SysAct × Sys := Sys.auto demoSys storeAnswered twoTiles twoClocks 200 demoInit.start

example : storeAnswered storeRun.2 = true := by decide +kernel
example := C46_sequential demoSys demoInit demoInit_ok storeRun.1 storeRun.2
  (auto_runs demoSys storeAnswered twoTiles twoClocks 200 demoInit.start) 0 0 (by decide +kernel)

/-- **C46, time of an operation.** An operation of a core whose duration is unknown (no table entry) or negative
is not executed: the simulation ends with an exception and no tile has changed. For Load and Store the duration in
question is that of the register accesses. -/
theorem C46_no_time (cfg : SysCfg) (s s' : Sys) (t k : Nat) (op : CoreOp) (rest : List CoreOp)
    (hp : ((s.tile t).core k).phase = .ready) (hq : ((s.tile t).core k).prog = op :: rest)
    (h : s.act cfg (.core t k) = some s') :
    (∀ dest read w v, op = .store dest read w v → cfg.dataMemLat * v < 0 →
      s'.crashed.isSome = true ∧ s'.tile = s.tile) ∧
    ((∀ dest read w v, op ≠ .load dest read w v) → (∀ dest read w v, op ≠ .store dest read w v) →
      (∀ d, cfg.execLat op = .ok d → d < 0) → s'.crashed.isSome = true ∧ s'.tile = s.tile) := by
  simp only [Sys.act] at h
  split at h
  · cases h
  split at h
  swap
  · cases h
  unfold Sys.coreStep at h
  simp only [hp, hq] at h
  constructor
  · rintro dest read w v rfl hv
    simp only [Sys.coreStart, badDelay, hv, if_true] at h
    split at h <;> · cases h; exact ⟨rfl, rfl⟩
  · intro h1 h2 hd
    have hb : ∃ e, badDelay (cfg.execLat op) = some e := by
      cases he : cfg.execLat op with
      | error e => exact ⟨e, rfl⟩
      | ok d => exact ⟨.valueError, if_pos (hd d he)⟩
    obtain ⟨e, hb⟩ := hb
    unfold Sys.coreStart at h
    dsimp only at h
    split at h
    · exact absurd rfl (h1 _ _ _ _)
    · exact absurd rfl (h2 _ _ _ _)
    · split at h
      · cases h; exact ⟨rfl, rfl⟩
      · rw [hb] at h; cases h; exact ⟨rfl, rfl⟩

/-- Every operation has an unknown duration, stores a negative one. -/
def noTimeSys : SysCfg := { demoSys with dataMemLat := -1, execLat := fun _ => .error .typeError }

example (s' : Sys) (h : demoInit.start.act noTimeSys (.core 0 0) = some s') :=
  (C46_no_time noTimeSys demoInit.start s' 0 0 (.set 16 4 1) _ rfl rfl h).2 (by simp) (by simp) (by simp [noTimeSys])
example : (demoInit.start.act noTimeSys (.core 0 0)).map Sys.crashed = some (some .typeError) := by decide +kernel

/-- The same for a Load whose data has arrived. -/
theorem C46_no_time_load (cfg : SysCfg) (s s' : Sys) (t k id : Nat) (addr dest read w v : Int)
    (hp : ((s.tile t).core k).phase = .loadWait id addr dest read w v) (hv : cfg.dataMemLat * v < 0)
    (h : s.act cfg (.core t k) = some s') : s'.crashed.isSome = true ∧ s'.tile = s.tile := by
  simp only [Sys.act] at h
  split at h
  · cases h
  split at h
  swap
  · cases h
  unfold Sys.coreStep at h
  simp only [hp, badDelay, hv, if_true] at h
  split at h
  · cases h
  · cases h; exact ⟨rfl, rfl⟩

/-! ## C41: a program that never finishes although every Send has its Recv -/

/-- C41: tile 0 sends two packets to tile 1 and then one to tile 2; tile 2 receives it and then sends one to
tile 1; tile 1 receives that one first and then the two from tile 0. Every Send has a Recv of the same shape,
but no run of the program ever finishes, whatever the latencies: the packet for tile 2 stays behind the second
packet for tile 1. -/
theorem C41_deadlock (cfg : SysCfg) (i : SysInit) (h0 : i.ok) (a0 a1 a2 b0 b1 b2 c0 c1 w0 w1 w2 w3 : Int)
    (hops0 : i.ops 0 = [.send a0 1 w0 1, .send a1 1 w1 1, .send a2 2 w2 1, .halt])
    (hops1 : i.ops 1 = [.receive b0 2 w3 1, .receive b1 0 w0 1, .receive b2 0 w1 1, .halt])
    (hops2 : i.ops 2 = [.receive c0 0 w2 1, .send c1 1 w3 1, .halt])
    (h3 : 3 ≤ cfg.net.tiles) :
    (∀ x < 3, ∀ y < 3, sendShapes y (i.ops x) = recvShapes x (i.ops y)) ∧
    ∀ as s, i.start.run cfg as = some s →
      (s.tile 1).log = [] ∧ (s.tile 2).log = [] ∧ ¬finished cfg s := by
  constructor
  · intro x hx y hy
    match x, y, hx, hy with
    | 0, 0, _, _ => rw [hops0]; simp [sendShapes, recvShapes]
    | 0, 1, _, _ => rw [hops0, hops1]; simp [sendShapes, recvShapes]
    | 0, 2, _, _ => rw [hops0, hops2]; simp [sendShapes, recvShapes]
    | 1, 0, _, _ => rw [hops0, hops1]; simp [sendShapes, recvShapes]
    | 1, 1, _, _ => rw [hops1]; simp [sendShapes, recvShapes]
    | 1, 2, _, _ => rw [hops1, hops2]; simp [sendShapes, recvShapes]
    | 2, 0, _, _ => rw [hops0, hops2]; simp [sendShapes, recvShapes]
    | 2, 1, _, _ => rw [hops1, hops2]; simp [sendShapes, recvShapes]
    | 2, 2, _, _ => rw [hops2]; simp [sendShapes, recvShapes]
  · intro as s hrun
    have key : (SysInv cfg i s ∧ SentInOrder (s.net.view 0) (s.tile 0)) ∧ NothingReceived s := by
      refine sys_run_induction (P := fun s => (SysInv cfg i s ∧ SentInOrder (s.net.view 0) (s.tile 0)) ∧
        NothingReceived s) ?_ as _ s ?_ hrun
      · rintro s s' ⟨⟨hs, ho⟩, hn⟩ st
        refine ⟨⟨sysInv_step h0.good s s' hs st, ?_⟩, deadlock_step hops0 hops1 hops2 hs ho hn st⟩
        rcases st.tile 0 with ⟨h1, h2⟩ | ⟨-, h1⟩
        · rw [h1, h2]; exact ho
        · exact sentInOrder_step ho h1
      · exact ⟨⟨sysInv_run h0.good [] _ rfl, rfl⟩, rfl, rfl⟩
    refine ⟨key.2.1, key.2.2, fun hf => ?_⟩
    have := (finished_tile key.1.1 hf (t := 1) (by omega)).1
    rw [key.2.1, hops1] at this
    simp [tileRan] at this

example := C41_deadlock threeSys blockInit (fun _ => ⟨rfl, rfl⟩) 0 2 4 0 2 4 0 2 2 2 2 2 rfl rfl rfl (by decide)

/-- With the Recvs of tile 1 in another order the program finishes. -/
example : allHalted unblockRun.2 = true := by decide +kernel

end Ramwich
