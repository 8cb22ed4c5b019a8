import Verif.Spec.TimedSystem
import Verif.Props.SystemDemo

/-! # A scheduler for nodes with pipelines, and example runs

The properties are in `Props/TimedSystem.lean`. -/
namespace Ramwich

open Spec

/-- Runs up to `n` actions, always the first possible one of a list, until `stop`. -/
def TSys.auto (cfg : SysCfg) (l : StageLat) (stop : TSys → Bool) (order : List TAct) : Nat → TSys → List TAct × TSys
  | 0, s => ([], s)
  | n + 1, s =>
    if stop s then ([], s)
    else
      match order.findSome? fun a => (s.act cfg l a).map fun s' => (a, s') with
      | none => ([], s)
      | some (a, s') => let r := TSys.auto cfg l stop order n s'; (a :: r.1, r.2)

/-- What the scheduler does is a run. -/
theorem tauto_runs (cfg : SysCfg) (l : StageLat) (stop : TSys → Bool) (order : List TAct) : ∀ (n : Nat) (s : TSys),
    s.run cfg l (TSys.auto cfg l stop order n s).1 = some (TSys.auto cfg l stop order n s).2 := by
  intro n
  induction n with
  | zero => intro s; rfl
  | succ n ih =>
    intro s
    unfold TSys.auto
    by_cases hs : stop s = true
    · rw [if_pos hs]; rfl
    · rw [if_neg hs]
      cases hf : order.findSome? fun a => (s.act cfg l a).map fun s' => (a, s') with
      | none => rfl
      | some p =>
        obtain ⟨a, s'⟩ := p
        dsimp only
        obtain ⟨b, -, hb⟩ := List.exists_of_findSome?_eq_some hf
        simp only [Option.map_eq_some_iff, Prod.mk.injEq] at hb
        obtain ⟨s1, h1, h2, h3⟩ := hb
        subst h2 h3
        simp only [TSys.run, h1, Option.bind_some]
        exact ih s1

/-- The actions of a core with a pipeline. -/
def coreActs (t k : Nat) : List TAct :=
  [.ret t k, .fin t k, .mid t k, .exec t k] ++
  ([.feedIn, .take 0, .start 0, .finish 0, .putIn 0, .next 0, .take 1, .start 1, .finish 1, .putIn 1, .next 1,
    .take 2, .putIn 2, .next 2, .monitor, .signal] : List Pipeline.PAct).map (.pipe t k)

/-- Actions of two tiles with one core each. -/
def twoPipes : List TAct := coreActs 0 0 ++ coreActs 1 0 ++ (twoTiles.drop 2).map .other ++ [.tick]

/-- Fetch takes one cycle, decode too. -/
def demoStages : StageLat := ⟨1, 1⟩

/-- A run of the program of `demoInit`. -/
def timedRun : List TAct × TSys :=
  TSys.auto demoSys demoStages (fun s => bothHalted s.sys) twoPipes 300 demoInit.tstart

/-- The same program with other latencies and the actions tried in another order. -/
def otherTimedRun : List TAct × TSys :=
  TSys.auto slowSys ⟨3, 2⟩ (fun s => bothHalted s.sys) ((twoTiles.drop 2).map .other ++ coreActs 1 0 ++ coreActs 0 0 ++ [.tick])
    400 demoInit.tstart

/-! ## Nodes at rest -/

def notBusy : Pipeline.Ctl CoreOp → Bool
  | .busy _ => false
  | _ => true

/-- A check for `TSys.still`. -/
def TSys.stillCheck (cfg : SysCfg) (l : StageLat) (s : TSys) : Bool :=
  (List.range cfg.net.tiles).all fun t =>
    ((List.range cfg.cores).all fun k =>
      (s.due t k).isNone && notBusy ((s.pipe t k).st.ctl 0) && notBusy ((s.pipe t k).st.ctl 1) &&
        (coreActs t k).all fun a => (s.act cfg l a).isNone) &&
    ([.thread t, .take t, .tile t, .ctrl t .pick, .ctrl t .dispatch, .ctrl t .grant, .ctrl t .complete] :
      List SysAct).all fun a => (s.act cfg l (.other a)).isNone

theorem still_of_check {cfg : SysCfg} {l : StageLat} {s : TSys} (h : s.stillCheck cfg l = true) : s.still cfg l := by
  unfold TSys.stillCheck at h
  simp only [List.all_eq_true, List.mem_range, Bool.and_eq_true, Option.isNone_iff_eq_none] at h
  have hk : ∀ t k, cfg.hasCore t k = true → s.due t k = none ∧ notBusy ((s.pipe t k).st.ctl 0) = true ∧
      notBusy ((s.pipe t k).st.ctl 1) = true ∧ ∀ a ∈ coreActs t k, s.act cfg l a = none := by
    intro t k hc
    unfold SysCfg.hasCore at hc
    simp only [Bool.and_eq_true, decide_eq_true_eq] at hc
    obtain ⟨⟨⟨h1, h2⟩, h3⟩, h4⟩ := (h t hc.1).1 k hc.2
    exact ⟨h1, h2, h3, h4⟩
  have hnot : ∀ t k a, ¬ cfg.hasCore t k = true → (∀ b, a = .pipe t k b ∨ a = .exec t k ∨ a = .mid t k ∨
      a = .fin t k ∨ a = .ret t k → s.act cfg l a = none) := by
    intro t k a hc b hb
    unfold TSys.act
    split
    · rfl
    · rcases hb with rfl | rfl | rfl | rfl | rfl <;> simp only [hc, if_false, Bool.false_eq_true]
  refine ⟨fun a ha => ?_, fun t k hc => (hk t k hc).1, fun t k hc j hj op ho => ?_⟩
  · cases a with
    | tick => exact absurd rfl ha
    | pipe t k a =>
      by_cases hc : cfg.hasCore t k = true
      · have hm := (hk t k hc).2.2.2
        by_cases hin : (TAct.pipe t k a) ∈ coreActs t k
        · exact hm _ hin
        · unfold TSys.act
          split
          · rfl
          · simp only [hc, if_true]
            unfold TSys.pipeAct
            split
            · rfl
            · rfl
            · cases a with
              | feedIn => exact absurd (by simp [coreActs]) hin
              | monitor => exact absurd (by simp [coreActs]) hin
              | signal => exact absurd (by simp [coreActs]) hin
              | tick => rfl
              | take j =>
                have : ¬ j < 3 := fun hj => hin (by
                  have : j = 0 ∨ j = 1 ∨ j = 2 := by omega
                  rcases this with rfl | rfl | rfl <;> simp [coreActs])
                simp [Pipeline.Timed.move, this]
              | start j =>
                have : ¬ j < 3 := fun hj => by
                  have : j = 0 ∨ j = 1 ∨ j = 2 := by omega
                  rcases this with rfl | rfl | rfl
                  · exact hin (by simp [coreActs])
                  · exact hin (by simp [coreActs])
                  · simp_all
                simp [Pipeline.Timed.move, this]
              | finish j =>
                have : ¬ j < 3 := fun hj => by
                  have : j = 0 ∨ j = 1 ∨ j = 2 := by omega
                  rcases this with rfl | rfl | rfl
                  · exact hin (by simp [coreActs])
                  · exact hin (by simp [coreActs])
                  · simp_all
                simp [Pipeline.Timed.move, this]
              | putIn j =>
                have : ¬ j < 3 := fun hj => hin (by
                  have : j = 0 ∨ j = 1 ∨ j = 2 := by omega
                  rcases this with rfl | rfl | rfl <;> simp [coreActs])
                simp [Pipeline.Timed.move, this]
              | next j =>
                have : ¬ j < 3 := fun hj => hin (by
                  have : j = 0 ∨ j = 1 ∨ j = 2 := by omega
                  rcases this with rfl | rfl | rfl <;> simp [coreActs])
                simp [Pipeline.Timed.move, this]
      · exact hnot t k _ hc a (Or.inl rfl)
    | exec t k =>
      by_cases hc : cfg.hasCore t k = true
      · exact (hk t k hc).2.2.2 _ (by simp [coreActs])
      · exact hnot t k _ hc .tick (by simp)
    | mid t k =>
      by_cases hc : cfg.hasCore t k = true
      · exact (hk t k hc).2.2.2 _ (by simp [coreActs])
      · exact hnot t k _ hc .tick (by simp)
    | fin t k =>
      by_cases hc : cfg.hasCore t k = true
      · exact (hk t k hc).2.2.2 _ (by simp [coreActs])
      · exact hnot t k _ hc .tick (by simp)
    | ret t k =>
      by_cases hc : cfg.hasCore t k = true
      · exact (hk t k hc).2.2.2 _ (by simp [coreActs])
      · exact hnot t k _ hc .tick (by simp)
    | other a =>
      cases a with
      | core t k => unfold TSys.act; split <;> rfl
      | thread t =>
        by_cases ht : t < cfg.net.tiles
        · exact (h t ht).2 _ (by simp)
        · unfold TSys.act; split
          · rfl
          · simp [Sys.act, Sys.netAct, Net.act, NetAct.tile, ht]
      | take t =>
        by_cases ht : t < cfg.net.tiles
        · exact (h t ht).2 _ (by simp)
        · unfold TSys.act; split
          · rfl
          · simp [Sys.act, Sys.netAct, Net.act, NetAct.tile, ht]
      | tile t =>
        by_cases ht : t < cfg.net.tiles
        · exact (h t ht).2 _ (by simp)
        · unfold TSys.act; split
          · rfl
          · simp [Sys.act, ht]
      | ctrl t a =>
        by_cases ht : t < cfg.net.tiles
        · cases a with
          | submit => unfold TSys.act; split <;> simp [Sys.act]
          | tick => unfold TSys.act; split <;> rfl
          | stop => unfold TSys.act; split <;> simp [Sys.act]
          | pick => exact (h t ht).2 _ (by simp)
          | dispatch => exact (h t ht).2 _ (by simp)
          | grant => exact (h t ht).2 _ (by simp)
          | complete => exact (h t ht).2 _ (by simp)
        · unfold TSys.act; split
          · rfl
          · cases a <;> simp [Sys.act, ht]
  · obtain ⟨-, h0, h1, -⟩ := hk t k hc
    have : j = 0 ∨ j = 1 := by omega
    rcases this with rfl | rfl
    · rw [ho] at h0; cases h0
    · rw [ho] at h1; cases h1

/-- Nothing is sent, so the load of core 0 of tile 1 waits for ever. -/
def stuckInit : SysInit := { demoInit with ops := fun _ => [.halt] }

def stuckRun : List TAct × TSys :=
  TSys.auto demoSys demoStages (fun s => s.stillCheck demoSys demoStages && (s.sys.tile 0).log.contains .halted) twoPipes
    300 stuckInit.tstart

end Ramwich
