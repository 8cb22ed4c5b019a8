import Verif.Spec.System

/-! # A node in which nothing happens any more -/
namespace Ramwich.Spec

/-- From here on nothing happens except that time passes. -/
def atRest (cfg : SysCfg) (s : Sys) : Prop :=
  ∀ as s', s.run cfg as = some s' → ∀ a ∈ as, ∃ t, a = .ctrl t .tick

/-- A read waits although all its words are valid: `_update_ready_requests` has skipped it (see C32). -/
def strandedRead (cfg : SysCfg) (s : Sys) : Prop :=
  ∃ t < cfg.net.tiles, ∃ r ∈ (s.tile t).ctrl.pending, ready (s.tile t).ctrl.valid r = true

/-- A core program with a load. -/
def hasLoad (prog : List CoreOp) : Prop := ∃ dest read width vec, .load dest read width vec ∈ prog

/-- A tile program with a Send. -/
def hasSend (ops : List TileOp) : Prop := ∃ addr target width vec, .send addr target width vec ∈ ops

/-- On every tile at most one process reads from the DRAM: either one core has loads or the tile process has
Sends. -/
def oneReader (cfg : SysCfg) (i : SysInit) : Prop :=
  ∀ t < cfg.net.tiles,
    (∀ k < cfg.cores, ∀ j < cfg.cores, hasLoad (i.prog t k) → hasLoad (i.prog t j) → k = j) ∧
    (hasSend (i.ops t) → ∀ k < cfg.cores, ¬hasLoad (i.prog t k))

end Ramwich.Spec
