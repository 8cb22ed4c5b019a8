import Verif.Spec.SysRest

/-! # Latencies with which a simulation can run -/
namespace Ramwich.Spec

/-- The latencies are there and not negative for the operations of the programs, and there is a node. -/
structure latenciesOk (cfg : SysCfg) (i : SysInit) : Prop where
  edram : 0 ≤ cfg.edramLat
  dataMem : 0 ≤ cfg.dataMemLat
  exec : ∀ t < cfg.net.tiles, ∀ k < cfg.cores, ∀ op ∈ i.prog t k,
    match op with
    | .load _ _ _ vec => 0 ≤ vec
    | .store .. => True
    | op => ∃ d, cfg.execLat op = .ok d ∧ 0 ≤ d
  net : ∃ l, cfg.net.intraLat = some l ∧ 0 ≤ l
  nodes : 1 ≤ cfg.net.nodes

end Ramwich.Spec
