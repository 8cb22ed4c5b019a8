import Verif.Lemmas.ClockRun

/-! # The start of the check with the clock -/
namespace Ramwich

open Pipeline Spec

variable {cfg : SysCfg} {cc : Config} {p : CoreParams} {q : ClockPar} {size : Nat} {valid : Nat → Nat} {i : SysInit}

theorem left_init (prog : List CoreOp) : left (Timed.init prog 0) = prog := rfl

theorem clock_start (ht : q.tiles = cfg.net.tiles) (hk : q.cores = cfg.cores) (h0 : i.ok)
    (hsz : ∀ t < cfg.net.tiles, (i.mem t).size = size)
    (hv : ∀ t < cfg.net.tiles, ∀ a, (i.valid t).getD a false = (valid t).testBit a)
    (hc : ∀ t < cfg.net.tiles, ∀ k < cfg.cores, CoreOk cc (i.core t k))
    (hl : ∀ t < cfg.net.tiles, ∀ k < cfg.cores, ∀ op ∈ i.prog t k, LatOk cfg q op) {A : DNode}
    (hA : clockStart q p valid i.prog i.ops = some A) : NodeR cfg cc p q size A i.fstart := by
  unfold clockStart at hA
  obtain ⟨d, hd, rfl⟩ := Option.map_eq_some_iff.1 hA
  rw [ht, hk] at hd
  obtain ⟨h1, h2⟩ := mapM_some _ _ hd
  rw [List.length_range] at h1
  refine ⟨rfl, rfl, rfl, rfl, h1, fun t x hx => ?_⟩
  obtain ⟨t', h3, h4⟩ := h2 t x hx
  obtain ⟨rfl, htt⟩ := range_some h3
  simp only [Option.pure_def, Option.bind_eq_bind, Option.bind_eq_some_iff, Option.some.injEq] at h4
  obtain ⟨cs, h4, rfl⟩ := h4
  obtain ⟨k1, k2⟩ := mapM_some _ _ h4
  rw [List.length_range] at k1
  exact {
    ctrl := {
      crashed := rfl, now := rfl, running := rfl, alive := rfl, queue := rfl, handed := rfl, pending := rfl, bus := rfl
      deadline := rfl, next := rfl
      ok := fun r hr => by cases hr
      nodup := List.nodup_nil
      ids := fun x hx => by cases hx
      fresh := fun r hr => by cases hr
      msize := hsz t' htt
      clen := (h0 t').1.trans (hsz t' htt)
      vlen := (h0 t').2.trans (hsz t' htt)
      bits := fun a _ => hv t' htt a
      reads := fun id => by
        show (0 : Nat).testBit id = false
        exact Nat.zero_testBit id
      writes := fun id => by
        show (0 : Nat).testBit id = false
        exact Nat.zero_testBit id }
    ncores := k1
    cores := fun k y hy => by
      obtain ⟨k', j1, j2⟩ := k2 k y hy
      obtain ⟨rfl, hkc⟩ := range_some j1
      obtain ⟨e, j3, rfl⟩ := Option.map_eq_some_iff.1 j2
      obtain ⟨e1, σ, e2⟩ := hc t' htt k' hkc
      exact ⟨rfl, rfl, hl t' htt k' hkc, rfl, [], ⟨e1, σ, e2, knows_nil _ _⟩, j3⟩
    ops := rfl
    phase := rfl
    queue := .nil
    sender := rfl
    buflen := List.length_replicate
    buf := fun s => by
      show [] = _
      rw [List.getD_eq_getElem?_getD, List.getElem?_replicate]
      split <;> rfl
    reader := rfl
    adds := rfl
    adding := rfl
    stopper := rfl
    check := rfl
    sent := rfl
    active := rfl
    wake := Nat.zero_le _ }

end Ramwich
