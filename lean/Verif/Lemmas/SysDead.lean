import Verif.Lemmas.SysDet

/-! # A program that cannot finish: tile 0 has a packet for tile 2 behind two packets for tile 1 -/
namespace Ramwich

open Spec

/-- Tiles 1 and 2 have got nothing. -/
def NothingReceived (s : Sys) : Prop := (s.tile 1).log = [] ∧ (s.tile 2).log = []

/-- The log of tile 0 when it has sent to tile 2. -/
theorem tile0_log {a0 a1 a2 w0 w1 w2 : Int} {log : List TileEv} {st}
    (h : tileRan (.send a0 1 w0 1 :: .send a1 1 w1 1 :: .send a2 2 w2 1 :: [.halt], []) log = some st) :
    (∃ rows0 rows1 rows2 more, log = .sent a0 1 w0 1 rows0 :: .sent a1 1 w1 1 rows1 :: .sent a2 2 w2 1 rows2 :: more ∧
      allSent more = []) ∨
    ∀ p ∈ allSent log, p.1 = 1 := by
  cases log with
  | nil => right; simp [allSent]
  | cons e0 log =>
    obtain ⟨st0, h0, h⟩ := tileRan_cons h
    rcases tileNext_cases h0 with ⟨a, t, w, v, rows0, r, he, -, rfl, rfl⟩ | ⟨_, _, _, _, _, _, he, _⟩ |
      ⟨_, _, _, _, _, he, _⟩ | ⟨_, he, _⟩ <;> try cases he
    cases log with
    | nil => right; simp [allSent]
    | cons e1 log =>
      obtain ⟨st1, h1, h⟩ := tileRan_cons h
      rcases tileNext_cases h1 with ⟨a, t, w, v, rows1, r, he, -, rfl, rfl⟩ | ⟨_, _, _, _, _, _, he, _⟩ |
        ⟨_, _, _, _, _, he, _⟩ | ⟨_, he, _⟩ <;> try cases he
      cases log with
      | nil => right; simp [allSent]; rintro a b (⟨-, rfl⟩ | ⟨-, rfl⟩) <;> rfl
      | cons e2 log =>
        obtain ⟨st2, h2, h⟩ := tileRan_cons h
        rcases tileNext_cases h2 with ⟨a, t, w, v, rows2, r, he, -, rfl, rfl⟩ | ⟨_, _, _, _, _, _, he, _⟩ |
          ⟨_, _, _, _, _, he, _⟩ | ⟨_, he, _⟩ <;> try cases he
        refine Or.inl ⟨rows0, rows1, rows2, log, rfl, ?_⟩
        cases log with
        | nil => rfl
        | cons e3 log =>
          obtain ⟨st3, h3, h⟩ := tileRan_cons h
          rcases tileNext_cases h3 with ⟨_, _, _, _, _, _, he, _⟩ | ⟨_, _, _, _, _, _, he, _⟩ |
            ⟨_, _, _, _, _, he, _⟩ | ⟨r, he, -, rfl, rfl⟩ <;> try cases he
          cases log with
          | nil => rfl
          | cons e4 log =>
            obtain ⟨st4, h4, h⟩ := tileRan_cons h
            rcases tileNext_cases h4 with ⟨_, _, _, _, _, _, he, _⟩ | ⟨_, _, _, _, _, _, he, _⟩ |
              ⟨_, _, _, _, _, he, _⟩ | ⟨r, he, -, rfl, rfl⟩ <;> cases he

/-- If tile 1 takes nothing from tile 0, the packet for tile 2 is not delivered. -/
theorem behind_two {L : List Packet} {sfx : List Packet} {b1 b2 : List (List I32)} {x y z : List I32}
    (hL : L.map (fun p => (p.target, p.data)) = [(1, x), (1, y), (2, z)]) (hs : sfx <:+ L)
    (h1 : dataTo 1 L = b1 ++ dataTo 1 sfx) (hb1 : b1.length ≤ 1) (h2 : dataTo 2 L = b2 ++ dataTo 2 sfx) :
    b2 = [] := by
  obtain ⟨p1, p2, p3, rfl, t1, t2, t3⟩ : ∃ p1 p2 p3 : Packet, L = [p1, p2, p3] ∧ p1.target = 1 ∧ p2.target = 1 ∧
      p3.target = 2 := by
    have hlen := congrArg List.length hL
    simp only [List.length_map, List.length_cons, List.length_nil] at hlen
    obtain ⟨p1, p2, p3, rfl⟩ := List.length_eq_three.1 hlen
    simp only [List.map_cons, List.map_nil, List.cons.injEq, Prod.mk.injEq] at hL
    exact ⟨p1, p2, p3, rfl, hL.1.1, hL.2.1.1, hL.2.2.1.1⟩
  have e1 : dataTo 1 [p1, p2, p3] = [p1.data, p2.data] := by simp [dataTo, t1, t2, t3]
  have e2 : dataTo 2 [p1, p2, p3] = [p3.data] := by simp [dataTo, t1, t2, t3]
  rw [e1] at h1
  rw [e2] at h2
  have hsf : sfx = [] ∨ sfx = [p3] ∨ sfx = [p2, p3] ∨ sfx = [p1, p2, p3] := by
    rcases List.suffix_cons_iff.1 hs with h | h
    · exact Or.inr (Or.inr (Or.inr h))
    rcases List.suffix_cons_iff.1 h with h | h
    · exact Or.inr (Or.inr (Or.inl h))
    rcases List.suffix_cons_iff.1 h with h | h
    · exact Or.inr (Or.inl h)
    · exact Or.inl (List.suffix_nil.1 h)
  have hlen1 := congrArg List.length h1
  have hlen2 := congrArg List.length h2
  rw [List.length_append] at hlen1 hlen2
  apply List.eq_nil_of_length_eq_zero
  rcases hsf with rfl | rfl | rfl | rfl <;> simp [dataTo, t1, t2, t3] at hlen1 hlen2 <;>
    first | omega | (rw [hlen2]; rfl)

theorem deadlock_step {cfg : SysCfg} {i : SysInit} {a0 a1 a2 b0 b1 b2 c0 c1 w0 w1 w2 w3 : Int}
    (hops0 : i.ops 0 = [.send a0 1 w0 1, .send a1 1 w1 1, .send a2 2 w2 1, .halt])
    (hops1 : i.ops 1 = [.receive b0 2 w3 1, .receive b1 0 w0 1, .receive b2 0 w1 1, .halt])
    (hops2 : i.ops 2 = [.receive c0 0 w2 1, .send c1 1 w3 1, .halt])
    {s s' : Sys} (hs : SysInv cfg i s) (hord : SentInOrder (s.net.view 0) (s.tile 0))
    (h : NothingReceived s) (st : SysStep cfg s s') : NothingReceived s' := by
  have hrd1 : takenFrom 0 (s.net.reader 1) = [] := by
    have hin := (hs.tile 1).tile
    have hr := hin.reader
    rw [show (s.net.view 1).reader = s.net.reader 1 from rfl] at hr
    obtain ⟨rs, got, h1, h2⟩ := hin.ran
    rw [h.1, hops1] at h1
    simp only [tileRan, Option.some.injEq, Prod.mk.injEq] at h1
    cases hp : (s.tile 1).phase with
    | recvWait a sr w v g =>
      rw [hp] at hr h2
      have h3 := h2.1
      rw [← h1.1] at h3
      injection h3 with h3 _
      injection h3 with _ h3
      subst h3
      rcases hr with hr | ⟨z, hr⟩ <;> rw [hr] <;> rfl
    | _ => rw [hp] at hr; rw [show s.net.reader 1 = .idle from hr]; rfl
  refine ⟨?_, ?_⟩
  · rcases st.tile 1 with ⟨h1, -⟩ | ⟨-, h1⟩
    · rw [h1]; exact h.1
    have hin := (hs.tile 1).tile
    obtain ⟨rs, got, hran, hok⟩ := hin.ran
    rw [h.1, hops1] at hran
    simp only [tileRan, Option.some.injEq, Prod.mk.injEq] at hran
    obtain ⟨hr1, hr2⟩ := hran
    have hlog := h.1
    have hrows := rows_prefix hs 2 1
    rw [h.1, h.2] at hrows
    have hreader : (s.net.view 1).reader = s.net.reader 1 := rfl
    have hrok := hin.reader
    generalize s'.tile 1 = x' at h1 ⊢
    generalize s.net.view 1 = v at *
    generalize s'.net.view 1 = v' at h1
    cases h1 with
    | sendGot id addr target width vec data hp ha hw hv' =>
      rw [hp] at hok
      have := hok.1
      rw [← hr1] at this
      cases this
    | recvRow addr source width vec g src data hp hr =>
      exfalso
      rw [hp] at hok hrok
      have := hok.1
      rw [← hr1] at this
      injection this with this _
      injection this with _ this
      subst this
      rw [hr] at hrok
      rcases hrok with hrok | ⟨z, hrok⟩
      · cases hrok
      · rw [← hreader, hr, hrok] at hrows
        simp [takenFrom, rowsFrom, rowsTo] at hrows
    | recvAll addr source width vec g c' hp hg hc hn =>
      exfalso
      rw [hp] at hok
      have h3 := hok.1
      rw [← hr1] at h3
      injection h3 with h3 _
      injection h3 with _ _ _ h3
      subst h3
      have h4 := hok.2.1
      rw [← hr2] at h4
      subst h4
      simp at hg
    | haltEnd c' hp hst hc hn =>
      rw [hp] at hok
      have := hok.1
      rw [← hr1] at this
      cases this
    | _ => exact hlog
  · rcases st.tile 2 with ⟨h1, -⟩ | ⟨-, h1⟩
    · rw [h1]; exact h.2
    have hin := (hs.tile 2).tile
    obtain ⟨rs, got, hran, hok⟩ := hin.ran
    rw [h.2, hops2] at hran
    simp only [tileRan, Option.some.injEq, Prod.mk.injEq] at hran
    obtain ⟨hr1, hr2⟩ := hran
    have hlog := h.2
    have hreader : (s.net.view 2).reader = s.net.reader 2 := rfl
    have hrok := hin.reader
    generalize s'.tile 2 = x' at h1 ⊢
    generalize s.net.view 2 = v at *
    generalize s'.net.view 2 = v' at h1
    cases h1 with
    | sendGot id addr target width vec data hp ha hw hv' =>
      rw [hp] at hok
      have := hok.1
      rw [← hr1] at this
      cases this
    | recvRow addr source width vec g src data hp hr =>
      exfalso
      rw [hp] at hok hrok
      have := hok.1
      rw [← hr1] at this
      injection this with this _
      injection this with _ this
      subst this
      rw [hr] at hrok
      have hsrc : src = 0 := by
        rcases hrok with hrok | ⟨z, hrok⟩
        · cases hrok
        · injection hrok
      subst hsrc
      obtain ⟨nas, hnr⟩ := hs.net
      have hni := netInv_run cfg.net nas _ hnr
      have hsuf := net_suffix_run cfg.net nas _ hnr 0
      have s1 := hni.stream 0 1
      have s2 := hni.stream 0 2
      have hl1 : s.net.readLog 1 0 = [] := by
        have := (hs.tile 1).tile.reads 0
        rw [h.1] at this
        exact this.symm
      rw [hl1, hrd1, List.append_assoc, ← dataTo_append] at s1
      rw [← hreader, hr, List.append_assoc, ← dataTo_append] at s2
      simp only [List.nil_append] at s1
      obtain ⟨rs0, got0, hran0, -⟩ := (hs.tile 0).tile.ran
      rw [hops0] at hran0
      have htodo : (s.net.sent 0).map (fun p => (p.target, p.data)) <+: allSent (s.tile 0).log :=
        ⟨_, hord.symm⟩
      -- a packet for tile 2 has been sent
      have hmem : ∃ p ∈ s.net.sent 0, p.target = 2 := by
        have : dataTo 2 (s.net.sent 0) ≠ [] := by rw [s2]; simp [takenFrom]
        unfold dataTo at this
        rw [Ne, List.map_eq_nil_iff] at this
        obtain ⟨p, hp⟩ := List.exists_mem_of_ne_nil _ this
        simp only [List.mem_filter, decide_eq_true_eq] at hp
        exact ⟨p, hp.1, hp.2⟩
      obtain ⟨p, hp1, hp2⟩ := hmem
      rcases tile0_log hran0 with ⟨rows0, rows1, rows2, more, hlog0, hmore⟩ | hall
      · have hlen : ∀ a tg w (rows : List (List I32)), .sent a tg w 1 rows ∈ (s.tile 0).log → ∃ x, rows = [x] := by
          intro a tg w rows hm
          obtain ⟨-, -, r, tm, data, -, -, -, hrows⟩ := (hs.tile 0).tile.sent a tg w 1 rows hm
          have := reshape_length 1 w.toNat data
          rw [show (1 : Int).toNat = 1 from rfl] at hrows
          rw [← hrows] at this
          exact List.length_eq_one_iff.1 this
        obtain ⟨x, rfl⟩ := hlen a0 1 w0 rows0 (by rw [hlog0]; simp)
        obtain ⟨y, rfl⟩ := hlen a1 1 w1 rows1 (by rw [hlog0]; simp)
        obtain ⟨z, rfl⟩ := hlen a2 2 w2 rows2 (by rw [hlog0]; simp)
        have hall : allSent (s.tile 0).log = [(1, x), (1, y), (2, z)] := by
          rw [hlog0]
          have : allSent (.sent a0 1 w0 1 [x] :: .sent a1 1 w1 1 [y] :: .sent a2 2 w2 1 [z] :: more) =
            [(1, x), (1, y), (2, z)] ++ allSent more := by simp [allSent]
          rw [this, hmore, List.append_nil]
        rw [hall] at htodo
        have hL : (s.net.sent 0).map (fun p => (p.target, p.data)) = [(1, x), (1, y), (2, z)] := by
          obtain ⟨m, hm⟩ := htodo
          match hsent : (s.net.sent 0), hm with
          | [], _ => rw [hsent] at hp1; cases hp1
          | [q1], hm =>
            rw [hsent] at hp1
            simp only [List.mem_singleton] at hp1
            subst hp1
            simp only [List.map_cons, List.map_nil, List.cons_append, List.cons.injEq, Prod.mk.injEq] at hm
            have := hm.1.1
            omega
          | [q1, q2], hm =>
            rw [hsent] at hp1
            simp only [List.map_cons, List.map_nil, List.cons_append, List.cons.injEq, Prod.mk.injEq] at hm
            have t1 := hm.1.1
            have t2 := hm.2.1.1
            rcases List.mem_cons.1 hp1 with rfl | hp1
            · omega
            · rw [List.mem_singleton.1 hp1] at hp2
              omega
          | q1 :: q2 :: q3 :: qs, hm =>
            simp only [List.map_cons, List.cons_append, List.cons.injEq, List.append_eq_nil_iff,
              List.map_eq_nil_iff] at hm
            obtain ⟨e1, e2, e3, rfl, -⟩ := hm
            simp [e1, e2, e3]
        have := behind_two hL hsuf s1 (by simpa using hni.cap 1 0) s2
        simp [takenFrom] at this
      · have := hall _ (htodo.subset (List.mem_map_of_mem hp1))
        dsimp only at this
        omega
    | recvAll addr source width vec g c' hp hg hc hn =>
      exfalso
      rw [hp] at hok
      have h3 := hok.1
      rw [← hr1] at h3
      injection h3 with h3 _
      injection h3 with _ _ _ h3
      subst h3
      have h4 := hok.2.1
      rw [← hr2] at h4
      subst h4
      simp at hg
    | haltEnd c' hp hst hc hn =>
      rw [hp] at hok
      have := hok.1
      rw [← hr1] at this
      cases this
    | _ => exact hlog

end Ramwich
