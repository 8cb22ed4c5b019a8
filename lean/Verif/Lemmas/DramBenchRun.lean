import Verif.Lemmas.DramBench

/-! # The invariant of processes beside a DRAM controller holds in every run -/
namespace Ramwich

open Spec

section
variable {lat : Int} {m0 : Memory} {v0 : List Bool} {t0 : Nat} {scripts : List (List ClientOp)}

theorem benchInv_start (hS : Sound lat m0 v0 scripts) :
    BenchInv lat m0 v0 t0 scripts (Bench.start m0 v0 t0 scripts) := by
  refine ⟨ctrlInv_started lat m0 v0 t0 ⟨hS.cells, hS.valids⟩, rfl, rfl, rfl, ?_, ?_, ?_, ?_, ?_, ?_, ?_⟩
  · intro r hr; simp [Bench.start, Ctrl.started] at hr
  · simp only [Bench.start, List.map_map]
    exact List.map_id _
  · have : (Bench.start m0 v0 t0 scripts).clients.flatMap (fun cl => requests cl.done) = [] := by
      simp [Bench.start, requests]
    rw [this]
    simp [Bench.start, Ctrl.started]
  · intro cl hcl
    simp only [Bench.start] at hcl
    have : cl ∈ scripts.map fun s => ({ todo := s } : Client) := by rw [hcl]; simp
    obtain ⟨s, -, rfl⟩ := List.mem_map.1 this
    rfl
  · intro cl hcl
    obtain ⟨s, -, rfl⟩ := List.mem_map.1 hcl
    refine ⟨List.Forall₂.nil, ?_, ?_, ?_, rfl, ?_⟩
    · intro t ht; simp at ht
    · simp [delays, Bench.start, Ctrl.started]
    · intro pre op post r h; simp at h
    · intro g hg; simp at hg
  · left
    have h1 : (Bench.start m0 v0 t0 scripts).ctrl.restTime lat = 0 := rfl
    have h2 : ((Bench.start m0 v0 t0 scripts).clients.map
        (Client.restTime lat (Bench.start m0 v0 t0 scripts).ctrl.now)).sum = budget lat scripts := by
      simp only [Bench.start, List.map_map, budget]
      rfl
    unfold Bench.restTime
    rw [h1, h2]
    show budget lat scripts + 0 + t0 ≤ _
    omega
  · intro cl hcl
    obtain ⟨s, -, rfl⟩ := List.mem_map.1 hcl
    simp

theorem not_settled_todo {c : Ctrl} {A B : List Client} {cl : Client} (h : cl.todo ≠ []) :
    ¬Bench.settled ⟨c, A ++ cl :: B⟩ := fun hs => h (hs.1 cl (by simp))

theorem restTime_split (c : Ctrl) (A B : List Client) (cl : Client) :
    Bench.restTime lat ⟨c, A ++ cl :: B⟩ = (A.map (Client.restTime lat c.now)).sum + cl.restTime lat c.now
      + (B.map (Client.restTime lat c.now)).sum + c.restTime lat := by
  simp only [Bench.restTime, List.map_append, List.map_cons, List.sum_append, List.sum_cons]
  omega

/-- A step of a process that does not touch the controller. -/
theorem benchInv_client {c : Ctrl} {A B : List Client} {cl cl' : Client}
    (h : BenchInv lat m0 v0 t0 scripts ⟨c, A ++ cl :: B⟩) (hne : cl.todo ≠ [])
    (htxt : cl'.done ++ cl'.todo = cl.done ++ cl.todo) (hreq : requests cl'.done = requests cl.done)
    (hci : ClientInv t0 c cl') (hrest : cl'.restTime lat c.now ≤ cl.restTime lat c.now)
    (hgot : ∀ g ∈ cl'.got, g ∈ cl.got ∨ g.2.1 = c.now) :
    BenchInv lat m0 v0 t0 scripts ⟨c, A ++ cl' :: B⟩ := by
  have htime : Bench.restTime lat ⟨c, A ++ cl :: B⟩ + c.now ≤ t0 + budget lat scripts :=
    h.time.resolve_right (not_settled_todo hne)
  refine ⟨h.inv, h.running, h.alive, h.fine, h.noReady, ?_, ?_, ?_, ?_, Or.inl ?_, ?_⟩
  · have := h.texts
    simp only [List.map_append, List.map_cons] at this ⊢
    rw [htxt]; exact this
  · have := h.subs
    simp only [List.flatMap_append, List.flatMap_cons] at this ⊢
    rw [hreq]; exact this
  · intro x hx
    cases A with
    | nil =>
      simp only [List.nil_append, List.cons.injEq] at hx
      obtain ⟨rfl, rfl⟩ := hx
      rw [hreq]
      exact h.alone cl rfl
    | cons y ys => exact absurd (congrArg List.length hx) (by simp)
  · intro x hx
    rcases List.mem_append.1 hx with hx | hx
    · exact h.clients x (by simp [hx])
    · rcases List.mem_cons.1 hx with rfl | hx
      · exact hci
      · exact h.clients x (by simp [hx])
  · rw [restTime_split] at htime ⊢
    show _ + c.now ≤ _
    omega
  · intro x hx
    rcases List.mem_append.1 hx with hx | hx
    · exact h.late x (by simp [hx])
    · rcases List.mem_cons.1 hx with rfl | hx
      · intro g hg
        rcases hgot g hg with hg | hg
        · exact h.late cl (by simp) g hg
        · omega
      · exact h.late x (by simp [hx])

theorem ClientInv.sent_lt {c : Ctrl} {cl : Client} (h : ClientInv t0 c cl) :
    cl.sent.length = (requests cl.done).length := h.sent.length_eq

theorem early_snoc {c : Ctrl} {cl : Client} (h : ClientInv t0 c cl) (op : ClientOp) (hop : op.req = none) :
    ∀ pre x post r, cl.done ++ [op] = pre ++ x :: post → x.req = some r →
      ∃ id r', cl.sent[(requests pre).length]? = some id ∧ c.submitted[id]? = some r' ∧ r'.bare = r ∧
        t0 + delays pre ≤ r'.submitTime := by
  intro pre x post r he hx
  rcases snoc_split he with ⟨-, -, rfl⟩ | ⟨post', -, he'⟩
  · rw [hop] at hx; cases hx
  · exact h.early pre x post' r he' hx

theorem benchInv_step (hS : Sound lat m0 v0 scripts) (b b' : Bench) (h : BenchInv lat m0 v0 t0 scripts b)
    (st : BenchStep lat b b') : BenchInv lat m0 v0 t0 scripts b' := by
  cases st with
  | sleep c A B cl n rest h1 h2 =>
    have hci := h.clients cl (by simp)
    refine benchInv_client h (by simp [h1]) rfl rfl ⟨hci.sent, ?_, hci.slept, hci.early, hci.got, hci.vals⟩ ?_
      (fun g hg => Or.inl hg)
    · intro t ht
      simp only [Option.some.injEq] at ht
      have hs : t0 + delays cl.done ≤ c.now := hci.slept
      exact ⟨by show c.now ≤ t; omega, n, rest, h1, by show t0 + delays cl.done + n ≤ t; omega⟩
    · simp only [Client.restTime, h1, h2, cost, List.map_cons, List.sum_cons, ClientOp.cost]
      omega
  | wake c A B cl n t rest h1 h2 h3 =>
    have hci := h.clients cl (by simp)
    obtain ⟨hw1, n', rest', hw2, hw3⟩ := hci.wake t h2
    rw [h1] at hw2
    injection hw2 with hn hr
    injection hn with hn
    subst hn hr
    refine benchInv_client h (by simp [h1]) (by simp [h1]) (by simp [requests, ClientOp.req])
      ⟨?_, ?_, ?_, ?_, ?_, hci.vals⟩ ?_ (fun g hg => Or.inl hg)
    · have e : requests (cl.done ++ [ClientOp.sleep n]) = requests cl.done := by simp [requests, ClientOp.req]
      show List.Forall₂ _ cl.sent (requests (cl.done ++ [ClientOp.sleep n]))
      rw [e]; exact hci.sent
    · intro t ht; simp at ht
    · show t0 + delays (cl.done ++ [ClientOp.sleep n]) ≤ c.now
      rw [delays_append]
      simp only [delays]
      omega
    · exact early_snoc hci (.sleep n) rfl
    · show cl.got.map _ = awaited (cl.done ++ [ClientOp.sleep n])
      rw [awaited_append, hci.got]
      simp [awaited]
    · simp only [Client.restTime, h1, h2]
      omega
  | await c A B cl i id a rest h1 h2 h3 h4 =>
    have hci := h.clients cl (by simp)
    have hwn : cl.wake = none := by
      cases hw : cl.wake with
      | none => rfl
      | some t =>
        obtain ⟨-, n, r, hto, -⟩ := hci.wake t hw
        rw [h1] at hto; cases hto
    refine benchInv_client h (by simp [h1]) (by simp [h1]) (by simp [requests, ClientOp.req])
      ⟨?_, ?_, ?_, ?_, ?_, ?_⟩ ?_ ?_
    · have e : requests (cl.done ++ [ClientOp.await i]) = requests cl.done := by simp [requests, ClientOp.req]
      show List.Forall₂ _ cl.sent (requests (cl.done ++ [ClientOp.await i]))
      rw [e]; exact hci.sent
    · intro t ht
      have ht' : cl.wake = some t := ht
      rw [hwn] at ht'; cases ht'
    · show t0 + delays (cl.done ++ [ClientOp.await i]) ≤ c.now
      rw [delays_append]
      have hs : t0 + delays cl.done ≤ c.now := hci.slept
      simp only [delays]
      omega
    · exact early_snoc hci (.await i) rfl
    · show (cl.got ++ _).map _ = awaited (cl.done ++ [ClientOp.await i])
      rw [awaited_append, List.map_append, hci.got]
      simp [awaited]
    · intro g hg
      rcases List.mem_append.1 hg with hg | hg
      · exact hci.vals g hg
      · rw [List.mem_singleton.1 hg]
        exact ⟨id, a, h2, h3, h4, rfl, (h.inv.time.answered a h3).1⟩
    · simp only [Client.restTime, h1, hwn, cost, List.map_cons, List.sum_cons, ClientOp.cost]
      omega
    · intro g hg
      rcases List.mem_append.1 hg with hg | hg
      · exact Or.inl hg
      · right; rw [List.mem_singleton.1 hg]
  | submit c c' A B cl core start kind rest h1 hc h2 =>
    have hci := h.clients cl (by simp)
    have hcr : c'.crashed = none := act_safe lat c c' _ m0.size hS.latency h.running h.inv.mem.size
      (fun r hr => h.serviceable hS r (line_mem _ h.inv.line r (by simp [Ctrl.line, hr]))) (by simp) h2
    have hrt := restTime_step lat m0 v0 t0 c c' _ h.inv h.alive hcr (by simp) h2
    obtain ⟨hn, hr⟩ := hrt
    have hst := act_step lat c c' _ h2
    have hinv := ctrlInv_step lat m0 v0 t0 c c' h.inv hst
    have hnr := noReady_step lat m0 v0 t0 c c' h.inv (h.pending_short hS) h.noReady hst
    have hfacts : c'.submitted = c.submitted ++ [c.newReq core start kind] ∧ c'.answers = c.answers ∧
        c'.running = true ∧ c'.handlerAlive = true := by
      clear hr
      cases hst with
      | crash => exact absurd hcr (by simp [Ctrl.crash])
      | submit => exact ⟨rfl, rfl, h.running, h.alive⟩
    obtain ⟨hsub, hans, hrun, hal⟩ := hfacts
    have hwn : cl.wake = none := by
      cases hw : cl.wake with
      | none => rfl
      | some t =>
        obtain ⟨-, n, r, hto, -⟩ := hci.wake t hw
        rw [h1] at hto; cases hto
    have htime : Bench.restTime lat ⟨c, A ++ cl :: B⟩ + c.now ≤ t0 + budget lat scripts :=
      h.time.resolve_right (not_settled_todo (by simp [h1]))
    have hmono : ∀ x ∈ A ++ cl :: B, ClientInv t0 c' x := by
      intro x hx
      have hx' := h.clients x hx
      refine hx'.mono ?_ ?_ ?_ ?_
      · show c.submitted <+: c'.submitted
        rw [hsub]; exact List.prefix_append _ _
      · show ∀ y ∈ c.answers, y ∈ c'.answers
        rw [hans]; exact fun y hy => hy
      · show c.now ≤ c'.now
        omega
      · intro t ht
        rw [hn]; exact (hx'.wake t ht).1
    have hcl := hmono cl (by simp)
    have hq : requests (cl.done ++ [ClientOp.submit core start kind]) =
        requests cl.done ++ [(c.newReq core start kind).bare] := by
      rw [requests_append]; rfl
    refine ⟨hinv, hrun, hal, hcr, hnr, ?_, ?_, ?_, ?_, Or.inl ?_, ?_⟩
    · have := h.texts
      simp only [List.map_append, List.map_cons] at this ⊢
      rw [← this, h1]
      simp
    · have := h.subs
      simp only [List.flatMap_append, List.flatMap_cons] at this ⊢
      rw [hq, hsub, List.map_append]
      refine (List.Perm.append_right _ this).trans ?_
      simp only [List.map_cons, List.map_nil, List.append_assoc]
      refine List.Perm.append_left _ (List.Perm.append_left _ ?_)
      exact List.perm_append_comm
    · intro x hx
      cases A with
      | nil =>
        simp only [List.nil_append, List.cons.injEq] at hx
        obtain ⟨rfl, rfl⟩ := hx
        show c'.submitted.map _ = requests (cl.done ++ _)
        rw [hq, hsub, List.map_append, ← h.alone cl rfl]
        rfl
      | cons y ys => exact absurd (congrArg List.length hx) (by simp)
    · intro x hx
      rcases List.mem_append.1 hx with hx | hx
      · exact hmono x (by simp [hx])
      · rcases List.mem_cons.1 hx with rfl | hx
        · have hnew : c'.submitted[c.submitted.length]? = some (c.newReq core start kind) := by
            rw [hsub]; simp
          refine ⟨?_, ?_, ?_, ?_, ?_, ?_⟩
          · show List.Forall₂ _ (cl.sent ++ _) (requests (cl.done ++ _))
            rw [hq]
            refine List.rel_append hcl.sent (List.Forall₂.cons ⟨_, hnew, rfl⟩ List.Forall₂.nil)
          · intro t ht
            have ht' : cl.wake = some t := ht
            rw [hwn] at ht'; cases ht'
          · show t0 + delays (cl.done ++ [ClientOp.submit core start kind]) ≤ c'.now
            rw [delays_append]
            have := hcl.slept
            simp only [delays]
            omega
          · intro pre op post r he hop
            rcases snoc_split he with ⟨-, rfl, rfl⟩ | ⟨post', -, he'⟩
            · refine ⟨c.submitted.length, c.newReq core start kind, ?_, hnew, ?_, ?_⟩
              · show (cl.sent ++ [c.submitted.length])[(requests cl.done).length]? = _
                rw [← hcl.sent_lt]; simp
              · injection hop
              · exact hci.slept
            · obtain ⟨id, r', e1, e2⟩ := hcl.early pre op post' r he' hop
              exact ⟨id, r', getElem?_prefix (List.prefix_append _ _) e1, e2⟩
          · show cl.got.map _ = awaited (cl.done ++ [ClientOp.submit core start kind])
            rw [awaited_append, hcl.got]
            simp [awaited]
          · intro g hg
            obtain ⟨id, a, e1, e2⟩ := hcl.vals g hg
            exact ⟨id, a, getElem?_prefix (List.prefix_append _ _) e1, e2⟩
        · exact hmono x (by simp [hx])
    · rw [restTime_split] at htime ⊢
      rw [hn, hr]
      have e1 : cl.restTime lat c.now = cost lat rest +
          serviceTime lat { id := 0, core := core, start := start, kind := kind, submitTime := 0 } := by
        simp only [Client.restTime, h1, hwn, cost, List.map_cons, List.sum_cons, ClientOp.cost]
        omega
      have e2 : Client.restTime lat c.now { cl with
          todo := rest, done := cl.done ++ [.submit core start kind]
          sent := cl.sent ++ [c.submitted.length] } = cost lat rest := by
        simp only [Client.restTime, hwn]
      rw [e2]
      rw [e1] at htime
      omega
    · intro x hx
      rcases List.mem_append.1 hx with hx | hx
      · exact h.late x (by simp [hx])
      · rcases List.mem_cons.1 hx with rfl | hx
        · exact h.late cl (by simp)
        · exact h.late x (by simp [hx])
  | ctrl c c' cls a ha ht hact =>
    have hns : a ≠ .stop := by rintro rfl; simp [CtrlAct.internal] at ha
    have hcr : c'.crashed = none := act_safe lat c c' _ m0.size hS.latency h.running h.inv.mem.size
      (fun r hr => h.serviceable hS r (line_mem _ h.inv.line r (by simp [Ctrl.line, hr]))) hns hact
    have hrt := restTime_step lat m0 v0 t0 c c' _ h.inv h.alive hcr hns hact
    have hrt' : c'.now = c.now ∧ c'.restTime lat = c.restTime lat ∧ ¬c.idle := by
      cases a with
      | submit => simp [CtrlAct.internal] at ha
      | tick => exact absurd rfl ht
      | stop => exact absurd rfl hns
      | pick => exact hrt
      | dispatch => exact hrt
      | grant => exact hrt
      | complete => exact hrt
    obtain ⟨hn, hr, hidle⟩ := hrt'
    obtain ⟨hsub, hans, hrun, hal⟩ := internal_step lat c c' a ha hact
    have hst := act_step lat c c' _ hact
    refine ⟨ctrlInv_step lat m0 v0 t0 c c' h.inv hst, by rw [hrun]; exact h.running, by rw [hal]; exact h.alive, hcr,
      noReady_step lat m0 v0 t0 c c' h.inv (h.pending_short hS) h.noReady hst, h.texts, ?_, ?_, ?_, Or.inl ?_, h.late⟩
    · rw [hsub]; exact h.subs
    · rw [hsub]; exact h.alone
    · intro x hx
      have hx' := h.clients x hx
      refine hx'.mono (by rw [hsub]) hans (by rw [hn]) ?_
      intro t ht
      rw [hn]; exact (hx'.wake t ht).1
    · have htime : Bench.restTime lat ⟨c, cls⟩ + c.now ≤ t0 + budget lat scripts :=
        h.time.resolve_right (fun hs => hidle hs.2.1)
      unfold Bench.restTime at htime ⊢
      dsimp only at htime ⊢
      rw [hn, hr]
      exact htime
  | tick c c' cls hact hcl =>
    have hcr : c'.crashed = none := act_safe lat c c' _ m0.size hS.latency h.running h.inv.mem.size
      (fun r hr => h.serviceable hS r (line_mem _ h.inv.line r (by simp [Ctrl.line, hr]))) (by simp) hact
    have hrt := restTime_step lat m0 v0 t0 c c' _ h.inv h.alive hcr (by simp) hact
    obtain ⟨hn, hr, hrs⟩ := hrt
    obtain ⟨hsub, hans, hrun, hal⟩ := internal_step lat c c' .tick rfl hact
    have hst := act_step lat c c' _ hact
    have hsame : c'.queue = c.queue ∧ c'.handed = c.handed ∧ c'.bus = c.bus ∧ c'.pending = c.pending := by
      clear hr hrs
      cases hst with
      | crash => exact absurd hcr (by simp [Ctrl.crash])
      | tick => exact ⟨rfl, rfl, rfl, rfl⟩
    have hset : Bench.settled ⟨c, cls⟩ → Bench.settled ⟨c', cls⟩ := by
      rintro ⟨s1, ⟨s2, s3, s4⟩, s5⟩
      obtain ⟨q1, q2, q3, q4⟩ := hsame
      exact ⟨s1, ⟨q1.trans s2, q2.trans s3, q3.trans s4⟩, q4.trans s5⟩
    refine ⟨ctrlInv_step lat m0 v0 t0 c c' h.inv hst, by rw [hrun]; exact h.running, by rw [hal]; exact h.alive, hcr,
      noReady_step lat m0 v0 t0 c c' h.inv (h.pending_short hS) h.noReady hst, h.texts, ?_, ?_, ?_, ?_, h.late⟩
    · rw [hsub]; exact h.subs
    · rw [hsub]; exact h.alone
    · intro x hx
      have hx' := h.clients x hx
      refine hx'.mono (by rw [hsub]) hans (by rw [hn]; exact Nat.le_succ _) ?_
      intro t ht
      obtain ⟨-, n, rest, hto, -⟩ := hx'.wake t ht
      rcases step_none x c (hcl x hx) with he | ⟨n', rest', t', he, hw, hlt⟩ | ⟨i, rest', he, -⟩
      · rw [he] at hto; cases hto
      · rw [ht] at hw
        injection hw with hw
        show c'.now ≤ t
        omega
      · rw [he] at hto; cases hto
    · rcases h.time with htime | hs
      · have hle : ∀ x ∈ cls, x.restTime lat c'.now ≤ x.restTime lat c.now := by
          intro x _
          rw [hn]
          unfold Client.restTime
          split <;> omega
        by_cases hstrict : ∃ x ∈ cls, x.restTime lat c'.now + 1 ≤ x.restTime lat c.now
        · left
          obtain ⟨x, hx, hlt⟩ := hstrict
          obtain ⟨A, B, rfl⟩ := List.append_of_mem hx
          rw [restTime_split] at htime ⊢
          have hA := sum_map_le A (Client.restTime lat c'.now) (Client.restTime lat c.now)
            (fun y hy => hle y (by simp [hy]))
          have hB := sum_map_le B (Client.restTime lat c'.now) (Client.restTime lat c.now)
            (fun y hy => hle y (by simp [hy]))
          dsimp only at htime ⊢
          omega
        · rcases hrs with hrs | hidle
          · left
            unfold Bench.restTime at htime ⊢
            have hA := sum_map_le cls (Client.restTime lat c'.now) (Client.restTime lat c.now) hle
            dsimp only at htime ⊢
            omega
          · right
            apply hset
            refine stuck_settled hS h hidle ?_
            intro x hx
            rcases step_none x c (hcl x hx) with he | ⟨n', rest', t', he, hw, hlt⟩ | hw
            · exact Or.inl he
            · exfalso
              refine hstrict ⟨x, hx, ?_⟩
              rw [hn]
              simp only [Client.restTime, he, hw]
              omega
            · exact Or.inr hw
      · exact Or.inr (hset hs)

theorem benchInv_run (hS : Sound lat m0 v0 scripts) (acts : List BenchAct) (b : Bench)
    (h : (Bench.start m0 v0 t0 scripts).run lat acts = some b) : BenchInv lat m0 v0 t0 scripts b :=
  bench_induction lat (BenchInv lat m0 v0 t0 scripts) (fun b b' h st => benchInv_step hS b b' h st) acts _ b
    (benchInv_start hS) h

end

end Ramwich
