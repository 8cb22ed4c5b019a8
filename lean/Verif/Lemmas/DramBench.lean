import Verif.Lemmas.DramClients

/-! # The invariant of processes beside a DRAM controller -/
namespace Ramwich

open Spec

/-- The request without identity and time. -/
def Req.bare (r : Req) : Req := { r with id := 0, submitTime := 0 }

theorem bare_isWrite (r : Req) : r.bare.isWrite = r.isWrite := rfl
theorem bare_covers (r : Req) (a : Nat) : covers r.bare a ↔ covers r a := Iff.rfl
theorem bare_serviceable (n : Nat) (r : Req) : Serviceable n r.bare ↔ Serviceable n r := Iff.rfl
theorem bare_preloaded (v : List Bool) (r : Req) : preloaded v r.bare = preloaded v r := rfl

theorem answer_id (a : Answer) : a.id = a.req.id := by cases a <;> rfl

theorem requests_append (a b : List ClientOp) : requests (a ++ b) = requests a ++ requests b := by
  simp [requests]

theorem delays_append (a b : List ClientOp) : delays (a ++ b) = delays a + delays b := by
  induction a with
  | nil => simp [delays]
  | cons x xs ih => cases x <;> simp [delays, ih]; omega

theorem awaited_append (a b : List ClientOp) : awaited (a ++ b) = awaited a ++ awaited b := by
  simp [awaited]

theorem takeWhile_before {α : Type} (p : α → Bool) (A B : List α) (x : α) (hx : p x = false) :
    ∀ y ∈ (A ++ x :: B).takeWhile p, y ∈ A := by
  induction A with
  | nil => intro y hy; simp [hx] at hy
  | cons z zs ih =>
    intro y hy
    rw [List.cons_append, List.takeWhile_cons] at hy
    split at hy
    · rcases List.mem_cons.1 hy with rfl | hy
      · simp
      · exact List.mem_cons_of_mem _ (ih y hy)
    · simp at hy

theorem takeWhile_mem {α : Type} (p : α → Bool) (A : List α) : ∀ y ∈ A.takeWhile p, y ∈ A :=
  fun _ hy => (List.takeWhile_sublist p).subset hy

theorem wordValid_of (ws : List Req) (a : Nat) : ∀ (b : Bool), (b = true ∨ ∃ w ∈ ws, covers w a) →
    wordValid b ws a = true := by
  induction ws with
  | nil => intro b hb; rcases hb with hb | ⟨w, hw, -⟩
           · exact hb
           · exact absurd hw (by simp)
  | cons w ws ih =>
    intro b hb
    show wordValid (if covers w a then true else b) ws a = true
    apply ih
    rcases hb with hb | ⟨x, hx, hxa⟩
    · left; split <;> simp [hb]
    · rcases List.mem_cons.1 hx with rfl | hx
      · left; rw [if_pos hxa]
      · exact Or.inr ⟨x, hx, hxa⟩

/-! ## Internal steps of the controller -/

theorem internal_step (lat : Int) (c c' : Ctrl) (a : CtrlAct) (ha : a.internal = true)
    (h : c.act lat a = some c') :
    c'.submitted = c.submitted ∧ (∀ x ∈ c.answers, x ∈ c'.answers) ∧ c'.running = c.running ∧
      c'.handlerAlive = c.handlerAlive := by
  have st := act_step lat c c' a h
  cases st with
  | submit => simp [CtrlAct.internal] at ha
  | stopped => simp [CtrlAct.internal] at ha
  | stop => simp [CtrlAct.internal] at ha
  | read => exact ⟨rfl, fun x hx => List.mem_append_left _ hx, rfl, rfl⟩
  | write => exact ⟨rfl, fun x hx => List.mem_append_left _ hx, rfl, rfl⟩
  | _ => exact ⟨rfl, fun x hx => hx, rfl, rfl⟩

/-! ## Invariant of a process -/

structure ClientInv (t0 : Nat) (c : Ctrl) (cl : Client) : Prop where
  sent : List.Forall₂ (fun id r => ∃ r', c.submitted[id]? = some r' ∧ r'.bare = r) cl.sent (requests cl.done)
  wake : ∀ t, cl.wake = some t → c.now ≤ t ∧ ∃ n rest, cl.todo = .sleep n :: rest ∧ t0 + delays cl.done + n ≤ t
  slept : t0 + delays cl.done ≤ c.now
  early : ∀ pre op post r, cl.done = pre ++ op :: post → op.req = some r →
    ∃ id r', cl.sent[(requests pre).length]? = some id ∧ c.submitted[id]? = some r' ∧ r'.bare = r ∧
      t0 + delays pre ≤ r'.submitTime
  got : cl.got.map (fun g => g.1) = awaited cl.done
  vals : ∀ g ∈ cl.got, ∃ id a, cl.sent[g.1]? = some id ∧ a ∈ c.answers ∧ a.id = id ∧ g.2.2 = a.value ∧
    a.time ≤ g.2.1

theorem getElem?_prefix {α : Type} {l l' : List α} (h : l <+: l') {i : Nat} {x : α} (hx : l[i]? = some x) :
    l'[i]? = some x := by
  obtain ⟨m, rfl⟩ := h
  rw [List.getElem?_append_left (List.getElem?_eq_some_iff.1 hx).1, hx]

theorem ClientInv.mono {t0 : Nat} {c c' : Ctrl} {cl : Client} (h : ClientInv t0 c cl)
    (hs : c.submitted <+: c'.submitted) (ha : ∀ x ∈ c.answers, x ∈ c'.answers) (hn : c.now ≤ c'.now)
    (hw : ∀ t, cl.wake = some t → c'.now ≤ t) : ClientInv t0 c' cl := by
  refine ⟨?_, ?_, by have := h.slept; omega, ?_, h.got, ?_⟩
  · refine h.sent.imp ?_
    rintro id r ⟨r', h1, h2⟩
    exact ⟨r', getElem?_prefix hs h1, h2⟩
  · intro t ht
    exact ⟨hw t ht, (h.wake t ht).2⟩
  · intro pre op post r h1 h2
    obtain ⟨id, r', e1, e2, e3⟩ := h.early pre op post r h1 h2
    exact ⟨id, r', e1, getElem?_prefix hs e2, e3⟩
  · intro g hg
    obtain ⟨id, a, e1, e2, e3⟩ := h.vals g hg
    exact ⟨id, a, e1, ha a e2, e3⟩

/-! ## Invariant of a bench -/

structure BenchInv (lat : Int) (m0 : Memory) (v0 : List Bool) (t0 : Nat) (scripts : List (List ClientOp))
    (b : Bench) : Prop where
  inv : CtrlInv lat m0 v0 t0 b.ctrl
  running : b.ctrl.running = true
  alive : b.ctrl.handlerAlive = true
  fine : b.ctrl.crashed = none
  noReady : NoReady b.ctrl
  texts : b.clients.map (fun cl => cl.done ++ cl.todo) = scripts
  subs : (b.ctrl.submitted.map Req.bare).Perm (b.clients.flatMap fun cl => requests cl.done)
  alone : ∀ cl, b.clients = [cl] → b.ctrl.submitted.map Req.bare = requests cl.done
  clients : ∀ cl ∈ b.clients, ClientInv t0 b.ctrl cl
  time : b.restTime lat + b.ctrl.now ≤ t0 + budget lat scripts ∨ b.settled
  late : ∀ cl ∈ b.clients, ∀ g ∈ cl.got, g.2.1 ≤ t0 + budget lat scripts

section
variable {lat : Int} {m0 : Memory} {v0 : List Bool} {t0 : Nat} {scripts : List (List ClientOp)} {b : Bench}

/-- Submitted requests come from the scripts. -/
theorem BenchInv.from_script (h : BenchInv lat m0 v0 t0 scripts b) (r : Req) (hr : r ∈ b.ctrl.submitted) :
    ∃ s ∈ scripts, r.bare ∈ requests s := by
  have := h.subs.subset (List.mem_map_of_mem (f := Req.bare) hr)
  obtain ⟨cl, hcl, hreq⟩ := List.mem_flatMap.1 this
  refine ⟨cl.done ++ cl.todo, ?_, ?_⟩
  · rw [← h.texts]; exact List.mem_map_of_mem hcl
  · rw [requests_append]; exact List.mem_append_left _ hreq

theorem BenchInv.serviceable (hS : Sound lat m0 v0 scripts) (h : BenchInv lat m0 v0 t0 scripts b) (r : Req)
    (hr : r ∈ b.ctrl.submitted) : Serviceable m0.size r := by
  obtain ⟨s, hs, hrs⟩ := h.from_script r hr
  exact (bare_serviceable _ r).1 (hS.fits s hs _ hrs)

/-- A waiting read was not preloaded. -/
theorem BenchInv.pending_waits (hS : Sound lat m0 v0 scripts) (h : BenchInv lat m0 v0 t0 scripts b) (r : Req)
    (hr : r ∈ b.ctrl.pending) : preloaded v0 r = false := by
  rw [← Bool.not_eq_true]
  intro hp
  have hsub := pending_mem _ h.inv.line r hr
  obtain ⟨⟨f1, f2⟩, f3, f4⟩ := h.serviceable hS r hsub
  have hpos := f4 (h.inv.line.reads r hr)
  have := h.noReady r hr
  rw [← Bool.not_eq_true] at this
  apply this
  unfold ready
  rw [pySlice_mem_valid _ _ _ f1 (by rw [h.inv.mem.vlen]; exact f2) (by omega)]
  intro a ha1 ha2
  have haN : a < m0.size := by omega
  rw [h.inv.mem.vals a haN]
  apply wordValid_of
  left
  have := List.all_eq_true.1 hp a (by rw [List.mem_range, hS.valids]; exact haN)
  exact of_decide_eq_true this ⟨ha1, ha2⟩

theorem BenchInv.pending_short (hS : Sound lat m0 v0 scripts) (h : BenchInv lat m0 v0 t0 scripts b) :
    b.ctrl.pending.length ≤ 1 := by
  have h0 := hS.oneWaits
  generalize hp : (fun r : Req => !r.isWrite && !preloaded v0 r) = p at h0
  have hpb : p ∘ Req.bare = p := by rw [← hp]; rfl
  have h1 : b.ctrl.pending.Subperm (b.ctrl.submitted.filter p) := by
    refine List.subperm_of_subset (pending_nodup _ h.inv.line) ?_
    intro r hr
    refine List.mem_filter.2 ⟨pending_mem _ h.inv.line r hr, ?_⟩
    simp [← hp, h.inv.line.reads r hr, h.pending_waits hS r hr]
  have h2 : (b.ctrl.submitted.filter p).length = ((b.ctrl.submitted.map Req.bare).filter p).length := by
    rw [List.filter_map, List.length_map, hpb]
  have h3 := (h.subs.filter p).length_eq
  have h4 : (b.clients.flatMap fun cl => requests cl.done).Sublist (scripts.flatMap requests) := by
    rw [← h.texts]
    clear * -
    induction b.clients with
    | nil => simp
    | cons x xs ih =>
      simp only [List.flatMap_cons, List.map_cons, requests_append]
      exact (List.sublist_append_left _ _).append ih
  have h5 := (h4.filter p).length_le
  have h6 := h1.length_le
  omega

/-- What a process is waiting for when it has no action. -/
theorem step_none (cl : Client) (c : Ctrl) (h : cl.step c = none) :
    cl.todo = [] ∨ (∃ n rest t, cl.todo = .sleep n :: rest ∧ cl.wake = some t ∧ c.now < t) ∨
      ∃ i rest, cl.todo = .await i :: rest ∧ ∀ id, cl.sent[i]? = some id → ∀ a ∈ c.answers, a.id ≠ id := by
  unfold Client.step at h
  split at h
  · left; assumption
  · rename_i n rest hto
    split at h
    · exact absurd h (by simp)
    · rename_i t hw
      split at h
      · exact absurd h (by simp)
      · exact Or.inr (Or.inl ⟨n, rest, t, hto, hw, by omega⟩)
  · exact absurd h (by simp)
  · rename_i i rest hto
    refine Or.inr (Or.inr ⟨i, rest, hto, ?_⟩)
    split at h
    · rename_i hn
      intro id hid; rw [hn] at hid; cases hid
    · rename_i id hid
      split at h
      · rename_i hf
        intro id' hid' a ha
        rw [hid] at hid'
        injection hid' with hid'
        subst hid'
        have := List.find?_eq_none.1 hf a ha
        simpa using this
      · exact absurd h (by simp)

/-- If the controller is idle and every process has ended or waits for an event, nothing is left to do. -/
theorem stuck_settled (hS : Sound lat m0 v0 scripts) (h : BenchInv lat m0 v0 t0 scripts b) (hidle : b.ctrl.idle)
    (hcl : ∀ cl ∈ b.clients, cl.todo = [] ∨
      ∃ i rest, cl.todo = .await i :: rest ∧ ∀ id, cl.sent[i]? = some id → ∀ a ∈ b.ctrl.answers, a.id ≠ id) :
    b.settled := by
  have hline : b.ctrl.line = [] := by simp [Ctrl.line, hidle.1, hidle.2.1, hidle.2.2]
  have hw : writesOf b.ctrl.answers = b.ctrl.submitted.filter Req.isWrite := by
    rw [h.inv.line.writes, hline]; simp
  -- an event that is waited for belongs to a waiting read
  have hwaits : ∀ cl ∈ b.clients, ∀ i rest, cl.todo = .await i :: rest →
      (∀ id, cl.sent[i]? = some id → ∀ a ∈ b.ctrl.answers, a.id ≠ id) →
      ∃ r ∈ b.ctrl.pending, (requests cl.done)[i]? = some r.bare := by
    intro cl hc i rest hto hun
    have hsc : cl.done ++ cl.todo ∈ scripts := by rw [← h.texts]; exact List.mem_map_of_mem hc
    have hi := hS.orderly _ hsc cl.done i rest (by rw [hto])
    have hci := h.clients cl hc
    have hlen := hci.sent.length_eq
    have hlt : i < cl.sent.length := by omega
    obtain ⟨r', hr1, hr2⟩ := (List.forall₂_iff_get.1 hci.sent).2 i hlt hi
    simp only [List.get_eq_getElem] at hr1 hr2
    refine ⟨r', ?_, by rw [List.getElem?_eq_getElem hi, hr2]⟩
    have hmem : r' ∈ b.ctrl.submitted := List.mem_of_getElem? hr1
    have hid := h.inv.line.ids _ _ hr1
    have := h.inv.line.perm.symm.subset hmem
    rw [hline, List.nil_append, List.mem_append] at this
    rcases this with this | this
    · exact this
    · exfalso
      obtain ⟨a, ha, hareq⟩ := List.mem_map.1 this
      refine hun _ (List.getElem?_eq_getElem hlt) a ha ?_
      rw [answer_id, hareq, hid]
  have hp : b.ctrl.pending = [] := by
    rw [List.eq_nil_iff_forall_not_mem]
    intro r hr
    have hrs := pending_mem _ h.inv.line r hr
    have hread := h.inv.line.reads r hr
    obtain ⟨⟨f1, f2⟩, f3, f4⟩ := h.serviceable hS r hrs
    have hpos := f4 hread
    obtain ⟨s, hs, hreq⟩ := h.from_script r hrs
    have := h.noReady r hr
    rw [← Bool.not_eq_true] at this
    apply this
    unfold ready
    rw [pySlice_mem_valid _ _ _ f1 (by rw [h.inv.mem.vlen]; exact f2) (by omega)]
    intro a ha1 ha2
    rw [h.inv.mem.vals a (by omega), hw]
    apply wordValid_of
    rcases hS.supplied s hs r.bare hreq hread a ⟨ha1, ha2⟩ with hv | ⟨s', hs', w, hw1, hw2, hw3⟩
    · exact Or.inl hv
    · right
      rw [← h.texts] at hs'
      obtain ⟨cl, hc, rfl⟩ := List.mem_map.1 hs'
      have hdone : w ∈ requests cl.done := by
        obtain ⟨op, hop, hopr⟩ := List.mem_filterMap.1 hw1
        refine List.mem_filterMap.2 ⟨op, ?_, hopr⟩
        rcases hcl cl hc with hto | ⟨i, rest, hto, hun⟩
        · have := takeWhile_mem _ _ op hop
          rw [hto, List.append_nil] at this
          exact this
        · obtain ⟨r1, hr1, hr2⟩ := hwaits cl hc i rest hto hun
          unfold certain at hop
          rw [hto] at hop
          refine takeWhile_before _ cl.done rest (.await i) ?_ op hop
          have hlt := (List.getElem?_eq_some_iff.1 hr2).1
          have : (requests (cl.done ++ ClientOp.await i :: rest))[i]? = some r1.bare := by
            rw [requests_append, List.getElem?_append_left hlt, hr2]
          simp only [awaitsRead, this, bare_isWrite, h.inv.line.reads r1 hr1, Bool.not_false, Bool.not_true]
      have : w ∈ b.ctrl.submitted.map Req.bare :=
        h.subs.symm.subset (List.mem_flatMap.2 ⟨cl, hc, hdone⟩)
      obtain ⟨w', hw', rfl⟩ := List.mem_map.1 this
      exact ⟨w', List.mem_filter.2 ⟨hw', hw2⟩, hw3⟩
  refine ⟨?_, hidle, hp⟩
  intro cl hc
  rcases hcl cl hc with hto | ⟨i, rest, hto, hun⟩
  · exact hto
  · obtain ⟨r1, hr1, -⟩ := hwaits cl hc i rest hto hun
    rw [hp] at hr1
    exact absurd hr1 (by simp)

end

end Ramwich
