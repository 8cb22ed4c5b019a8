import Verif.Lemmas.Loader
import Verif.Props.Reset

/-! # Loading operations

`lax` stands for pydantic's conversions of text and floats, `pick` for its choice among several classes
that an entry without `type` is valid for; the theorems hold for all of them. -/
namespace Ramwich
open Spec

/-- C51: the operations of the file that are before the first badly addressed one are appended to those of
the units that they are addressed to, in the order of the file; nothing else changes; and the outcome is
IndexError exactly if there is a badly addressed one. -/
theorem C51_load (lax : Lax) (pick : List (String × Json) → Nat) (s : Sim) (js : List Json) :
    let ps := js.filterMap (lax.operation pick)
    let r := s.loadOperations lax pick (.value (.arr js))
    withoutOps r.2 = withoutOps s ∧
    (∀ a b, (tileAt r.2 a b).map (·.operations)
      = (tileAt s a b).map (fun t => t.operations ++ opsOfTile s a b (placeable s ps))) ∧
    (∀ a b c, (coreAt r.2 a b c).map (·.operations)
      = (coreAt s a b c).map (fun o => o.operations ++ opsOfCore s a b c (placeable s ps))) ∧
    r.1 = if ∀ p ∈ ps, (unitOf s p).isSome then .ok () else .error .indexError := by
  have h := placeAll_spec lax pick js s
  dsimp only at h
  obtain ⟨h1, h2, h3, h4⟩ := h
  refine ⟨h1, fun a b => ?_, fun a b c => ?_, h4⟩
  · have := h2 a b
    unfold tileOps at this
    rw [Option.map_map] at this
    exact this
  · have := h3 a b c
    unfold coreOps at this
    rw [Option.map_map] at this
    exact this

/-- C51: without badly addressed operations all are placed. -/
theorem C51_all_placed (lax : Lax) (pick : List (String × Json) → Nat) (s : Sim) (js : List Json)
    (h : ∀ j ∈ js, ∀ p, lax.operation pick j = some p → (unitOf s p).isSome) :
    let ps := js.filterMap (lax.operation pick)
    let r := s.loadOperations lax pick (.value (.arr js))
    r.1 = .ok () ∧
    (∀ a b, (tileAt r.2 a b).map (·.operations)
      = (tileAt s a b).map (fun t => t.operations ++ opsOfTile s a b ps)) ∧
    (∀ a b c, (coreAt r.2 a b c).map (·.operations)
      = (coreAt s a b c).map (fun o => o.operations ++ opsOfCore s a b c ps)) := by
  intro ps r
  have hall : ∀ p ∈ ps, (unitOf s p).isSome := by
    intro p hp
    obtain ⟨j, hj, hjp⟩ := List.mem_filterMap.1 hp
    exact h j hj p hjp
  have hpl : placeable s ps = ps := by
    clear_value ps
    induction ps with
    | nil => rfl
    | cons p ps ih =>
      have h1 := hall p (by simp)
      have h2 := ih fun q hq => hall q (by simp [hq])
      unfold placeable at h2 ⊢
      simp [h1, h2]
  obtain ⟨-, h2, h3, h4⟩ := C51_load lax pick s js
  refine ⟨?_, fun a b => ?_, fun a b c => ?_⟩
  · exact h4.trans (if_pos hall)
  · have := h2 a b
    rw [hpl] at this
    exact this
  · have := h3 a b c
    rw [hpl] at this
    exact this

/-- C51: other files. Objects and texts are gone through like lists, no element is an operation. -/
theorem C51_other_files (lax : Lax) (pick : List (String × Json) → Nat) (s : Sim) :
    s.loadOperations lax pick .missing = (.ok (), s) ∧
    s.loadOperations lax pick .otherName = (.ok (), s) ∧
    s.loadOperations lax pick .invalid = (.error .valueError, s) ∧
    (∀ kvs, s.loadOperations lax pick (.value (.obj kvs)) = (.ok (), s)) ∧
    (∀ t, s.loadOperations lax pick (.value (.str t)) = (.ok (), s)) ∧
    (∀ j, (∀ js, j ≠ .arr js) → (∀ kvs, j ≠ .obj kvs) → (∀ t, j ≠ .str t) →
      s.loadOperations lax pick (.value j) = (.error .typeError, s)) := by
  have key : ∀ ts : List String, s.placeAll lax pick (ts.map .str) = (.ok (), s) := by
    intro ts
    induction ts with
    | nil => rfl
    | cons t ts ih => simpa [Sim.placeAll, Lax.operation] using ih
  refine ⟨rfl, rfl, rfl, fun kvs => ?_, fun t => ?_, fun j h1 h2 h3 => ?_⟩
  · have := key (kvs.map Prod.fst)
    simpa [Sim.loadOperations, Json.elements, Function.comp_def] using this
  · have := key (t.toList.map String.singleton)
    simpa [Sim.loadOperations, Json.elements, Function.comp_def] using this
  · cases j with
    | arr js => exact absurd rfl (h1 js)
    | obj kvs => exact absurd rfl (h2 kvs)
    | str t => exact absurd rfl (h3 t)
    | _ => rfl

theorem ints_map (lax : Lax) (xs : List Int) : lax.ints (.arr (xs.map .int)) = some xs := by
  unfold Lax.ints
  induction xs with
  | nil => rfl
  | cons x xs ih =>
    simp only at ih
    simp [List.mapM_cons, Lax.int, ih]

theorem ofString_text (op : VfuOp) : VfuOp.ofString (opcodeText op) = some op := by
  cases op <;> decide

theorem says_node (lax : Lax) (kvs : List (String × Json)) (n : Int) (h : tells kvs "node" (.int n)) :
    lax.node kvs = some n := by
  rcases h with h | ⟨h1, h2⟩
  · simp [Lax.node, h, Lax.int]
  · simp [defaultOf] at h2
    simp [Lax.node, h1, h2]

theorem says_field (lax : Lax) (kvs : List (String × Json)) (key : String) (n : Int)
    (hk : defaultOf key = none ∨ defaultOf key = some .null) (h : tells kvs key (.int n)) :
    lax.field kvs key = some n := by
  rcases h with h | ⟨h1, h2⟩
  · simp [Lax.field, h, Lax.int]
  · rcases hk with hk | hk <;> rw [hk] at h2 <;> simp at h2

theorem says_optional (lax : Lax) (kvs : List (String × Json)) (key : String) (n : Option Int)
    (hk : defaultOf key = some .null)
    (h : tells kvs key (match n with | some r => .int r | none => .null)) : lax.optional kvs key = some n := by
  rcases h with h | ⟨h1, h2⟩
  · cases n with
    | none => simp only at h; simp [Lax.optional, h]
    | some r => simp only at h; simp [Lax.optional, h, Lax.int]
  · cases n with
    | none => simp [Lax.optional, h1]
    | some r => rw [hk] at h2; simp at h2

theorem says_get (kvs : List (String × Json)) (key : String) (v : Json)
    (hk : defaultOf key = none) (h : tells kvs key v) : getField kvs key = some v := by
  rcases h with h | ⟨h1, h2⟩
  · exact h
  · rw [hk] at h2; cases h2

/-- C51: an entry that has the fields of an operation, in any order and among others, is this operation. -/
theorem C51_fields (lax : Lax) (pick : List (String × Json) → Nat) (p : Placed) (isAddress : Bool)
    (kvs : List (String × Json)) (h : ∀ kv ∈ fieldsOf isAddress p, tells kvs kv.1 kv.2) :
    lax.operation pick (.obj kvs) = some p := by
  have ht : getField kvs "type" = some (.str (typeOf p)) := by
    apply says_get _ _ _ rfl
    cases p with
    | core n t k op => exact h ("type", _) (by simp [fieldsOf])
    | tile n t op => exact h ("type", _) (by simp [fieldsOf])
  simp only [Lax.operation, ht]
  cases p with
  | core n t k op =>
    have hn := says_node lax kvs n (h ("node", _) (by simp [fieldsOf]))
    have htl := says_field lax kvs "tile" t (.inl rfl) (h ("tile", _) (by simp [fieldsOf]))
    have hk := says_field lax kvs "core" k (.inl rfl) (h ("core", _) (by simp [fieldsOf]))
    cases op with
    | load dest read width vec =>
      have h1 := says_field lax kvs "dest" dest (.inl rfl) (h ("dest", _) (by simp [fieldsOf]))
      have h2 := says_field lax kvs "read" read (.inl rfl) (h ("read", _) (by simp [fieldsOf]))
      have h3 := says_field lax kvs "width" width (.inl rfl) (h ("width", _) (by simp [fieldsOf]))
      have h4 := says_field lax kvs "vec" vec (.inl rfl) (h ("vec", _) (by simp [fieldsOf]))
      simp [typeOf, Lax.validate, Lax.coreOp, hn, htl, hk, h1, h2, h3, h4]
    | store dest read width vec =>
      have h1 := says_field lax kvs "dest" dest (.inl rfl) (h ("dest", _) (by simp [fieldsOf]))
      have h2 := says_field lax kvs "read" read (.inl rfl) (h ("read", _) (by simp [fieldsOf]))
      have h3 := says_field lax kvs "width" width (.inl rfl) (h ("width", _) (by simp [fieldsOf]))
      have h4 := says_field lax kvs "vec" vec (.inl rfl) (h ("vec", _) (by simp [fieldsOf]))
      simp [typeOf, Lax.validate, Lax.coreOp, hn, htl, hk, h1, h2, h3, h4]
    | set dest imm vec =>
      have h1 := says_field lax kvs "dest" dest (.inl rfl) (h ("dest", _) (by simp [fieldsOf]))
      have h2 := says_field lax kvs "imm" imm (.inr rfl) (h ("imm", _) (by simp [fieldsOf]))
      have h3 := says_field lax kvs "vec" vec (.inl rfl) (h ("vec", _) (by simp [fieldsOf]))
      have h4 := says_get kvs "is_address" (.bool isAddress) rfl (h ("is_address", _) (by simp [fieldsOf]))
      simp [typeOf, Lax.validate, Lax.coreOp, hn, htl, hk, h1, h2, h3, h4, Lax.bool]
    | copy dest read vec =>
      have h1 := says_field lax kvs "dest" dest (.inl rfl) (h ("dest", _) (by simp [fieldsOf]))
      have h2 := says_field lax kvs "read" read (.inl rfl) (h ("read", _) (by simp [fieldsOf]))
      have h4 := says_field lax kvs "vec" vec (.inl rfl) (h ("vec", _) (by simp [fieldsOf]))
      simp [typeOf, Lax.validate, Lax.coreOp, hn, htl, hk, h1, h2, h4]
    | mvm xbar =>
      have h1 := says_get kvs "xbar" (.arr (xbar.map .int)) rfl (h ("xbar", _) (by simp [fieldsOf]))
      simp [typeOf, Lax.validate, Lax.coreOp, hn, htl, hk, h1, ints_map]
    | vfu opcode dest read1 read2 vec =>
      have h0 := says_get kvs "opcode" (.str (opcodeText opcode)) rfl (h ("opcode", _) (by simp [fieldsOf]))
      have h1 := says_field lax kvs "dest" dest (.inl rfl) (h ("dest", _) (by simp [fieldsOf]))
      have h2 := says_field lax kvs "read_1" read1 (.inl rfl) (h ("read_1", _) (by simp [fieldsOf]))
      have h3 := says_optional lax kvs "read_2" read2 rfl
        (h ("read_2", _) (by simp [fieldsOf]; cases read2 <;> rfl))
      have h4 := says_field lax kvs "vec" vec (.inl rfl) (h ("vec", _) (by simp [fieldsOf]))
      have h5 := says_optional lax kvs "imm" none rfl (h ("imm", _) (by simp [fieldsOf]))
      simp [typeOf, Lax.validate, Lax.coreOp, hn, htl, hk, h0, h1, h2, h3, h4, h5, ofString_text]
    | hlt => simp [typeOf, Lax.validate, Lax.coreOp, hn, htl, hk]
  | tile n t op =>
    have hn := says_node lax kvs n (h ("node", _) (by simp [fieldsOf]))
    have htl := says_field lax kvs "tile" t (.inl rfl) (h ("tile", _) (by simp [fieldsOf]))
    cases op with
    | send addr target width vec =>
      have h1 := says_field lax kvs "mem_addr" addr (.inl rfl) (h ("mem_addr", _) (by simp [fieldsOf]))
      have h2 := says_field lax kvs "target_tile" target (.inl rfl) (h ("target_tile", _) (by simp [fieldsOf]))
      have h3 := says_field lax kvs "width" width (.inl rfl) (h ("width", _) (by simp [fieldsOf]))
      have h4 := says_field lax kvs "vec" vec (.inl rfl) (h ("vec", _) (by simp [fieldsOf]))
      simp [typeOf, Lax.validate, Lax.tileOp, hn, htl, h1, h2, h3, h4]
    | receive addr source width vec =>
      have h1 := says_field lax kvs "mem_addr" addr (.inl rfl) (h ("mem_addr", _) (by simp [fieldsOf]))
      have h2 := says_field lax kvs "source_tile" source (.inl rfl) (h ("source_tile", _) (by simp [fieldsOf]))
      have h3 := says_field lax kvs "width" width (.inl rfl) (h ("width", _) (by simp [fieldsOf]))
      have h4 := says_field lax kvs "vec" vec (.inl rfl) (h ("vec", _) (by simp [fieldsOf]))
      simp [typeOf, Lax.validate, Lax.tileOp, hn, htl, h1, h2, h3, h4]
    | halt => simp [typeOf, Lax.validate, Lax.tileOp, hn, htl]

theorem coreOp_some (lax : Lax) (kvs : List (String × Json)) (op : Option CoreOp) (p : Placed)
    (h : lax.coreOp kvs op = some p) : ∃ n t k o, p = .core n t k o ∧ op = some o ∧
      (getField kvs "tile").isSome ∧ (getField kvs "core").isSome := by
  cases ho : op with
  | none => simp [Lax.coreOp, ho] at h
  | some o =>
    simp [Lax.coreOp, ho, Lax.field, Option.bind_eq_some_iff] at h
    obtain ⟨n, _, t, ⟨j, hj, _⟩, k, ⟨j', hj', _⟩, rfl⟩ := h
    exact ⟨n, t, k, o, rfl, rfl, by simp [hj], by simp [hj']⟩

theorem tileOp_some (lax : Lax) (kvs : List (String × Json)) (op : Option TileOp) (p : Placed)
    (h : lax.tileOp kvs op = some p) : ∃ n t o, p = .tile n t o ∧ op = some o ∧
      (getField kvs "tile").isSome := by
  cases ho : op with
  | none => simp [Lax.tileOp, ho] at h
  | some o =>
    simp [Lax.tileOp, ho, Lax.field, Option.bind_eq_some_iff] at h
    obtain ⟨n, _, t, ⟨j, hj, _⟩, rfl⟩ := h
    exact ⟨n, t, o, rfl, rfl, by simp [hj]⟩

theorem validate_some (lax : Lax) (kvs : List (String × Json)) (s : String) (p : Placed)
    (h : lax.validate kvs s = some p) : s ∈ opTypes ∧ typeOf p = s ∧ ∀ k ∈ required s, (getField kvs k).isSome := by
  unfold Lax.validate at h
  split at h
  all_goals first
    | (obtain ⟨n, t, k, o, rfl, ho, h1, h2⟩ := coreOp_some _ _ _ _ h
       simp [Lax.field, Option.bind_eq_some_iff] at ho
       refine ⟨by decide, ?_, ?_⟩
       · obtain ⟨_, _, _, _, _, _, _, _, _, _, _, _, rfl⟩ := ho; rfl
       · simp only [required]
         grind)
    | (obtain ⟨n, t, o, rfl, ho, h1⟩ := tileOp_some _ _ _ _ h
       simp [Lax.field, Option.bind_eq_some_iff] at ho
       refine ⟨by decide, ?_, ?_⟩
       · grind [typeOf]
       · simp only [required]
         grind)
    | cases h

/-- C51: an entry is an operation of its `type`, and has all fields that are required. -/
theorem C51_typed (lax : Lax) (pick : List (String × Json) → Nat) (kvs : List (String × Json)) (s : String)
    (hs : getField kvs "type" = some (.str s)) (p : Placed) (h : lax.operation pick (.obj kvs) = some p) :
    s ∈ opTypes ∧ typeOf p = s ∧ ∀ k ∈ required s, (getField kvs k).isSome := by
  simp only [Lax.operation, hs] at h
  exact validate_some lax kvs s p h

/-- C51: entries that are not objects, or whose `type` is not a text, are no operations. -/
theorem C51_not_an_operation (lax : Lax) (pick : List (String × Json) → Nat) (j : Json)
    (h : ∀ kvs, j = .obj kvs → ∃ v, getField kvs "type" = some v ∧ ∀ s, v ≠ .str s) :
    lax.operation pick j = none := by
  cases j with
  | obj kvs =>
    obtain ⟨v, hv, hs⟩ := h kvs rfl
    simp only [Lax.operation, hv]
  | _ => rfl

theorem getField_cons (kvs : List (String × Json)) (v : Json) (key : String) (h : key ≠ "type") :
    getField (("type", v) :: kvs) key = getField kvs key := by
  have : ¬ ("type" = key) := fun e => h e.symm
  simp [getField, this]

theorem validate_cons (lax : Lax) (kvs : List (String × Json)) (v : Json) (s : String) :
    lax.validate (("type", v) :: kvs) s = lax.validate kvs s := by
  have h := getField_cons kvs v
  unfold Lax.validate
  simp only [Lax.coreOp, Lax.tileOp, Lax.field, Lax.node, Lax.optional, h _ (by decide : "tile" ≠ "type"),
    h _ (by decide : "core" ≠ "type"), h _ (by decide : "node" ≠ "type"), h _ (by decide : "dest" ≠ "type"),
    h _ (by decide : "read" ≠ "type"), h _ (by decide : "width" ≠ "type"), h _ (by decide : "vec" ≠ "type"),
    h _ (by decide : "imm" ≠ "type"), h _ (by decide : "is_address" ≠ "type"), h _ (by decide : "xbar" ≠ "type"),
    h _ (by decide : "opcode" ≠ "type"), h _ (by decide : "read_1" ≠ "type"), h _ (by decide : "read_2" ≠ "type"),
    h _ (by decide : "mem_addr" ≠ "type"), h _ (by decide : "target_tile" ≠ "type"),
    h _ (by decide : "source_tile" ≠ "type")]

/-- C51: an entry without `type` is an operation exactly if it is one with some `type`, and then it is one
of these. -/
theorem C51_untyped (lax : Lax) (pick : List (String × Json) → Nat) (kvs : List (String × Json))
    (hs : getField kvs "type" = none) :
    (lax.operation pick (.obj kvs) = none ↔
      ∀ s, lax.operation pick (.obj (("type", .str s) :: kvs)) = none) ∧
    (∀ p, lax.operation pick (.obj kvs) = some p →
      lax.operation pick (.obj (("type", .str (typeOf p)) :: kvs)) = some p) := by
  have ht : ∀ s, getField (("type", Json.str s) :: kvs) "type" = some (.str s) := by
    intro s; simp [getField]
  simp only [Lax.operation, hs, ht, validate_cons]
  constructor
  · constructor
    · intro h s
      by_contra hn
      obtain ⟨p, hp⟩ := Option.ne_none_iff_exists'.1 hn
      have hmem : p ∈ opTypes.filterMap (lax.validate kvs) :=
        List.mem_filterMap.2 ⟨s, (validate_some lax kvs s p hp).1, hp⟩
      have hl : 0 < (opTypes.filterMap (lax.validate kvs)).length := List.length_pos_of_mem hmem
      have := Nat.mod_lt (pick kvs) hl
      rw [List.getElem?_eq_getElem this] at h
      cases h
    · intro h
      have : opTypes.filterMap (lax.validate kvs) = [] := by
        rw [List.filterMap_eq_nil_iff]
        intro s _
        exact h s
      simp [this]
  · intro p hp
    have hmem := List.mem_of_getElem? hp
    obtain ⟨s, _, hsp⟩ := List.mem_filterMap.1 hmem
    rw [(validate_some lax kvs s p hsp).2.1]
    exact hsp

/-! ### Examples -/

def strictLax : Lax := ⟨fun _ => none, fun _ => none, fun _ => none⟩

/-- The program of `resetNode` as a file, with entries that are skipped, fields in other places, and tiles
counted from the end. -/
def resetFile : List Json :=
  [.str "comment",
   .obj (fieldsOf true (.core 0 0 0 (.set 16 4 1))),
   .obj ((fieldsOf false (.core 0 (-2) 0 (.set 20 7 3))).reverse),
   .obj (fieldsOf false (.tile 0 0 (.send 4 1 2 2))),
   .obj [("type", .str "send"), ("tile", .int 0)],
   .obj (("note", .null) :: fieldsOf false (.core 0 0 (-1) (.mvm [0]))),
   .obj (fieldsOf false (.core 0 0 0 (.store 16 20 2 2))),
   .obj [("type", .str "hlt"), ("tile", .int 0), ("core", .int 0)],
   .obj [("type", .str "jump"), ("tile", .int 0), ("core", .int 0)],
   .obj (fieldsOf false (.tile 0 0 .halt)),
   .obj (fieldsOf false (.core (-1) (-1) 0 (.set 16 2 1))),
   .obj (fieldsOf false (.core 0 1 0 (.load 24 16 2 2))),
   .obj (fieldsOf false (.tile 0 1 (.receive 2 0 2 2))),
   .obj (fieldsOf false (.core 0 1 0 .hlt)),
   .obj (fieldsOf false (.tile 0 1 .halt))]

def resetLoaded : Res Sim Unit := (Sim.new resetBuilt).loadOperations strictLax (fun _ => 0) (.value (.arr resetFile))

example : resetLoaded.1 = .ok () := by decide +kernel
example : resetLoaded.2.nodes.map (fun n => n.tiles.map fun t => (t.operations, t.cores.map (·.operations)))
    = [(resetNode resetBuilt).tiles.map fun t => (t.operations, t.cores.map (·.operations))] := by decide +kernel
example := C51_load strictLax (fun _ => 0) (Sim.new resetBuilt) resetFile
example := C51_all_placed strictLax (fun _ => 0) (Sim.new resetBuilt) resetFile (by
  have h : ∀ p ∈ resetFile.filterMap (strictLax.operation fun _ => 0), (unitOf (Sim.new resetBuilt) p).isSome = true := by
    decide +kernel
  exact fun j hj p hp => h p (List.mem_filterMap.2 ⟨j, hj, hp⟩))

-- an operation for a tile that does not exist: those before it stay
example : (Sim.new resetBuilt).loadOperations strictLax (fun _ => 0) (.value (.arr [
      .obj (fieldsOf false (.tile 0 1 .halt)), .obj (fieldsOf false (.tile 0 2 .halt)),
      .obj (fieldsOf false (.tile 0 0 .halt))]))
    |> fun r => r.1 = .error .indexError ∧
      r.2.nodes.map (fun n => n.tiles.map (·.operations)) = [[[], [.halt]]] := by decide +kernel

example := C51_fields strictLax (fun _ => 0) (.core 0 3 1 (.vfu .add 16 20 (some 24) 4)) false
  [("vec", .int 4), ("type", .str "vfu"), ("tile", .int 3), ("core", .int 1), ("opcode", .str "add"),
   ("dest", .int 16), ("read_1", .int 20), ("read_2", .int 24), ("comment", .str "sum")] (by
    intro kv hkv
    simp only [fieldsOf, typeOf, opcodeText, List.cons_append, List.nil_append, List.mem_cons, List.not_mem_nil,
      or_false] at hkv
    rcases hkv with rfl | rfl | rfl | rfl | rfl | rfl | rfl | rfl | rfl | rfl
    all_goals first
      | (refine .inl ?_; rfl)
      | (refine .inr ⟨?_, ?_⟩ <;> rfl))

example := C51_typed strictLax (fun _ => 0) (fieldsOf false (.tile 0 1 .halt)) "halt" (by simp [getField, fieldsOf, typeOf])
  (.tile 0 1 .halt) (by decide +kernel)
example := C51_not_an_operation strictLax (fun _ => 0) (.obj [("type", .int 3)])
  (by rintro kvs h; cases h; exact ⟨.int 3, by simp [getField], by simp⟩)

-- `{"tile": 0, "core": 0}` without a type is valid as `hlt` of a core and as `halt` of a tile
example := C51_untyped strictLax (fun _ => 1) [("tile", .int 0), ("core", .int 0)] (by simp [getField])
example : strictLax.operation (fun _ => 0) (.obj [("tile", .int 0), ("core", .int 0)]) = some (.core 0 0 0 .hlt) ∧
    strictLax.operation (fun _ => 1) (.obj [("tile", .int 0), ("core", .int 0)]) = some (.tile 0 0 .halt) := by
  decide +kernel

end Ramwich
