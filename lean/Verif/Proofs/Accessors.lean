import Mathlib.Data.List.Nodup
import Verif.Model.AccessorTables
import Verif.Spec.Accessors

/-! # Proofs about the accessors of the enums over forks -/

namespace Verif.Accessors

open Json Spec

/-! ## Fields of structs -/

/-- The names of the fields -/
def fieldNames : Fields → List String
  | .nil => []
  | .cons n _ rest => n :: fieldNames rest

/-- The names of the fields of a struct -/
def names : Schema → List String
  | .record fs => fieldNames fs
  | _ => []

theorem FieldOf.mem {fs : Fields} {v : fs.Val} {name : String} {x : Any} (h : FieldOf fs v name x) :
    name ∈ fieldNames fs := by
  induction h with
  | here => simp [fieldNames]
  | there _ ih => simp [fieldNames, ih]

theorem getField_sound {name : String} : ∀ {fs : Fields} {v : fs.Val} {x : Any},
    getField name fs v = some x → FieldOf fs v name x
  | .nil, _, _, h => by simp [getField] at h
  | .cons n s rest, (v, vs), x, h => by
    by_cases e : n = name
    · subst e
      simp [getField] at h
      subst h
      exact .here
    · simp only [getField, if_neg e] at h
      exact .there (getField_sound h)

theorem getField_complete {name : String} {fs : Fields} {v : fs.Val} {x : Any}
    (h : FieldOf fs v name x) (hn : (fieldNames fs).Nodup) : getField name fs v = some x := by
  induction h with
  | here => simp [getField]
  | @there n m s rest v vs x h ih =>
    simp only [fieldNames, List.nodup_cons] at hn
    have e : n ≠ m := fun e => hn.1 (e ▸ FieldOf.mem h)
    simp only [getField, if_neg e]
    exact ih hn.2

theorem getField_isSome {name : String} : ∀ {fs : Fields} {v : fs.Val},
    name ∈ fieldNames fs → ∃ x, getField name fs v = some x
  | .nil, _, h => by simp [fieldNames] at h
  | .cons n s rest, v, h => by
    by_cases e : n = name
    · exact ⟨_, by simp only [getField, if_pos e]; rfl⟩
    · simp only [fieldNames, List.mem_cons] at h
      obtain ⟨x, hx⟩ := getField_isSome (v := v.2) (h.resolve_left (Ne.symm e))
      exact ⟨x, by simp only [getField, if_neg e]; exact hx⟩

theorem HasField.mem {s : Schema} {v : s.Val} {name : String} {x : Any} (h : HasField s v name x) :
    name ∈ names s := by
  cases h with
  | mk h => exact FieldOf.mem h

theorem get_sound {name : String} {s : Schema} {v : s.Val} {x : Any} (h : get name s v = some x) :
    HasField s v name x := by
  cases s with
  | record fs => exact .mk (getField_sound h)
  | _ => simp [get] at h

theorem get_complete {name : String} {s : Schema} {v : s.Val} {x : Any} (h : HasField s v name x)
    (hn : (names s).Nodup) : get name s v = some x := by
  cases h with
  | mk h => exact getField_complete h hn

theorem get_isSome {name : String} {s : Schema} {v : s.Val} (h : name ∈ names s) :
    ∃ x, get name s v = some x := by
  cases s with
  | record fs => exact getField_isSome h
  | _ => simp [names] at h

theorem overField_field {name : String} {g : (s : Schema) → s.Val → s.Val} {fs : Fields} {v : fs.Val}
    {m : String} {x : Any} (h : FieldOf fs v m x) (hn : (fieldNames fs).Nodup) :
    FieldOf fs (overField name g fs v) m (if m = name then ⟨x.1, g x.1 x.2⟩ else x) := by
  induction h with
  | @here n s rest v vs =>
    by_cases e : n = name
    · simp only [overField, if_pos e]
      exact .here
    · simp only [overField, if_neg e]
      exact .here
  | @there n m s rest v vs x h ih =>
    simp only [fieldNames, List.nodup_cons] at hn
    by_cases e : n = name
    · have e' : m ≠ name := fun e' => hn.1 (by rw [e, ← e']; exact FieldOf.mem h)
      simp only [overField, if_pos e, if_neg e']
      exact .there h
    · simp only [overField, if_neg e]
      exact .there (ih hn.2)

theorem over_field {name : String} {g : (s : Schema) → s.Val → s.Val} {s : Schema} {v : s.Val}
    {m : String} {x : Any} (h : HasField s v m x) (hn : (names s).Nodup) :
    HasField s (over name g s v) m (if m = name then ⟨x.1, g x.1 x.2⟩ else x) := by
  cases h with
  | mk h => exact .mk (overField_field h hn)

/-! ## The tables -/

/-- Some constants: the names of the fields do not depend on them. -/
def K₀ : Consts := ⟨0, 0, 0, 0, 0, 0, 0, 0, 0, 0, 0, 0, 0, 0, 0, 0, 0, 0, 0, 0, 0, 0, 0, 0, 0, 0, 0, 0,
  0, 0, 0, 0, 0, 0, 0, 0, 0, 0, 0, 0⟩

/-- All forks -/
def allForks : List Fork := [.Phase0, .Altair, .Bellatrix, .Capella, .Deneb, .Electra]

/-- The accessor has the right arm for the variant. -/
def armOk (ns : List String) (a : Accessor) (f : Fork) : Bool :=
  if a.name = "version" then a.arm f = some (.version f)
  else if allForks.any (a.name = variantName ·) then
    a.arm f = some (if a.name = variantName f then .all else .none)
  else if ns.contains a.name then
    match a.arm f with
    | some (.field n) => n = a.name
    | some (.view n dest) => n = a.name ∧
      ((forkTypes.find? fun t => t.name = dest).bind fun t => t.froms.find? fun p => p.1 = f).map (·.2)
        = some f
    | _ => false
  else a.arm f = some .none ∧ a.optional

set_option maxRecDepth 100000 in
theorem arms_ok : ∀ T ∈ forkTypes, ∀ f ∈ (T.base K₀).order, ∀ a ∈ T.accessors,
    armOk (names ((T.base K₀).schema f)) a f = true := by decide +kernel

set_option maxRecDepth 100000 in
theorem nodup_ok : ∀ T ∈ forkTypes, ∀ f ∈ (T.base K₀).order,
    (names ((T.base K₀).schema f)).Nodup := by decide +kernel

theorem forkTypes_cases {P : ForkType → Prop} (h : ∀ b ∈ [Json.BeaconState, Json.BeaconBlock,
    Json.BeaconBlockBody, Json.SignedBeaconBlock, Json.BlindedBeaconBlock,
    Json.BlindedBeaconBlockBody, Json.SignedBlindedBeaconBlock, Json.ExecutionPayload,
    Json.ExecutionPayloadHeader], ∀ T : ForkType, T.base = b → P T) : ∀ T ∈ forkTypes, P T := by
  intro T hT
  simp only [List.forall_mem_cons] at h
  obtain ⟨h1, h2, h3, h4, h5, h6, h7, h8, h9, _⟩ := h
  simp only [forkTypes, List.mem_cons, List.not_mem_nil, or_false] at hT
  rcases hT with rfl | rfl | rfl | rfl | rfl | rfl | rfl | rfl | rfl | rfl | rfl | rfl | rfl | rfl |
    rfl | rfl | rfl | rfl | rfl | rfl | rfl | rfl | rfl
  all_goals first
    | exact h1 _ rfl | exact h2 _ rfl | exact h3 _ rfl | exact h4 _ rfl | exact h5 _ rfl
    | exact h6 _ rfl | exact h7 _ rfl | exact h8 _ rfl | exact h9 _ rfl

theorem names_const {T : ForkType} (hT : T ∈ forkTypes) (K : Consts) (f : Fork) :
    names ((T.base K).schema f) = names ((T.base K₀).schema f) := by
  revert T
  apply forkTypes_cases
  simp only [List.forall_mem_cons]
  refine ⟨?_, ?_, ?_, ?_, ?_, ?_, ?_, ?_, ?_, by simp⟩ <;>
    (intro T h; rw [h]; cases f <;> rfl)

theorem order_const {T : ForkType} (hT : T ∈ forkTypes) (K : Consts) :
    (T.base K).order = (T.base K₀).order := by
  revert T
  apply forkTypes_cases
  simp only [List.forall_mem_cons]
  refine ⟨?_, ?_, ?_, ?_, ?_, ?_, ?_, ?_, ?_, by simp⟩ <;>
    (intro T h; rw [h]; rfl)

theorem nodup {T : ForkType} (hT : T ∈ forkTypes) (K : Consts) {f : Fork}
    (hf : f ∈ (T.base K).order) : (names ((T.base K).schema f)).Nodup := by
  rw [names_const hT]
  exact nodup_ok T hT f (order_const hT K ▸ hf)

theorem arm_ok {T : ForkType} (hT : T ∈ forkTypes) (K : Consts) {f : Fork}
    (hf : f ∈ (T.base K).order) {a : Accessor} (ha : a ∈ T.accessors) :
    armOk (names ((T.base K).schema f)) a f = true := by
  rw [names_const hT]
  exact arms_ok T hT f (order_const hT K ▸ hf) a ha

/-! ## Calls -/

theorem any_variantName {name : String} :
    allForks.any (name = variantName ·) = true ↔ ∃ f, name = variantName f := by
  simp only [List.any_eq_true, decide_eq_true_eq]
  exact ⟨fun ⟨f, _, h⟩ => ⟨f, h⟩, fun ⟨f, h⟩ => ⟨f, by cases f <;> decide, h⟩⟩

/-- The arm of an accessor of a field -/
theorem arm_field {ns : List String} {a : Accessor} {f : Fork} (h : armOk ns a f = true)
    (ha : OfField a) :
    a.name ∈ ns ∧ a.arm f = some (.field a.name) ∨
    a.name ∈ ns ∧ (∃ dest t, a.arm f = some (.view a.name dest) ∧
      (forkTypes.find? fun t => t.name = dest) = some t ∧ t.froms.find? (fun p => p.1 = f) = some (f, f)) ∨
    a.name ∉ ns ∧ a.arm f = some .none ∧ a.optional = true := by
  have h2 : ¬ allForks.any (a.name = variantName ·) = true := fun h =>
    (any_variantName.mp h).elim ha.2
  unfold armOk at h
  rw [if_neg ha.1, if_neg h2] at h
  by_cases m : a.name ∈ ns
  · rw [if_pos (by simpa using m)] at h
    split at h
    · next n e =>
      rw [decide_eq_true_eq] at h
      exact .inl ⟨m, by rw [e, h]⟩
    · next n dest e =>
      rw [decide_eq_true_eq] at h
      obtain ⟨h3, h4⟩ := h
      simp only [Option.map_eq_some_iff, Option.bind_eq_some_iff] at h4
      obtain ⟨p, ⟨t, h5, h6⟩, h7⟩ := h4
      have h8 := List.find?_some h6
      simp only [decide_eq_true_eq] at h8
      refine .inr (.inl ⟨m, dest, t, by rw [e, h3], h5, ?_⟩)
      rw [h6]
      congr 1
      exact Prod.ext h8 h7
    · simp at h
  · rw [if_neg (by simpa using m), Bool.decide_and, Bool.and_eq_true, decide_eq_true_eq,
      decide_eq_true_eq] at h
    exact .inr (.inr ⟨m, h⟩)

theorem ofField_of_view {ns : List String} {a : Accessor} {f : Fork} (h : armOk ns a f = true)
    {n dest : String} (ha : a.arm f = some (.view n dest)) : OfField a := by
  unfold armOk at h
  rw [ha] at h
  by_cases h1 : a.name = "version"
  · rw [if_pos h1] at h
    simp at h
  · by_cases h2 : allForks.any (a.name = variantName ·) = true
    · rw [if_neg h1, if_pos h2] at h
      split at h <;> simp at h
    · exact ⟨h1, fun g hg => h2 (any_variantName.mpr ⟨g, hg⟩)⟩

set_option maxRecDepth 100000 in
theorem optional_ok : ∀ T ∈ forkTypes, ∀ a ∈ T.accessors, ∀ f ∈ allForks,
    a.name = variantName f → a.optional = true := by decide +kernel

theorem call_field {types : List ForkType} {a : Accessor} {schema : Fork → Schema}
    {v : Versioned schema} {name : String} (h : a.arm v.1 = some (.field name)) :
    a.call types v = (get name (schema v.1) v.2).map .value := by
  simp [Accessor.call, h]

theorem call_view {types : List ForkType} {a : Accessor} {schema : Fork → Schema}
    {v : Versioned schema} {name dest : String} {t : ForkType} {g : Fork}
    (h : a.arm v.1 = some (.view name dest)) (ht : (types.find? fun t => t.name = dest) = some t)
    (hf : t.froms.find? (fun p => p.1 = v.1) = some (v.1, g)) :
    a.call types v = (get name (schema v.1) v.2).map (.view dest g) := by
  simp only [Accessor.call, h, Option.bind_eq_bind, Option.bind_some]
  cases get name (schema v.1) v.2 with
  | none => rfl
  | some x => simp [viewOf, ht, hf]

theorem call_none {types : List ForkType} {a : Accessor} {schema : Fork → Schema}
    {v : Versioned schema} (h : a.arm v.1 = some .none) : a.call types v = none := by
  simp [Accessor.call, h]

theorem change_field {a : Accessor} {schema : Fork → Schema} {g : (s : Schema) → s.Val → s.Val}
    {v : Versioned schema} {name : String} (h : a.arm v.1 = some (.field name)) :
    a.change g v = ⟨v.1, over name g (schema v.1) v.2⟩ := by
  simp only [Accessor.change, h]
  rfl

theorem change_view {a : Accessor} {schema : Fork → Schema} {g : (s : Schema) → s.Val → s.Val}
    {v : Versioned schema} {name dest : String} (h : a.arm v.1 = some (.view name dest)) :
    a.change g v = ⟨v.1, over name g (schema v.1) v.2⟩ := by
  simp only [Accessor.change, h]
  rfl

theorem change_none {a : Accessor} {schema : Fork → Schema} {g : (s : Schema) → s.Val → s.Val}
    {v : Versioned schema} (h : a.arm v.1 = some .none) : a.change g v = v := by
  simp only [Accessor.change, h]

/-! ## Fields that are returned as another enum -/

/-- The enum, the field, and the enum that it is returned as -/
def views : List (ForkType × String × ForkType) := [
  (beaconBlock, "body", beaconBlockBodyRef),
  (beaconBlock, "body", beaconBlockBodyRefMut),
  (beaconBlockRef, "body", beaconBlockBodyRef),
  (beaconBlockRefMut, "body", beaconBlockBodyRef),
  (beaconBlockRefMut, "body", beaconBlockBodyRefMut),
  (beaconBlockBody, "execution_payload", executionPayloadRef),
  (beaconBlockBody, "execution_payload", executionPayloadRefMut),
  (beaconBlockBodyRef, "execution_payload", executionPayloadRef),
  (beaconBlockBodyRefMut, "execution_payload", executionPayloadRef),
  (beaconBlockBodyRefMut, "execution_payload", executionPayloadRefMut),
  (beaconState, "latest_execution_payload_header", executionPayloadHeaderRef),
  (beaconState, "latest_execution_payload_header", executionPayloadHeaderRefMut),
  (beaconStateRef, "latest_execution_payload_header", executionPayloadHeaderRef),
  (beaconStateRefMut, "latest_execution_payload_header", executionPayloadHeaderRef),
  (beaconStateRefMut, "latest_execution_payload_header", executionPayloadHeaderRefMut),
  (blindedBeaconBlock, "body", blindedBeaconBlockBodyRef),
  (blindedBeaconBlock, "body", blindedBeaconBlockBodyRefMut),
  (blindedBeaconBlockRef, "body", blindedBeaconBlockBodyRef),
  (blindedBeaconBlockRefMut, "body", blindedBeaconBlockBodyRef),
  (blindedBeaconBlockRefMut, "body", blindedBeaconBlockBodyRefMut),
  (blindedBeaconBlockBody, "execution_payload_header", executionPayloadHeaderRef),
  (blindedBeaconBlockBody, "execution_payload_header", executionPayloadHeaderRefMut),
  (blindedBeaconBlockBodyRef, "execution_payload_header", executionPayloadHeaderRef),
  (blindedBeaconBlockBodyRefMut, "execution_payload_header", executionPayloadHeaderRef),
  (blindedBeaconBlockBodyRefMut, "execution_payload_header", executionPayloadHeaderRefMut),
  (signedBeaconBlock, "message", beaconBlockRef),
  (signedBeaconBlock, "message", beaconBlockRefMut),
  (signedBlindedBeaconBlock, "message", blindedBeaconBlockRef),
  (signedBlindedBeaconBlock, "message", blindedBeaconBlockRefMut)]

set_option maxRecDepth 100000 in
theorem views_all : ∀ T ∈ forkTypes, ∀ f ∈ (T.base K₀).order, ∀ a ∈ T.accessors, ∀ n dest,
    a.arm f = some (.view n dest) →
    ∃ p ∈ views, p.1.name = T.name ∧ p.2.1 = n ∧ p.2.2.name = dest := by
  have h : ∀ T ∈ forkTypes, ∀ f ∈ (T.base K₀).order, ∀ a ∈ T.accessors,
      (match a.arm f with
      | some (.view n dest) =>
        views.any fun p => p.1.name = T.name ∧ p.2.1 = n ∧ p.2.2.name = dest
      | _ => true) = true := by decide +kernel
  intro T hT f hf a ha n dest e
  have := h T hT f hf a ha
  rw [e] at this
  simpa using this

theorem forkTypes_names : (forkTypes.map (·.name)).Nodup := by decide +kernel

theorem views_forkTypes : ∀ p ∈ views, p.1 ∈ forkTypes ∧ p.2.2 ∈ forkTypes := by
  unfold views
  iterate 29
    refine List.forall_mem_cons.2 ⟨by simp only [forkTypes, List.mem_cons, true_or, or_true, and_self], ?_⟩
  simp

theorem forkTypes_inj {T U : ForkType} (hT : T ∈ forkTypes) (hU : U ∈ forkTypes)
    (h : T.name = U.name) : T = U :=
  List.inj_on_of_nodup_map forkTypes_names hT hU h

/-- The type of a field -/
def typeOf (name : String) : Schema → Option Schema
  | .record fs => fs.find name
  | _ => none

theorem getField_type {name : String} : ∀ {fs : Fields} {v : fs.Val} {x : Any},
    getField name fs v = some x → fs.find name = some x.1
  | .nil, _, _, h => by simp [getField] at h
  | .cons n s rest, (v, vs), x, h => by
    by_cases e : n = name
    · simp only [getField, if_pos e, Option.some.injEq] at h
      subst h
      simp [Fields.find, e]
    · simp only [getField, if_neg e] at h
      simp only [Fields.find, if_neg e]
      exact getField_type h

theorem get_type {name : String} {s : Schema} {v : s.Val} {x : Any} (h : get name s v = some x) :
    typeOf name s = some x.1 := by
  cases s with
  | record fs => exact getField_type h
  | _ => simp [get] at h

theorem views_type (K : Consts) (f : Fork) : ∀ p ∈ views, f ∈ (p.1.base K₀).order →
    f ∈ (p.2.2.base K₀).order → typeOf p.2.1 ((p.1.base K).schema f) = some ((p.2.2.base K).schema f) := by
  unfold views
  iterate 29
    refine List.forall_mem_cons.2 ⟨fun h1 h2 => ?_, ?_⟩
    · cases f <;> first | rfl | exact absurd h1 (by decide) | exact absurd h2 (by decide)
  simp

/-! ## `From` -/

theorem froms_ok : ∀ T ∈ forkTypes, T.kind ≠ .owned → ∀ f ∈ allForks, ∀ g ∈ allForks,
    ((f, g) ∈ T.froms ↔ g = f ∧ f ∈ (T.base K₀).order) := by decide +kernel

theorem mem_allForks (f : Fork) : f ∈ allForks := by cases f <;> decide

theorem views_kind : ∀ p ∈ views, p.2.2.kind ≠ .owned := by decide +kernel

/-! ## Fields that have accessors -/

set_option maxRecDepth 100000 in
theorem complete_ok : ∀ T ∈ forkTypes, ∀ f ∈ (T.base K₀).order,
    ∀ n ∈ names ((T.base K₀).schema f),
      (T.accessors.any fun a => a.name = n ∧ a.exclusive = false) = true ∧
      (T.kind ≠ .shared → (T.accessors.any fun a => a.name = n ∧ a.exclusive = true) = true) := by
  decide +kernel

end Verif.Accessors
