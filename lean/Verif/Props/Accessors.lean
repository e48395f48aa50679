import Verif.Proofs.Accessors
import Verif.Props.Json

/-! # C82: the accessors of the enums over forks

`types::BeaconState`, `types::BeaconBlock` and so on hold a container of any fork. Code that is written
once for all forks reads and changes them through accessors. -/

namespace Verif.Accessors

open Json Spec

variable {K : Consts} {T : ForkType} {a : Accessor}

/-- An accessor of a field gives access to that field of the container in the variant, whichever it
is. It returns `None` exactly for the variants whose containers have no such field. -/
theorem C82_field (hT : T ∈ forkTypes) (ha : a ∈ T.accessors) (hf : OfField a)
    (v : Versioned (T.base K).schema) (hv : v.1 ∈ (T.base K).order) :
    (∀ x, ((a.call forkTypes v).bind content = some x ↔
      HasField ((T.base K).schema v.1) v.2 a.name x)) ∧
    (a.call forkTypes v = none ↔ ∀ x, ¬ HasField ((T.base K).schema v.1) v.2 a.name x) := by
  have hn := nodup hT K hv
  have key : ∀ w : Any → Out, (∀ x, content (w x) = some x) →
      a.name ∈ names ((T.base K).schema v.1) →
      a.call forkTypes v = (get a.name ((T.base K).schema v.1) v.2).map w →
      (∀ x, ((a.call forkTypes v).bind content = some x ↔
        HasField ((T.base K).schema v.1) v.2 a.name x)) ∧
      (a.call forkTypes v = none ↔ ∀ x, ¬ HasField ((T.base K).schema v.1) v.2 a.name x) := by
    intro w hw m e
    obtain ⟨y, hy⟩ := get_isSome (v := v.2) m
    rw [e, hy]
    refine ⟨fun x => ?_, ⟨by simp, fun h => absurd (get_sound hy) (h y)⟩⟩
    simp only [Option.map_some, Option.bind_some, hw, Option.some.injEq]
    constructor
    · rintro rfl
      exact get_sound hy
    · intro h
      rw [get_complete h hn] at hy
      exact (Option.some.inj hy).symm
  rcases arm_field (arm_ok hT K hv ha) hf with ⟨m, h⟩ | ⟨m, dest, t, h, h1, h2⟩ | ⟨m, h, _⟩
  · exact key .value (fun _ => rfl) m (call_field h)
  · exact key (.view dest v.1) (fun _ => rfl) m (call_view h h1 h2)
  · have no : ∀ x, ¬ HasField ((T.base K).schema v.1) v.2 a.name x := fun x h => m (HasField.mem h)
    rw [call_none h]
    simp [no]

/-- What an accessor returns as another enum, such as the `body` of a block, is a variant of that
enum for the same fork, around a value of the type that the variant asks for. -/
theorem C82_view (hT : T ∈ forkTypes) (ha : a ∈ T.accessors) (v : Versioned (T.base K).schema)
    (hv : v.1 ∈ (T.base K).order) {dest : String} {f : Fork} {x : Any}
    (h : a.call forkTypes v = some (.view dest f x)) :
    f = v.1 ∧ ∃ N ∈ forkTypes, N.name = dest ∧ f ∈ (N.base K).order ∧ x.1 = (N.base K).schema f := by
  have hs : ∃ n, a.arm v.1 = some (.view n dest) := by
    revert h
    unfold Accessor.call
    cases a.arm v.1 with
    | none => simp
    | some b =>
      cases b with
      | view n dest' =>
        simp only [Option.bind_eq_bind, Option.bind_some]
        cases get n ((T.base K).schema v.1) v.2 with
        | none => simp
        | some y =>
          simp only [viewOf, Option.bind_some, Option.bind_eq_bind, Option.bind_eq_some_iff]
          rintro ⟨_, _, _, _, h⟩
          cases h
          exact ⟨n, rfl⟩
      | none => simp
      | all => simp
      | version => simp
      | field n => simp
  obtain ⟨n, hs⟩ := hs
  obtain ⟨p, hp, h1, h2, h3⟩ := views_all T hT v.1 (order_const hT K ▸ hv) a ha n dest hs
  obtain ⟨m1, m2⟩ := views_forkTypes p hp
  obtain rfl := forkTypes_inj m1 hT h1
  subst h2 h3
  have ok := arm_ok hT K hv ha
  rcases arm_field ok (ofField_of_view ok hs) with ⟨m, h1⟩ | ⟨m, dest, t, h1, h2, h3⟩ | ⟨m, h1, _⟩
  · rw [hs] at h1
    cases h1
  · rw [hs] at h1
    injection h1 with h1
    injection h1 with h1 h4
    subst h4
    have ht := List.find?_some h2
    simp only [decide_eq_true_eq] at ht
    obtain rfl := forkTypes_inj (List.mem_of_find?_eq_some h2) m2 ht
    have hf : v.1 ∈ (p.2.2.base K).order :=
      ((order_const m2 K).symm ▸ ((froms_ok p.2.2 m2 (views_kind p hp) v.1 (mem_allForks _) v.1
        (mem_allForks _)).mp (List.mem_of_find?_eq_some h3)).2)
    rw [call_view hs h2 h3] at h
    cases hg : get p.2.1 ((p.1.base K).schema v.1) v.2 with
    | none => rw [hg] at h; cases h
    | some y =>
      rw [hg] at h
      cases h
      refine ⟨rfl, p.2.2, m2, rfl, hf, ?_⟩
      have e1 := get_type hg
      have e2 := views_type K v.1 p hp (order_const hT K ▸ hv) (order_const m2 K ▸ hf)
      rw [e1] at e2
      exact Option.some.inj e2
  · rw [hs] at h1
    cases h1

/-- `version` names the fork of the variant. -/
theorem C82_version (hT : T ∈ forkTypes) (ha : a ∈ T.accessors) (hn : a.name = "version")
    (v : Versioned (T.base K).schema) (hv : v.1 ∈ (T.base K).order) :
    a.call forkTypes v = some (.version v.1) := by
  have h := arm_ok hT K hv ha
  unfold armOk at h
  rw [if_pos hn, decide_eq_true_eq] at h
  simp [Accessor.call, h]

/-- An accessor whose signature has no `Option` is one of a field that all variants have. -/
theorem C82_total (hT : T ∈ forkTypes) (ha : a ∈ T.accessors) (ho : a.optional = false)
    (v : Versioned (T.base K).schema) (hv : v.1 ∈ (T.base K).order) :
    (a.call forkTypes v).isSome := by
  by_cases hf : OfField a
  · rcases arm_field (arm_ok hT K hv ha) hf with ⟨m, h⟩ | ⟨m, dest, t, h, h1, h2⟩ | ⟨_, _, h⟩
    · obtain ⟨y, hy⟩ := get_isSome (v := v.2) m
      rw [call_field h, hy]
      rfl
    · obtain ⟨y, hy⟩ := get_isSome (v := v.2) m
      rw [call_view h h1 h2, hy]
      rfl
    · rw [ho] at h
      exact absurd h (by decide)
  · simp only [OfField, not_and_or, not_not, not_forall] at hf
    rcases hf with hf | ⟨f, hf⟩
    · rw [C82_version hT ha hf v hv]
      rfl
    · rw [optional_ok T hT a ha f (mem_allForks f) hf] at ho
      cases ho

/-- `phase0`, `altair` and so on return the container if the variant is the one of that fork, and
`None` otherwise. Through `phase0_mut` and so on nothing but that container is changed. -/
theorem C82_variant (hT : T ∈ forkTypes) (ha : a ∈ T.accessors) {f : Fork}
    (hn : a.name = variantName f) (v : Versioned (T.base K).schema)
    (hv : v.1 ∈ (T.base K).order) :
    a.call forkTypes v = (if v.1 = f then some (.value ⟨_, v.2⟩) else none) ∧
    ∀ g, a.change g v = if v.1 = f then ⟨v.1, g _ v.2⟩ else v := by
  have h := arm_ok hT K hv ha
  unfold armOk at h
  rw [if_neg (by rw [hn]; cases f <;> decide), if_pos (any_variantName.mpr ⟨f, hn⟩),
    decide_eq_true_eq] at h
  have e : a.name = variantName v.1 ↔ v.1 = f := by
    rw [hn]
    generalize v.1 = g
    cases f <;> cases g <;> decide
  simp only [e] at h
  by_cases e' : v.1 = f
  · rw [if_pos e'] at h
    refine ⟨?_, fun g => ?_⟩
    · rw [if_pos e']
      simp only [Accessor.call, h]
      rfl
    · refine Eq.trans ?_ (if_pos e').symm
      simp only [Accessor.change, h]
      rfl
  · rw [if_neg e'] at h
    refine ⟨?_, fun g => ?_⟩
    · rw [if_neg e']
      exact call_none h
    · exact (change_none h).trans (if_neg e').symm

/-- Through the reference that an accessor with the suffix `_mut` returns, its field is changed and
nothing else. -/
theorem C82_mut (hT : T ∈ forkTypes) (ha : a ∈ T.accessors) (hf : OfField a)
    (v : Versioned (T.base K).schema) (hv : v.1 ∈ (T.base K).order)
    (g : (s : Schema) → s.Val → s.Val) :
    ∃ w : ((T.base K).schema v.1).Val, a.change g v = ⟨v.1, w⟩ ∧
      ∀ name x, HasField _ v.2 name x → HasField _ w name (if name = a.name then ⟨x.1, g x.1 x.2⟩ else x) := by
  have hn := nodup hT K hv
  rcases arm_field (arm_ok hT K hv ha) hf with ⟨m, h⟩ | ⟨m, dest, t, h, h1, h2⟩ | ⟨m, h, _⟩
  · exact ⟨over a.name g _ v.2, change_field h, fun name x hx => over_field hx hn⟩
  · exact ⟨over a.name g _ v.2, change_view h, fun name x hx => over_field hx hn⟩
  · refine ⟨v.2, change_none h, fun name x hx => ?_⟩
    rw [if_neg fun e : name = a.name => m (e ▸ HasField.mem hx)]
    exact hx

/-- Every field of the container of every variant has an accessor, and one with the suffix `_mut`
except in the enums of shared references. -/
theorem C82_complete (hT : T ∈ forkTypes) {f : Fork} (hf : f ∈ (T.base K).order)
    {v : ((T.base K).schema f).Val} {name : String} {x : Any} (hx : HasField _ v name x) :
    (∃ a ∈ T.accessors, a.name = name ∧ a.exclusive = false) ∧
    (T.kind ≠ .shared → ∃ a ∈ T.accessors, a.name = name ∧ a.exclusive = true) := by
  have h := complete_ok T hT f (order_const hT K ▸ hf) name (names_const hT K f ▸ HasField.mem hx)
  simpa using h

/-- `From` makes of a reference to the container of a fork the variant of that fork. -/
theorem C82_from (hT : T ∈ forkTypes) (hk : T.kind ≠ .owned) (f g : Fork) :
    (f, g) ∈ T.froms ↔ g = f ∧ f ∈ (T.base K).order := by
  rw [order_const hT]
  exact froms_ok T hT hk f (mem_allForks f) g (mem_allForks g)

/-! ## Cases -/

/-- The default block body of a fork -/
def defaultBody (f : Fork) : Option (Versioned (Json.BeaconBlockBody Props.tinyConsts).schema) :=
  ((Json.BeaconBlockBody Props.tinyConsts).schema f).zero.map (⟨f, ·⟩)

/-- The accessor of a given name, and with or without the suffix `_mut` -/
def accessor (T : ForkType) (name : String) (exclusive : Bool) : Option Accessor :=
  T.accessors.find? fun a => a.name = name ∧ a.exclusive = exclusive

/-- What a body answers to `version`, to `sync_aggregate`, and which variant its payload is in -/
example : ([Fork.Phase0, .Altair, .Bellatrix, .Capella, .Deneb]).map (fun f => do
      let v ← defaultBody f
      let version ← accessor beaconBlockBody "version" false
      let sync ← accessor beaconBlockBody "sync_aggregate" false
      let payload ← accessor beaconBlockBody "execution_payload" false
      pure ((match version.call forkTypes v with | some (.version f) => some f | _ => none),
        (sync.call forkTypes v).isSome,
        match payload.call forkTypes v with | some (.view dest f _) => some (dest, f) | _ => none)) =
    [some (some .Phase0, false, none), some (some .Altair, true, none),
      some (some .Bellatrix, true, some ("ExecutionPayloadRef", .Bellatrix)),
      some (some .Capella, true, some ("ExecutionPayloadRef", .Capella)),
      some (some .Deneb, true, some ("ExecutionPayloadRef", .Deneb))] := by decide +kernel

/-- Put nine where an integer is. -/
def nine : (s : Schema) → s.Val → s.Val
  | .int b, v => if h : 9 < b then ⟨9, h⟩ else v
  | .num _, v => v
  | .bool, v => v
  | .text, v => v
  | .tag _, v => v
  | .bytes _, v => v
  | .byteList _, v => v
  | .bitvector _, v => v
  | .bitlist _, v => v
  | .ints _ _, v => v
  | .seq _ _, v => v
  | .record _, v => v

/-- The integer that an accessor gives -/
def int : Option Out → Option Nat
  | some (.value ⟨.int _, v⟩) => some v.val
  | _ => none

/-- After a change through `slot_mut` the block is at that slot, and its proposer is the same. -/
example : (do
      let b : Versioned (Json.BeaconBlock Props.tinyConsts).schema ←
        ((Json.BeaconBlock Props.tinyConsts).schema .Capella).zero.map (⟨.Capella, ·⟩)
      let slot_mut ← accessor beaconBlock "slot" true
      let slot ← accessor beaconBlock "slot" false
      let proposer_index ← accessor beaconBlock "proposer_index" false
      let c := slot_mut.change nine b
      pure (int (slot.call forkTypes b), int (slot.call forkTypes c),
        int (proposer_index.call forkTypes c))) = some (some 0, some 9, some 0) := by decide +kernel

/-- The theorems speak of these accessors. -/
example : (accessor beaconBlock "slot" true).any (fun a => beaconBlock.accessors.any (fun b =>
      b.name = a.name ∧ b.exclusive = a.exclusive) ∧ a.name ≠ "version" ∧
      allForks.all fun f => a.name ≠ variantName f) ∧
    beaconBlock ∈ forkTypes ∧ Fork.Capella ∈ (beaconBlock.base Props.tinyConsts).order :=
  ⟨by decide +kernel, by simp [forkTypes], by decide +kernel⟩

/-- There are 23 enums, with more than six hundred accessors. -/
example : forkTypes.length = 23 ∧ (forkTypes.map (·.accessors.length)).sum = 672 := by decide +kernel

end Verif.Accessors
