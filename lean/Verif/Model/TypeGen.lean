import Verif.Model.Accessors

/-! # The generator of the enums over forks

`spec-gen/src/type_generator.rs`, which reads the structs of the forks and writes the files of
`ethereum-consensus/src/types/`. A struct is represented by its const generics and its fields with the
text of their types; what is written by the variants of the enum and, as in `Accessors`, by the
functions. Not modelled: imports, the text of signatures (whether a field is copied or borrowed), the
derived traits and the layout of the files. -/

namespace Verif.TypeGen

open Accessors

/-- The order of the forks, `generator.rs:15-24` (derived `Ord`) -/
def rank : Fork → Nat
  | .Phase0 => 0 | .Altair => 1 | .Bellatrix => 2 | .Capella => 3 | .Deneb => 4 | .Electra => 5

/-- `generator.rs:27-29` -/
def forkName : Fork → String
  | .Phase0 => "phase0" | .Altair => "altair" | .Bellatrix => "bellatrix"
  | .Capella => "capella" | .Deneb => "deneb" | .Electra => "electra"

/-- What the generator knows of a type it is to wrap, `type_generator.rs:21-116` -/
structure Target where
  name : String
  /-- `needs_ref_types` -/
  refs : Bool
  /-- `polymorphic_fields` and `get_polymorphic_type`: the field that is itself an enum over forks,
  and the name of that enum -/
  child : Option (String × String)
  /-- `field_deletions`: the fork that dropped fields, and the fields -/
  deletions : Option (Fork × List String)

/-- A field of a struct -/
structure FieldDecl where
  name : String
  ty : String
  deriving DecidableEq

/-- `type_generator.rs:245-248`: the struct that a fork has -/
structure TypeDefn where
  fork : Fork
  generics : List String
  fields : List FieldDecl
  deriving DecidableEq

/-- `type_generator.rs:288-292` -/
structure Variant where
  fork : Fork
  generics : List String
  deriving DecidableEq

/-- `type_generator.rs:294-299` -/
structure FieldDefn where
  fork : Fork
  ident : String
  ty : String
  deriving DecidableEq

/-- `type_generator.rs:275-280` -/
structure MergeType where
  generics : List String
  variants : List Variant
  fields : List FieldDefn

/-- `type_generator.rs:250-273`: of each fork that has a file for the type, the struct of that name.
`source` gives what is found in the fork's file. -/
def load_type_defns (source : Fork → Option (List String × List FieldDecl)) (forks : List Fork) :
    List TypeDefn :=
  forks.filterMap fun f => (source f).map fun d => ⟨f, d.1, d.2⟩

/-- `type_generator.rs:301-311` -/
def derive_merge_generics (variants : List Variant) : List String :=
  (variants.flatMap (·.generics)).foldl (fun all g => if all.contains g then all else all ++ [g]) []

/-- One round of the inner loop, `type_generator.rs:324-337`. The set `seen_fields` holds the names in
`fields`. -/
def merge_field (fork : Fork) (fields : List FieldDefn) (d : FieldDecl) : List FieldDefn :=
  match fields.findIdx? (·.ident = d.name) with
  | some i => fields.modify i fun old => ⟨old.fork, d.name, d.ty⟩
  | none => fields ++ [⟨fork, d.name, d.ty⟩]

/-- `type_generator.rs:313-343`; it panics if there is no definition. -/
def derive_merge_type (fork_sequence : List Fork) (defns : List TypeDefn) : Option MergeType := do
  let first ← defns.head?
  let pairs := (fork_sequence.dropWhile (· ≠ first.fork)).zip defns
  let variants := pairs.map fun p => ⟨p.1, p.2.generics⟩
  let fields := pairs.foldl (fun fields p => p.2.fields.foldl (merge_field p.1) fields) []
  some ⟨derive_merge_generics variants, variants, fields⟩

/-- `type_generator.rs:282-286` -/
def MergeType.supported_forks (m : MergeType) : List Fork := m.variants.map (·.fork)

/-- `type_generator.rs:509-551`. `dest` is the enum that a polymorphic field is turned into. -/
def derive_match_arms (source_fork : Fork) (fork_sequence : List Fork) (ident : String)
    (dest : Option String) (deletion_fork : Option Fork) : List (Option Fork × Arm) :=
  fork_sequence.map fun fork =>
    let was_deleted := match deletion_fork with
      | some d => decide (rank d ≤ rank fork)
      | none => false
    if rank fork < rank source_fork ∨ was_deleted = true then (some fork, .none)
    else (some fork, match dest with
      | some t => .view ident t
      | none => .field ident)

/-- `type_generator.rs:386-507` -/
def derive_method_set (T : Target) (d : FieldDefn) (fork_sequence : List Fork) (kind : Kind) :
    List Accessor :=
  let deletion_fork := match T.deletions with
    | some (fork, fields) => if fields.contains d.ident then some fork else none
    | none => none
  let field_defined_in_all_forks := fork_sequence.head? = some d.fork
  let is_optional := deletion_fork.isSome || !field_defined_in_all_forks
  let dest (suffix : String) := match T.child with
    | some (field, type) => if field = d.ident then some (type ++ suffix) else none
    | none => none
  let immut_ref : Accessor := ⟨d.ident, false, is_optional,
    derive_match_arms d.fork fork_sequence d.ident (dest "Ref") deletion_fork⟩
  let mut_ref : Accessor := ⟨d.ident, true, is_optional,
    derive_match_arms d.fork fork_sequence d.ident (dest "RefMut") deletion_fork⟩
  match kind with
  | .shared => [immut_ref]
  | .exclusive | .owned => [immut_ref, mut_ref]

/-- The accessors of a variant, `type_generator.rs:564-600` -/
def variant_accessors (v : Variant) (kind : Kind) : List Accessor :=
  let arms : List (Option Fork × Arm) := [(some v.fork, .all), (none, .none)]
  match kind with
  | .shared => [⟨forkName v.fork, false, true, arms⟩]
  | .exclusive | .owned => [⟨forkName v.fork, false, true, arms⟩, ⟨forkName v.fork, true, true, arms⟩]

/-- `type_generator.rs:603-618` -/
def version_accessor (fork_sequence : List Fork) : Accessor :=
  ⟨"version", false, false, fork_sequence.map fun f => (some f, .version f)⟩

/-- `type_generator.rs:558-625` -/
def derive_fields_impl (T : Target) (m : MergeType) (kind : Kind) : List Accessor :=
  m.variants.flatMap (fun v => variant_accessors v kind) ++ [version_accessor m.supported_forks] ++
    m.fields.flatMap fun d => derive_method_set T d m.supported_forks kind

/-- An enum that is written: around values, or around shared or exclusive references -/
structure Enum where
  name : String
  kind : Kind
  generics : List String
  /-- each variant holds the struct of its fork, with these generics -/
  variants : List Variant
  accessors : List Accessor
  /-- `impl From`: the fork of the struct, and the variant made of it -/
  froms : List (Fork × Fork)
  /-- the order in which `Deserialize` tries the variants -/
  reads : List Fork

/-- `type_generator.rs:345-384, 627-636, 760-793` -/
def owned_enum (T : Target) (m : MergeType) : Enum where
  name := T.name
  kind := .owned
  generics := m.generics
  variants := m.variants
  accessors := derive_fields_impl T m .owned
  froms := []
  reads := (m.variants.map (·.fork)).reverse

/-- `type_generator.rs:638-758` -/
def derive_ref_impl (T : Target) (m : MergeType) (is_mut : Bool) : Enum where
  name := T.name ++ (if is_mut then "RefMut" else "Ref")
  kind := if is_mut then .exclusive else .shared
  generics := m.generics
  variants := m.variants
  accessors := derive_fields_impl T m (if is_mut then .exclusive else .shared)
  froms := m.variants.map fun v => (v.fork, v.fork)
  reads := []

/-- `type_generator.rs:795-811` -/
def as_syn (T : Target) (m : MergeType) : List Enum :=
  owned_enum T m :: if T.refs then [derive_ref_impl T m false, derive_ref_impl T m true] else []

/-- The body of the loop of `type_generator.rs:825-845`: what is written for one type -/
def generate (T : Target) (fork_sequence : List Fork) (defns : List TypeDefn) :
    Option (List Enum) :=
  (derive_merge_type fork_sequence defns).map (as_syn T)

end Verif.TypeGen
