import Verif.Proofs.TypeGen
import Verif.Model.TypeGenTables
import Verif.Model.AccessorTables

/-! # C104: the generator of the enums over forks writes the right functions -/

namespace Verif.Props

open Accessors TypeGen Spec.TypeGen

section

variable {T : Target} {forks : List Fork} {defns : List TypeDefn}

/-- For structs that follow the conventions the generator writes the enum around values and, if the type
needs them, the two around references. Each has one variant for every struct, in the order of the
forks, which holds the struct of that fork. The enum around values is read by trying the newest fork
first; the enums around references are made of a reference by its own variant. -/
theorem C104_variants (h : Regular T forks defns) :
    ∃ es, generate T forks defns = some es ∧
      es.map (fun e => (e.name, e.kind)) = (T.name, .owned) ::
        (if T.refs then [(T.name ++ "Ref", .shared), (T.name ++ "RefMut", .exclusive)] else []) ∧
      ∀ e ∈ es, e.variants = (defns.map fun d => ⟨d.fork, d.generics⟩) ∧
        (e.kind = .owned → e.reads = (defns.map (·.fork)).reverse) ∧
        (e.kind ≠ .owned → e.froms = defns.map fun d => (d.fork, d.fork)) := by
  refine ⟨_, generate_eq h, ?_, fun e he => ?_⟩
  · unfold as_syn
    cases T.refs <;> simp [owned_enum, derive_ref_impl]
  · obtain ⟨-, h2, -, h4, h5⟩ := enum_mem he
    exact ⟨h2, h4, h5⟩

/-- The const generics of an enum are those of its structs, each once. -/
theorem C104_generics (h : Regular T forks defns) {es : List Enum}
    (hg : generate T forks defns = some es) {e : Enum} (he : e ∈ es) :
    e.generics.Nodup ∧ ∀ g, g ∈ e.generics ↔ ∃ d ∈ defns, g ∈ d.generics := by
  rw [generate_eq h] at hg
  injection hg with hg
  subst hg
  rw [(enum_mem he).2.2.1]
  have := merge_generics (defns.map fun d => ⟨d.fork, d.generics⟩)
  simpa [merged, List.mem_map] using this

/-- Every function that is written asks for a variant, or for the version, or leads to a field that some
struct has: in every variant to the field of that name, and to `None` where there is none. -/
theorem C104_accessors (h : Regular T forks defns) {es : List Enum}
    (hg : generate T forks defns = some es) {e : Enum} (he : e ∈ es) {a : Accessor}
    (ha : a ∈ e.accessors) :
    AsksVariant defns a ∨ AsksVersion defns a ∨
      (∃ d ∈ defns, Has d a.name) ∧ Leads T defns a := by
  rw [generate_eq h] at hg
  injection hg with hg
  subst hg
  rw [(enum_mem he).1] at ha
  unfold derive_fields_impl at ha
  rw [supported_eq] at ha
  rcases List.mem_append.1 ha with ha | ha
  · rcases List.mem_append.1 ha with ha | ha
    · obtain ⟨v, hv, ha⟩ := List.mem_flatMap.1 ha
      obtain ⟨d, hd, rfl⟩ := List.mem_map.1 hv
      exact .inl (variant_asks hd ha)
    · rw [List.mem_singleton] at ha
      subst ha
      exact .inr (.inl version_asks)
  · obtain ⟨x, hx, ha⟩ := List.mem_flatMap.1 ha
    refine .inr (.inr ⟨?_, method_leads h hx ha⟩)
    obtain ⟨⟨d, hd, -, hh⟩, -⟩ := first_has h hx
    exact ⟨d, hd, (method_shape ha).1 ▸ hh⟩

/-- Nothing is missing: every variant, the version and every field of every struct can be asked for, by a
shared reference in every enum and by an exclusive one in those that allow it. -/
theorem C104_complete (h : Regular T forks defns) {es : List Enum}
    (hg : generate T forks defns = some es) {e : Enum} (he : e ∈ es) {d : TypeDefn}
    (hd : d ∈ defns) :
    (∃ a ∈ e.accessors, AsksVersion defns a) ∧
    ∀ exclusive, (exclusive = true → e.kind ≠ .shared) →
      (∃ a ∈ e.accessors, a.name = forkName d.fork ∧ a.exclusive = exclusive ∧
        a.optional = true ∧ ∀ f, a.arm f = some (if f = d.fork then .all else .none)) ∧
      ∀ name, Has d name → ∃ a ∈ e.accessors, a.name = name ∧ a.exclusive = exclusive ∧
        Leads T defns a := by
  rw [generate_eq h] at hg
  injection hg with hg
  subst hg
  rw [(enum_mem he).1]
  unfold derive_fields_impl
  rw [supported_eq]
  refine ⟨⟨_, by simp, version_asks⟩, fun exclusive hex => ⟨?_, ?_⟩⟩
  · refine ⟨⟨forkName d.fork, exclusive, true, [(some d.fork, .all), (none, .none)]⟩,
      List.mem_append_left _ (List.mem_append_left _ (List.mem_flatMap.2
        ⟨⟨d.fork, d.generics⟩, List.mem_map.2 ⟨d, hd, rfl⟩, ?_⟩)), rfl, rfl, rfl, fun f => ?_⟩
    · unfold variant_accessors
      cases hk : e.kind <;> cases exclusive <;> simp_all
    · unfold Accessor.arm
      by_cases hf : d.fork = f
      · simp [hf]
      · have hf' : ¬ f = d.fork := fun h => hf h.symm
        simp [hf, hf']
  · rintro name ⟨y, hy, rfl⟩
    have hm : y.name ∈ (mergeAll (stream defns)).map (·.ident) :=
      ((mergeAll_merged (stream defns)).idents _).2
        ⟨(d.fork, y), mem_stream.2 ⟨d, hd, rfl, hy⟩, rfl⟩
    obtain ⟨x, hx, hxn⟩ := List.mem_map.1 hm
    obtain ⟨a, ha, hae⟩ := method_exists T x (defns.map (·.fork)) hex
    exact ⟨a, List.mem_append_right _ (List.mem_flatMap.2 ⟨x, hx, ha⟩),
      (method_shape ha).1.trans hxn, hae, method_leads h hx ha⟩

/-- No function is written twice, unless a field has the name of a fork or is called `version`; and the
enum around shared references has no function that takes an exclusive one. -/
theorem C104_once (h : Regular T forks defns) (hn : NoClash defns) {es : List Enum}
    (hg : generate T forks defns = some es) {e : Enum} (he : e ∈ es) :
    (e.accessors.map fun a => (a.name, a.exclusive)).Nodup ∧
    (e.kind = .shared → ∀ a ∈ e.accessors, a.exclusive = false) := by
  rw [generate_eq h] at hg
  injection hg with hg
  subst hg
  rw [(enum_mem he).1]
  exact ⟨keys_nodup h hn _, fun hk => by rw [hk]; exact shared_only⟩

/-- The type that the signature of a field's function names is that of the newest struct with the
field. -/
theorem C104_newest (h : Regular T forks defns) :
    ∃ m, derive_merge_type forks defns = some m ∧ ∀ x ∈ m.fields,
      ∃ d ∈ defns, (∃ y ∈ d.fields, y.name = x.ident ∧ y.ty = x.ty) ∧
        ∀ e ∈ defns, Has e x.ident → rank e.fork ≤ rank d.fork :=
  ⟨_, merge_type_eq h, fun _ hx => last_has h hx⟩

end

/-! ## The structs of the repository -/

/-- The structs of the repository follow the conventions. -/
theorem C104_repo : ∀ p ∈ Repo.types, Regular p.1 Repo.forks (load_type_defns p.2 Repo.forks) ∧
    NoClash (load_type_defns p.2 Repo.forks) := by
  have : ∀ p ∈ Repo.types, regularB p.1 Repo.forks (load_type_defns p.2 Repo.forks) = true ∧
      noClashB (load_type_defns p.2 Repo.forks) = true := by decide +kernel
  exact fun p hp => ⟨regular_of_check (this p hp).1, noClash_of_check (this p hp).2⟩

/-- The enums that the generator writes for them -/
def written : List Enum :=
  Repo.types.flatMap fun p => (generate p.1 Repo.forks (load_type_defns p.2 Repo.forks)).getD []

deriving instance DecidableEq for Accessor

/-- What the generator writes for them is what has been committed: the same enums, with the same
functions and arms in the same order, the same conversions and the same order of reading. -/
theorem C104_committed (K : Json.Consts) :
    written.map (fun e => (e.name, e.kind, e.accessors, e.froms)) =
      forkTypes.map (fun t => (t.name, t.kind, t.accessors, t.froms)) ∧
    (written.filter (·.kind = .owned)).map (·.reads) =
      (forkTypes.filter (·.kind = .owned)).map fun t => (t.base K).order := by
  constructor
  · decide +kernel
  · have h : (written.filter (·.kind = .owned)).map (·.reads) =
        [[.Deneb, .Capella, .Bellatrix, .Altair, .Phase0],
          [.Deneb, .Capella, .Bellatrix, .Altair, .Phase0],
          [.Deneb, .Capella, .Bellatrix, .Altair, .Phase0], [.Deneb, .Capella, .Bellatrix],
          [.Deneb, .Capella, .Bellatrix], [.Deneb, .Capella, .Bellatrix],
          [.Deneb, .Capella, .Bellatrix],
          [.Deneb, .Capella, .Bellatrix, .Altair, .Phase0], [.Deneb, .Capella, .Bellatrix]] := by
      decide +kernel
    exact h.trans rfl

/-- Electra is not in the sequence, and nothing is written for it. -/
example : ∀ e ∈ written, .Electra ∉ e.variants.map (·.fork) := by decide +kernel

/-- The state's fields that altair dropped lead to `None` from altair on. -/
example : ∃ e ∈ written, e.name = "BeaconState" ∧ ∃ a ∈ e.accessors,
    a.name = "previous_epoch_attestations" ∧ a.optional = true ∧
    a.arm .Phase0 = some (.field "previous_epoch_attestations") ∧ a.arm .Altair = some .none := by
  decide +kernel

/-! ## Without the conventions

The generator checks none of them. -/

/-- If a fork in the middle has no struct, the variants get the structs of other forks: here
bellatrix's struct becomes the variant of altair. -/
theorem C104_gap : ∃ (forks : List Fork) (a b : TypeDefn) (m : MergeType),
    forks.Pairwise (rank · < rank ·) ∧ a.fork = .Phase0 ∧ b.fork = .Bellatrix ∧
    derive_merge_type forks [a, b] = some m ∧
    m.variants = [⟨.Phase0, a.generics⟩, ⟨.Altair, b.generics⟩] :=
  ⟨Repo.forks, ⟨.Phase0, ["A"], []⟩, ⟨.Bellatrix, ["A", "B"], []⟩, _, by decide, rfl, rfl, rfl, rfl⟩

/-- If a fork drops a field and the generator is not told so, the function that is written leads to a
field that is not there. -/
theorem C104_undeclared : ∃ (T : Target) (forks : List Fork) (a b : TypeDefn) (es : List Enum),
    forks = [a.fork, b.fork] ∧ forks.Pairwise (rank · < rank ·) ∧
    generate T forks [a, b] = some es ∧ ∃ e ∈ es, ∃ f ∈ e.accessors, ¬ Has b f.name ∧
      f.optional = false ∧ f.arm b.fork = some (.field f.name) := by
  refine ⟨⟨"X", false, none, none⟩, [.Phase0, .Altair], ⟨.Phase0, [], [⟨"old", "u64"⟩]⟩,
    ⟨.Altair, [], []⟩, _, rfl, by decide, rfl, _, List.mem_singleton.2 rfl,
    ⟨"old", false, false, [(some .Phase0, .field "old"), (some .Altair, .field "old")]⟩,
    by decide +kernel, ?_, rfl, rfl⟩
  simp [Has]

end Verif.Props
