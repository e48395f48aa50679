import Verif.Model.TypeGen

/-! # Specification: the generator of the enums over forks -/

namespace Verif.Spec.TypeGen

open Accessors Verif.TypeGen

/-- The struct has a field of this name. -/
def Has (d : TypeDefn) (name : String) : Prop := ∃ x ∈ d.fields, x.name = name

/-- The generator has been told that the field was dropped by this fork or one before it. -/
def Dropped (T : Target) (name : String) (f : Fork) : Prop :=
  ∃ g names, T.deletions = some (g, names) ∧ name ∈ names ∧ rank g ≤ rank f

/-- The conventions that the structs of the forks have to follow -/
structure Regular (T : Target) (forks : List Fork) (defns : List TypeDefn) : Prop where
  /-- the forks are in their order -/
  order : forks.Pairwise (rank · < rank ·)
  /-- some fork has the struct -/
  some_ : defns ≠ []
  /-- and so do the forks after it, up to some fork -/
  gapless : ∃ before after, forks = before ++ defns.map (·.fork) ++ after
  /-- a field stays in later forks, unless it is declared as dropped -/
  kept : ∀ d ∈ defns, ∀ e ∈ defns, rank d.fork < rank e.fork → ∀ name, Has d name →
    Has e name ∨ Dropped T name e.fork
  /-- what is declared as dropped is no longer there -/
  gone : ∀ d ∈ defns, ∀ name, Has d name → ¬ Dropped T name d.fork

/-- What an accessor gives of a field: a reference to it or, if the field is itself an enum over forks,
the enum of references to it -/
def wanted (T : Target) (name : String) (exclusive : Bool) : Arm :=
  match T.child with
  | some (field, type) =>
    if field = name then .view name (type ++ if exclusive then "RefMut" else "Ref") else .field name
  | none => .field name

/-- The accessor leads, in every variant, to the field of its name if the struct has it, and to `None`
otherwise. -/
def Leads (T : Target) (defns : List TypeDefn) (a : Accessor) : Prop :=
  ∀ d ∈ defns, (Has d a.name → a.arm d.fork = some (wanted T a.name a.exclusive)) ∧
    (¬ Has d a.name → a.optional = true ∧ a.arm d.fork = some .none)

/-- The function that asks for a variant -/
def AsksVariant (defns : List TypeDefn) (a : Accessor) : Prop :=
  ∃ d ∈ defns, a.name = forkName d.fork ∧ a.optional = true ∧
    ∀ f, a.arm f = some (if f = d.fork then .all else .none)

/-- The function `version` -/
def AsksVersion (defns : List TypeDefn) (a : Accessor) : Prop :=
  a.name = "version" ∧ a.exclusive = false ∧ a.optional = false ∧
    ∀ d ∈ defns, a.arm d.fork = some (.version d.fork)

/-- No field has the name of another function. -/
def NoClash (defns : List TypeDefn) : Prop :=
  ∀ d ∈ defns, ∀ name, Has d name → name ≠ "version" ∧ ∀ f, name ≠ forkName f

end Verif.Spec.TypeGen
